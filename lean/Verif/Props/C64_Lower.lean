import Verif.Spec.Lower
import Verif.Spec.RuleDemo
import Verif.Spec.Demo
import Verif.Props.C20_Shifts
import Verif.Props.C14_RuleSlots
import Verif.Props.C01_Engine

/-! # C64: entity ranges refer to the text of the user -/

namespace Snips

theorem lowerCasing_single {R : Char → Text → Prop} {text low : Text} (h : LowerCasing R text low)
    (hs : SingleForms R text) : List.Forall₂ (fun c d => R c [d]) text low := by
  obtain ⟨forms, hf, rfl⟩ := h
  induction hf with
  | nil => exact List.Forall₂.nil
  | @cons c form text forms hc _ ih =>
    obtain ⟨d, rfl⟩ := List.length_eq_one_iff.1 (hs c (by simp) form hc)
    exact List.Forall₂.cons hc (ih fun c' hc' => hs c' (by simp [hc']))

theorem lowerCasing_of_single {R : Char → Text → Prop} {text low : Text}
    (h : List.Forall₂ (fun c d => R c [d]) text low) : LowerCasing R text low := by
  induction h with
  | nil => exact ⟨[], List.Forall₂.nil, rfl⟩
  | @cons c d text low hc _ ih =>
    obtain ⟨forms, h1, h2⟩ := ih
    exact ⟨[d] :: forms, List.Forall₂.cons hc h1, by rw [h2]; rfl⟩

/-- If every character has one-character lower-case forms, positions are kept: the lower-casing is as long as the text,
and at any range it is a lower-casing of the text at this range. -/
theorem c64_positions {R : Char → Text → Prop} {text low : Text} (h : LowerCasing R text low)
    (hs : SingleForms R text) :
    low.length = text.length ∧ ∀ r : Rng, LowerCasing R (substr text r) (substr low r) := by
  have h1 := lowerCasing_single h hs
  exact ⟨h1.length_eq.symm, fun r => lowerCasing_of_single (List.forall₂_take _ (List.forall₂_drop _ h1))⟩

/-- In general a match in the lower-casing is reported too far to the right: by the number of characters which
lower-casing adds before it. -/
theorem c64_displaced {R : Char → Text → Prop} {pre mid post lpre lmid lpost : Text}
    (_ : LowerCasing R pre lpre) (_ : LowerCasing R mid lmid) (_ : LowerCasing R post lpost) (r : Rng)
    (hr : r = ⟨lpre.length, lpre.length + lmid.length⟩) (extra : Nat) (hx : lpre.length = pre.length + extra) :
    substr (lpre ++ lmid ++ lpost) r = lmid ∧
    substr (pre ++ mid ++ post) r = ((mid ++ post).drop extra).take lmid.length := by
  subst hr
  constructor
  · simp [substr]
  · simp only [substr, Nat.add_sub_cancel_left, hx, List.append_assoc]
    rw [← List.drop_drop, List.drop_left]

/-- An entity found by the builtin parser is at a range of the user's text, and what was found is a lower-casing of the
user's text there; provided no character of the text has a longer lower-case form. -/
theorem c64_builtin_partial (R : Char → Text → Prop) (x : Ext) (hb : x.BuiltinFaithful) (time : Nat) (text : Text)
    (hl : LowerCasing R text (x.lower text)) (hs : SingleForms R text) (kinds : Option (List Kind)) (n : Nat)
    (es : List BuiltinEntity) (h : (x.world time).builtin text kinds n = .ok es) :
    ∀ e ∈ es, e.range.stop ≤ text.length ∧ LowerCasing R (substr text e.range) e.value := by
  intro e he
  obtain ⟨h1, h2⟩ := c64_positions hl hs
  obtain ⟨_, h3, h4⟩ := hb time (x.lower text) kinds n es h e he
  rw [h4]
  exact ⟨by omega, h2 _⟩

/-- An entity found by the gazetteer parser (its matches beginning and ending with tokens) is, in the user's text, at
the range from the first to the last of these tokens, and the lower-casing is at this range a lower-casing of the user's
text there; provided no character of the text has a longer lower-case form. -/
theorem c64_custom_partial (R : Char → Text → Prop) (x : Ext) (time : Nat) (text : Text)
    (hl : LowerCasing R text (x.lower text)) (hs : SingleForms R text) (hsize : text.length < 2 ^ 30)
    (htok : Tokenized (x.lower text) (x.tokenize (x.lower text)))
    (kinds : Option (List Text)) (n : Nat)
    (hg : ∀ ms, x.gazetteer (joinWith [' '] ((x.tokenize (x.lower text)).map Token.value)) kinds n = .ok ms →
      ∀ m ∈ ms, ∃ (a b : Nat) (ta tb : Token), a ≤ b ∧ (x.tokenize (x.lower text))[a]? = some ta ∧
        (x.tokenize (x.lower text))[b]? = some tb ∧
        m.range = ⟨joinStart (x.tokenize (x.lower text)) a, joinStart (x.tokenize (x.lower text)) b + tb.value.length⟩)
    (es : List CustomEntity) (h : (x.world time).custom text kinds n = .ok es) :
    ∀ e ∈ es, (∃ ta ∈ x.tokenize (x.lower text), ∃ tb ∈ x.tokenize (x.lower text),
        ta.charRange.start ≤ tb.charRange.start ∧ e.range = ⟨ta.charRange.start, tb.charRange.stop⟩) ∧
      e.range.stop ≤ text.length ∧ LowerCasing R (substr text e.range) (substr (x.lower text) e.range) := by
  intro e he
  obtain ⟨h1, h2⟩ := c64_positions hl hs
  have hx : x.customExtract (x.lower text) kinds n = .ok es := h
  unfold Ext.customExtract at hx
  simp only at hx
  cases hgz : x.gazetteer (joinWith [' '] ((x.tokenize (x.lower text)).map Token.value)) kinds n with
  | err e => rw [hgz] at hx; cases hx
  | panic => rw [hgz] at hx; cases hx
  | ok ms =>
    rw [hgz] at hx
    simp only at hx
    obtain ⟨m, hm, hme⟩ : ∃ m ∈ ms, remapEntity (computeCharShifts (x.tokenize (x.lower text))) m = .ok e := by
      have := mapOutcome_ok_iff.1 hx
      clear hx hg h hgz
      induction this with
      | nil => cases he
      | cons h0 _ ih =>
        rcases List.mem_cons.1 he with rfl | he
        · exact ⟨_, by simp, h0⟩
        · obtain ⟨m, hm, hme⟩ := ih he
          exact ⟨m, by simp [hm], hme⟩
    obtain ⟨a, b, ta, tb, hab, ha, hb, hr⟩ := hg ms hgz m hm
    have hta := List.mem_of_getElem? ha
    have htb := List.mem_of_getElem? hb
    have na := htok.nonempty ta hta
    have nb := htok.nonempty tb htb
    have la := htok.len ta hta
    have lb := htok.len tb htb
    have ib := htok.inside tb htb
    unfold Rng.NonEmpty at na nb
    rw [c20_remap (x.lower text) _ htok (by omega) a b 0 tb.value.length ta tb ha hb (by omega) (by omega)
      (Nat.le_refl _) m (by simpa using hr)] at hme
    injection hme with hme
    have hrange : e.range = ⟨ta.charRange.start, tb.charRange.stop⟩ := by
      rw [← hme]
      simp only [Nat.add_zero, Rng.mk.injEq, true_and]
      omega
    refine ⟨⟨ta, hta, tb, htb, ?_, hrange⟩, ?_, h2 _⟩
    · rcases Nat.lt_or_ge a b with hlt | hge
      · obtain ⟨ha1, ha2⟩ := List.getElem?_eq_some_iff.1 ha
        obtain ⟨hb1, hb2⟩ := List.getElem?_eq_some_iff.1 hb
        have := List.pairwise_iff_getElem.1 htok.ordered a b ha1 hb1 hlt
        rw [ha2, hb2] at this
        omega
      · have : a = b := by omega
        subst this
        rw [ha] at hb
        cases hb
        exact Nat.le_refl _
    · rw [hrange]
      show tb.charRange.stop ≤ _
      omega

/-- A slot returned by the lookup parser is at the range at which one of the two extractors found an entity of the
slot's type in the lower-cased text, and the text found there is a lower-casing of the slot's raw value; provided no
character of the text has a longer lower-case form. -/
theorem c64_lookup_partial (R : Char → Text → Prop) (x : Ext) (time : Nat) (input : Text)
    (hl : LowerCasing R input (x.lower input)) (hs : SingleForms R input)
    (env : RuleEnv) (p : Lookup) (o : HashOrd) (filter : Option (List Text)) (out : InternalResult)
    (h : (p.parse env o input filter).run (x.world time) = .ok out) :
    ∀ s ∈ out.slots, LowerCasing R s.value (substr (x.lower input) s.charRange) ∧
      ((∃ kinds n es, x.builtinRaw time (x.lower input) kinds n = .ok es ∧
          ∃ e ∈ es, e.range = s.charRange ∧ s.entity = env.names.identifier e.kind) ∨
        ∃ kinds n es, x.customExtract (x.lower input) kinds n = .ok es ∧
          ∃ e ∈ es, e.range = s.charRange ∧ s.entity = e.identifier) := by
  intro s hm
  obtain ⟨ms, _, h1, _, hv⟩ := c35_lookup_rounded env p o _ input _ out h
  cases hn : out.intent.name with
  | none => rw [hv.absent hn] at hm; cases hm
  | some i =>
    obtain ⟨scope, _, _, _, _, found, es, hfound, hes, _, slotIds, _, _, _, hsl⟩ := (h1 i _ (hv.slots i hn)).1
    obtain ⟨m, hmem, h3, h4, h5⟩ : ∃ m ∈ found, s.entity = m.name ∧ s.charRange = m.range ∧
        s.value = substr input m.range := by
      have hz : ∀ ie ∈ slotIds.zip es, ie.2 ∈ found := fun ie hie => hes.subset (List.of_mem_zip hie).2
      revert hz hm
      generalize slotIds.zip es = zs at hsl
      clear hv
      generalize out.slots = sl at hsl
      intro hm hz
      induction hsl with
      | nil => cases hm
      | @cons ie s' _ _ h0 _ ih =>
        rcases List.mem_cons.1 hm with rfl | hm
        · exact ⟨ie.2, hz ie (by simp), h0.2.1, h0.2.2.1, h0.2.2.2⟩
        · exact ih hm fun ie' h' => hz ie' (by simp [h'])
    refine ⟨?_, ?_⟩
    · rw [h5, h4]
      exact (c64_positions hl hs).2 _
    · unfold Lookup.allEntities at hfound
      rw [Prog.run_bind, Outcome.bind_ok] at hfound
      obtain ⟨kinds, _, hfound⟩ := hfound
      rw [Prog.run_builtinCached_ok] at hfound
      obtain ⟨bs, hbs, hfound⟩ := hfound
      rw [Prog.run_custom_ok] at hfound
      obtain ⟨cs, hcs, hfound⟩ := hfound
      simp only [Prog.run_ret, Outcome.ok.injEq] at hfound
      subst hfound
      have hmem := (c16_sound _).1.subset hmem
      rcases List.mem_append.1 hmem with h | h
      · left
        obtain ⟨km, hkm, rfl⟩ := List.mem_map.1 h
        obtain ⟨b, hb, rfl⟩ := List.mem_map.1 hkm
        exact ⟨some kinds, 0, bs, hbs, b, hb, h4.symm, h3⟩
      · right
        obtain ⟨c, hc, rfl⟩ := List.mem_map.1 h
        exact ⟨_, 0, cs, hcs, c, hc, h4.symm, h3⟩

/-! ### A character with a longer lower-case form -/

/-- Lower-case forms of `char::to_lowercase` on the characters of the examples: `İ` (U+0130) becomes `i` and U+0307. -/
def rustLower (c : Char) : Text := if c = 'İ' then ['i', '̇'] else [c.toLower]

/-- The extractors of the examples: `two` is a number, `tea` is a `drink`, in the lower-cased text. -/
def turkishExt : Ext where
  lower t := t.flatMap rustLower
  tokenize := ruleFns.tokenize
  builtinRaw _ s kinds n := ruleWorld.builtin s kinds n
  gazetteer s kinds n := ruleWorld.custom s kinds n

theorem turkish_lowerCasing (t : Text) : LowerCasing (fun c form => form = rustLower c) t (turkishExt.lower t) := by
  refine ⟨t.map rustLower, ?_, by simp [turkishExt, List.flatMap]⟩
  rw [List.forall₂_map_right_iff]
  exact List.forall₂_same.2 fun _ _ => rfl

/-- A regular expression `(?P<group>pat)`, with byte offsets. -/
def byteRegex (group pat : Text) : Regex where
  isMatch t := (findText pat t).isSome
  capturesIter t := match findText pat t with
    | some i =>
      let r : Rng := ⟨byteLen (t.take i), byteLen (t.take i) + byteLen pat⟩
      [[some r, some r]]
    | none => []
  captureNames := [none, some group]

/-- The deterministic parser of the examples, one pattern. -/
def byteDet : Det := { demoDet with
  regexes := [("brew".toList, [byteRegex "g0_1".toList "%SNIPS/NUMBER%".toList]), ("idiom".toList, []),
    ("halt".toList, [])] }

/-- In `İ two x` the number is reported where the user did not type it: the slot's raw value is `wo` and the following
space. -/
theorem c64_counterexample :
    let e : Engine := ⟨⟨[], []⟩, [byteDet.impl demoEnv], demoKinds⟩
    (e.parse HashOrd.insertion "İ two x".toList none none).run (turkishExt.world 0)
      = .ok ⟨"İ two x".toList, ⟨some "brew".toList, 1⟩,
        [⟨"wo ".toList, .builtin 2, [], ⟨3, 6⟩, "snips/number".toList, "count".toList⟩], []⟩ := by
  decide +kernel

/-! ### Concrete cases -/

example : SingleForms (fun c form => form = rustLower c) "Make the Two".toList := by
  rintro c hc form rfl
  revert c
  decide

example : demoExt.BuiltinFaithful := by
  intro time s kinds n es h e he
  simp only [demoExt] at h
  split at h
  · cases h
  · cases h
    rw [List.mem_singleton] at he
    subst he
    exact ⟨Nat.zero_le _, Nat.le_refl _, by simp [substr]⟩

/-- A gazetteer whose matches begin and end with tokens. -/
example (text : Text) : ∀ ms, demoExt.gazetteer (joinWith [' '] ((demoExt.tokenize text).map Token.value)) none 0 = .ok ms →
    ∀ m ∈ ms, ∃ (a b : Nat) (ta tb : Token), a ≤ b ∧ (demoExt.tokenize text)[a]? = some ta ∧
      (demoExt.tokenize text)[b]? = some tb ∧
      m.range = ⟨joinStart (demoExt.tokenize text) a, joinStart (demoExt.tokenize text) b + tb.value.length⟩ := by
  intro ms h m hm
  by_cases ht : text = []
  · subst ht
    simp [demoExt, joinWith] at h
    subst h
    cases hm
  · simp [demoExt, joinWith, ht] at h
    subst h
    rw [List.mem_singleton] at hm
    subst hm
    exact ⟨0, 0, ⟨text, ⟨0, text.length⟩, ⟨0, text.length⟩⟩, ⟨text, ⟨0, text.length⟩, ⟨0, text.length⟩⟩, Nat.le_refl _,
      by simp [demoExt, ht], by simp [demoExt, ht], by simp [demoExt, ht, joinStart]⟩

/-- Without such a character the range and the text are right. -/
example :
    let e : Engine := ⟨⟨[], []⟩, [byteDet.impl demoEnv], demoKinds⟩
    (e.parse HashOrd.insertion "I Two x".toList none none).run (turkishExt.world 0)
      = .ok ⟨"I Two x".toList, ⟨some "brew".toList, 1⟩,
        [⟨"Two".toList, .builtin 2, [], ⟨2, 5⟩, "snips/number".toList, "count".toList⟩], []⟩ := by
  decide +kernel

example : (demoLookup.parse demoEnv HashOrd.insertion "Make Two Tea".toList (some ["brew".toList])).run
      (turkishExt.world 0)
    = .ok ⟨⟨some "brew".toList, 1⟩, [⟨"Two".toList, ⟨5, 8⟩, "snips/number".toList, "count".toList⟩,
        ⟨"Tea".toList, ⟨9, 12⟩, "drink".toList, "kind".toList⟩]⟩ := by decide +kernel

end Snips
