import Verif.Spec.SlotOrigin
import Verif.Props.C62_Patterns
import Verif.Props.C18_Ranges
import Verif.Props.C19_Blanking
import Verif.Props.C26_Tags
import Verif.Props.C64_Lower

/-! # C68: the deterministic parser's slots are what its patterns captured, in the user's own text -/

namespace Snips

theorem Blanked.substr {a b : Text} (h : Blanked a b) (r : Rng) : Blanked (substr a r) (substr b r) :=
  List.forall₂_take _ (List.forall₂_drop _ h)

theorem blanked_of_getElem? {a b : Text} (hl : b.length = a.length)
    (h : ∀ i < a.length, b[i]? = a[i]? ∨ b[i]? = some ' ') : Blanked a b := by
  unfold Blanked
  rw [List.forall₂_iff_get]
  refine ⟨hl.symm, fun i h1 h2 => ?_⟩
  rcases h i h1 with h | h
  · left
    rw [List.getElem?_eq_getElem h2, List.getElem?_eq_getElem h1] at h
    exact Option.some.inj h
  · right
    rw [List.getElem?_eq_getElem h2] at h
    exact Option.some.inj h

theorem substr_getElem? {t : Text} {r : Rng} {i : Nat} (h : r.Has i) :
    (substr t r)[i - r.start]? = t[i]? := by
  unfold Rng.Has at h
  unfold substr
  rw [List.getElem?_take_of_lt (by omega), List.getElem?_drop]
  congr 1
  omega

theorem preprocess_blanked {fns : TextFns} {p : Det} {text intent cleaned : Text}
    (htok : Tokenized text (fns.tokenize text)) (h : p.preprocess fns text intent = .ok cleaned) :
    Blanked text cleaned := by
  obtain ⟨c, h1, h2, h3, h4⟩ := c19_positions fns p text intent htok
  rw [h] at h1
  cases h1
  refine blanked_of_getElem? h2 fun i hi => ?_
  by_cases hk : ∃ tok ∈ fns.tokenize text, fns.normalize tok.value ∉ p.stopWords.forIntent intent ∧
      tok.charRange.Has i
  · obtain ⟨tok, hm, hns, hh⟩ := hk
    left
    rw [← substr_getElem? hh, h3 tok hm hns, htok.value tok hm]
    exact substr_getElem? hh
  · right
    exact h4 i hi fun tok hm hns hh => hk ⟨tok, hm, hns, hh⟩

/-- Every slot of an intent the parser returns comes from a named group of a pattern of this intent: it has
the name given to the group and the entity declared for it, and it is what the group captured, as found in the
user's text.  Assumed: the tokenizer's and the regular expressions' ranges are faithful, and entities lie in the
range where positions are recovered (see C18). -/
theorem c68_slots (env : RuleEnv) (p : Det) (hb : p.Built env.names) (o : HashOrd) (w : World) (input : Text)
    (hin : input.length < 2 ^ 31) (hsm : p.SmallMatches env w input)
    (htok : ∀ t, Tokenized t (env.fns.tokenize t))
    (hreg : ∀ intent patterns, p.regexes.get intent = some patterns → ∀ r ∈ patterns, r.OnBoundaries)
    (filter : Option (List Text)) (out : InternalResult) (h : (p.parse env o input filter).run w = .ok out)
    (intent : Text) (hi : out.intent.name = some intent) (s : InternalSlot) (hs : s ∈ out.slots) :
    Det.ComesFrom env p w input intent s := by
  obtain ⟨raw, formatted, table, patterns, before, r, after, ⟨⟨kinds, entities, bs, cs, new, hsc, hbs, hcs, hrep, hraw,
    hform⟩⟩, hp, hpat, _, hr⟩ := c62_parse env p hb o w input filter out h intent hi
  have hmem : r ∈ patterns := by rw [hpat]; simp
  -- the group of the slot
  have group : ∀ text origin, p.Reads env.fns input intent r text origin out.slots →
      ∃ g : Nat × Rng × Text, ∃ caps n m, r.Captures text caps ∧ 1 ≤ g.1 ∧ caps[g.1]? = some (some g.2.1) ∧
        r.captureNames[g.1]? = some (some g.2.2) ∧ n ≤ m ∧ AtByte text n g.2.1.start ∧ AtByte text m g.2.1.stop ∧
        p.GroupSlot input intent origin g s := by
    rintro text origin ⟨caps, groups, all, hc, ⟨_, hg⟩, hall, hk⟩
    have hsa : s ∈ all := hk.subset.subset hs
    obtain ⟨i, hi⟩ := List.mem_iff_getElem?.1 hsa
    have hflip := List.Forall₂.flip hall
    obtain ⟨g, hgi, hgs⟩ := forall₂_getElem? hflip hi
    obtain ⟨g1, g2, g3⟩ := (hg g.1 g.2.1 g.2.2).1 (List.mem_of_getElem? hgi)
    obtain ⟨_, _, void, rest, he, _⟩ := id hc
    obtain ⟨n, m, hnm, h1, h2⟩ := hreg intent patterns hp r hmem text caps (by rw [he]; simp) g.1 g.2.1 g2
    exact ⟨g, caps, n, m, hc, g1, g2, g3, hnm, h1, h2, hgs⟩
  rcases hr with hread | ⟨_, hread⟩
  · obtain ⟨g, caps, n, m, hc, g1, g2, g3, hnm, h1, h2, ⟨key, hu, hkey⟩, ⟨declared, hd, hde⟩, hrange, hval⟩ :=
      group raw _ hread
    have hcr := (c55_consistent raw n m _ _ h1 h2 hnm).1
    rw [show (⟨g.2.1.start, g.2.1.stop⟩ : Rng) = g.2.1 from rfl] at hcr
    rw [hcr] at hrange
    have hbl := preprocess_blanked (htok input) hraw
    refine ⟨patterns, r, g.2.2, key, declared, hp, hmem, hu, hkey, hd, hde, hval, Or.inl ⟨raw, hbl, ?_, ?_⟩⟩
    · rw [hrange]
      exact ⟨caps, g.1, g.2.1, hc, g1, g2, g3, hnm, h1, h2⟩
    · rw [hval]
      exact hbl.substr _
  · obtain ⟨g, caps, n, m, hc, g1, g2, g3, hnm, h1, h2, ⟨key, hu, hkey⟩, ⟨declared, hd, hde⟩, hrange, hval⟩ :=
      group formatted _ hread
    have hcr := (c55_consistent formatted n m _ _ h1 h2 hnm).1
    rw [show (⟨g.2.1.start, g.2.1.stop⟩ : Rng) = g.2.1 from rfl] at hcr
    simp only [hcr] at hrange
    have hrep' : (table, new) = replaceEntities input (bs.map (fun e => ⟨e.range, env.names.identifier e.kind⟩) ++
        cs.map fun e => ⟨e.range, e.identifier⟩) (entityPlaceholder env.fns) := by
      unfold replaceChecked at hrep
      split at hrep
      · cases hrep
      · exact (Outcome.ok.inj hrep).symm
    obtain ⟨hsb, hsc', hend⟩ := hsm _ (Map.get_some_mem hsc) bs cs hbs hcs
    have hne : ∀ e ∈ bs.map (fun e => (⟨e.range, env.names.identifier e.kind⟩ : MatchedEntity)) ++
        cs.map (fun e => (⟨e.range, e.identifier⟩ : MatchedEntity)),
        e.range.NonEmpty ∧ e.range.stop ≤ input.length := by
      intro e he
      rcases List.mem_append.1 he with he | he
      · obtain ⟨b, hb', rfl⟩ := List.mem_map.1 he; exact hsb b hb'
      · obtain ⟨b, hb', rfl⟩ := List.mem_map.1 he; exact hsc' b hb'
    obtain ⟨segs, s1, s2, s3, s4⟩ := c18_recovery_partial input _ (entityPlaceholder env.fns)
      (fun e he => (hne e he).1) (fun e he => (hne e he).2) (entityPlaceholder_ne_nil env.fns) hend (by omega)
    obtain ⟨s5, s6⟩ := s4 o
    rw [← hrep'] at s3 s5 s6
    simp only at s3 s5 s6
    have hbl := preprocess_blanked (htok new) hform
    rw [s3] at hbl
    refine ⟨patterns, r, g.2.2, key, declared, hp, hmem, hu, hkey, hd, hde, hval, Or.inr
      ⟨kinds, entities, bs, cs, hsc, hbs, hcs, segs, formatted, ⟨n, m⟩, s1, s2, hbl,
        ⟨caps, g.1, g.2.1, hc, g1, g2, g3, hnm, h1, h2⟩, ?_, ?_⟩⟩
    · intro c hcm he
      rw [he, s5 c hcm] at hrange
      exact ⟨hrange, by rw [hval, hrange]⟩
    · intro hn hdisj
      have hml : m ≤ (replText (entityPlaceholder env.fns) segs).length := by
        rw [hbl.length_eq]; exact h2.1
      obtain ⟨r', e1, e2, e3, e4, e5⟩ := s6 ⟨n, m⟩ hn hml hdisj
      rw [e1] at hrange
      rw [hrange]
      refine ⟨⟨by simp only at e3; omega, e2⟩, ?_, e5⟩
      rw [hval, hrange, e4]
      exact hbl.substr _

/-- The same for the slots asked for an intent. -/
theorem c68_get_slots (env : RuleEnv) (p : Det) (hb : p.Built env.names) (o : HashOrd) (w : World) (input : Text)
    (hin : input.length < 2 ^ 31) (hsm : p.SmallMatches env w input)
    (htok : ∀ t, Tokenized t (env.fns.tokenize t))
    (hreg : ∀ intent patterns, p.regexes.get intent = some patterns → ∀ r ∈ patterns, r.OnBoundaries)
    (intent : Text) (slots : List InternalSlot) (h : (p.getSlots env o input intent).run w = .ok slots) :
    ∀ s ∈ slots, Det.ComesFrom env p w input intent s := by
  intro s hs
  unfold Det.getSlots at h
  split at h
  · rw [Prog.run_bind, Outcome.bind_ok] at h
    obtain ⟨out, hout, h⟩ := h
    cases h
    obtain ⟨ms, _, hms, hv⟩ := c35_deterministic_rounded env p hb o w input _ out hout
    cases hn : out.intent.name with
    | none =>
      rw [hv.absent hn] at hs
      cases hs
    | some i =>
      have hi : i = intent := by
        have := ((hms i _).1 (hv.slots i hn)).1 _ rfl
        simpa using this
      subst hi
      exact c68_slots env p hb o w input hin hsm htok hreg _ out hout _ hn s hs
  · cases h

/-! ### Concrete cases -/

/-- Words separated by single spaces. -/
def spaced : List Text → Text
  | [] => []
  | [v] => v
  | v :: v' :: vs => v ++ ' ' :: spaced (v' :: vs)

theorem spaced_splitOn (t : Text) : spaced (t.splitOn ' ') = t := by
  have h : ∀ vs : List Text, [' '].intercalate vs = spaced vs := by
    intro vs
    induction vs with
    | nil => rfl
    | cons v vs ih =>
      cases vs with
      | nil => simp [spaced, List.intercalate]
      | cons v' vs =>
        rw [spaced, ← ih]
        simp [List.intercalate, List.intersperse]
  rw [← h]
  exact List.intercalate_splitOn ' '

theorem spaceTokens_spec : ∀ (vs : List Text) (pre : Text),
    (∀ tok ∈ spaceTokens pre.length vs, pre.length ≤ tok.charRange.start ∧
      tok.charRange.stop = tok.charRange.start + tok.value.length ∧
      tok.charRange.stop ≤ (pre ++ spaced vs).length ∧ tok.value = substr (pre ++ spaced vs) tok.charRange) ∧
    (spaceTokens pre.length vs).Pairwise (fun a b => a.charRange.stop ≤ b.charRange.start) := by
  intro vs
  induction vs with
  | nil => intro pre; exact ⟨by simp [spaceTokens], List.Pairwise.nil⟩
  | cons v vs ih =>
    intro pre
    obtain ⟨post, hpost⟩ : ∃ post, spaced (v :: vs) = v ++ post ∧
        (vs ≠ [] → post = ' ' :: spaced vs) := by
      cases vs with
      | nil => exact ⟨[], by simp [spaced], fun h => absurd rfl h⟩
      | cons v' vs => exact ⟨_, rfl, fun _ => rfl⟩
    have h0 : ((⟨v, ⟨pre.length, pre.length + v.length⟩, ⟨pre.length, pre.length + v.length⟩⟩ : Token).value)
        = substr (pre ++ spaced (v :: vs)) ⟨pre.length, pre.length + v.length⟩ := by
      rw [hpost.1]
      simp [substr]
    have hrest : ∀ tok ∈ spaceTokens (pre.length + v.length + 1) vs, pre.length + v.length + 1 ≤ tok.charRange.start ∧
        tok.charRange.stop = tok.charRange.start + tok.value.length ∧
        tok.charRange.stop ≤ (pre ++ spaced (v :: vs)).length ∧
        tok.value = substr (pre ++ spaced (v :: vs)) tok.charRange := by
      cases vs with
      | nil => intro tok h; simp [spaceTokens] at h
      | cons v' vs =>
        have := (ih (pre ++ v ++ [' '])).1
        have hl : (pre ++ v ++ [' ']).length = pre.length + v.length + 1 := by simp; omega
        have ht : pre ++ v ++ [' '] ++ spaced (v' :: vs) = pre ++ spaced (v :: v' :: vs) := by
          simp [spaced]
        rw [hl, ht] at this
        exact this
    have hpair : (spaceTokens (pre.length + v.length + 1) vs).Pairwise
        (fun a b => a.charRange.stop ≤ b.charRange.start) := by
      have := (ih (pre ++ v ++ [' '])).2
      have hl : (pre ++ v ++ [' ']).length = pre.length + v.length + 1 := by simp; omega
      rwa [hl] at this
    constructor
    · intro tok hm
      rw [spaceTokens, List.mem_cons] at hm
      rcases hm with rfl | hm
      · refine ⟨Nat.le_refl _, rfl, ?_, h0⟩
        rw [hpost.1]
        simp
      · obtain ⟨a, b, c, d⟩ := hrest tok hm
        exact ⟨by omega, b, c, d⟩
    · rw [spaceTokens, List.pairwise_cons]
      refine ⟨fun tok hm => ?_, hpair⟩
      have := (hrest tok hm).1
      simp only
      omega

theorem ruleFns_tokenized (t : Text) : Tokenized t (ruleFns.tokenize t) := by
  obtain ⟨h1, h2⟩ := spaceTokens_spec (t.splitOn ' ') []
  simp only [List.length_nil, List.nil_append, spaced_splitOn] at h1 h2
  refine ⟨?_, ?_, ?_, ?_⟩
  · intro tok hm
    obtain ⟨hm, hne⟩ := List.mem_filter.1 hm
    have := (h1 tok hm).2.1
    have hpos : 0 < tok.value.length := List.length_pos_iff.2 (by simpa using hne)
    unfold Rng.NonEmpty
    omega
  · intro tok hm
    exact (h1 tok (List.mem_filter.1 hm).1).2.2.1
  · intro tok hm
    exact (h1 tok (List.mem_filter.1 hm).1).2.2.2
  · exact h2.filter _

theorem findText_some {pat : Text} : ∀ {t : Text} {i : Nat}, findText pat t = some i →
    ∃ post, t = t.take i ++ pat ++ post ∧ i ≤ t.length := by
  intro t
  induction t with
  | nil =>
    intro i h
    unfold findText at h
    split at h
    · rename_i hp
      cases h
      exact ⟨[], by simp [hp], Nat.le_refl _⟩
    · cases h
  | cons c t ih =>
    intro i h
    unfold findText at h
    split at h
    · rename_i hp
      cases h
      obtain ⟨post, hpost⟩ := List.isPrefixOf_iff_prefix.1 hp
      exact ⟨post, by simp [hpost], Nat.zero_le _⟩
    · rw [Option.map_eq_some_iff] at h
      obtain ⟨j, hj, rfl⟩ := h
      obtain ⟨post, h1, h2⟩ := ih hj
      refine ⟨post, ?_, by simpa using h2⟩
      rw [List.take_succ_cons, List.cons_append, List.cons_append, ← h1]

theorem byteLen_eq (t : Text) : byteLen t = (t.map Char.utf8Size).sum := by
  induction t with
  | nil => rfl
  | cons c t ih => simp only [byteLen, List.map_cons, List.sum_cons, ih]

theorem byteRegex_onBoundaries (group pat : Text) : (byteRegex group pat).OnBoundaries := by
  intro text caps hc i b hb
  simp only [byteRegex] at hc
  split at hc
  · rename_i k hk
    rw [List.mem_singleton] at hc
    subst hc
    have hb' : b = ⟨byteLen (text.take k), byteLen (text.take k) + byteLen pat⟩ := by
      match i, hb with
      | 0, hb => simpa using hb.symm
      | 1, hb => simpa using hb.symm
      | n + 2, hb => simp at hb
    obtain ⟨post, h1, h2⟩ := findText_some hk
    have hlen : text.length = k + pat.length + post.length := by
      have := congrArg List.length h1
      simp only [List.length_append, List.length_take] at this
      omega
    have h3 : text.take (k + pat.length) = text.take k ++ pat := by
      conv => lhs; rw [h1]
      have : (text.take k ++ pat).length = k + pat.length := by
        rw [List.length_append, List.length_take]; omega
      rw [← this, List.take_left]
    refine ⟨k, k + pat.length, by omega, ⟨h2, ?_⟩, by omega, ?_⟩
    · rw [hb', byteLen_eq]
    · rw [hb', h3, List.map_append, List.sum_append, byteLen_eq, byteLen_eq]
  · simp at hc

/-- Two patterns: a whole placeholder as a slot, and the words `at once` as a slot. -/
def originDet : Det := { demoDet with
  regexes := [("brew".toList, [byteRegex "g0_1".toList "%SNIPS/NUMBER%".toList]),
    ("idiom".toList, [byteRegex "g0".toList "at once".toList]), ("halt".toList, [])]
  slotEntities := [("brew".toList, [("count".toList, "snips/number".toList), ("kind".toList, "drink".toList)]),
    ("idiom".toList, [("count".toList, "snips/number".toList)]), ("halt".toList, [])]
  scopes := detScopes demoKinds [("brew".toList,
      [("count".toList, "snips/number".toList), ("kind".toList, "drink".toList)]),
    ("idiom".toList, [("count".toList, "snips/number".toList)]), ("halt".toList, [])] }

/-- All hypotheses of `c68_slots` hold for `originDet` and this sentence, with a slot captured as a
placeholder. -/
example : let slot : InternalSlot := ⟨"two".toList, ⟨9, 12⟩, "snips/number".toList, "count".toList⟩
    originDet.Built demoEnv.names ∧ originDet.SmallMatches demoEnv ruleWorld "make thé two tea".toList ∧
    (∀ t, Tokenized t (demoEnv.fns.tokenize t)) ∧
    (∀ intent patterns, originDet.regexes.get intent = some patterns → ∀ r ∈ patterns, r.OnBoundaries) ∧
    (originDet.parse demoEnv HashOrd.insertion "make thé two tea".toList none).run ruleWorld
      = .ok ⟨⟨some "brew".toList, 1⟩, [slot]⟩ := by
  refine ⟨⟨rfl, by decide⟩, ?_, ruleFns_tokenized, ?_, by decide +kernel⟩
  · refine smallMatches_of_length ?_
    intro s hs bs cs hbs hcs
    simp only [ruleWorld, Outcome.ok.injEq] at hbs hcs
    subst hbs hcs
    revert s
    simp only [Rng.NonEmpty]
    decide +kernel
  · intro intent patterns h r hr
    have hm := Map.get_some_mem h
    simp only [originDet, List.mem_cons, List.not_mem_nil, or_false, Prod.mk.injEq] at hm
    rcases hm with ⟨_, rfl⟩ | ⟨_, rfl⟩ | ⟨_, rfl⟩
    · rw [List.mem_singleton] at hr; subst hr; exact byteRegex_onBoundaries _ _
    · rw [List.mem_singleton] at hr; subst hr; exact byteRegex_onBoundaries _ _
    · simp at hr

/-- Plain text captured as it was typed, after a non-ASCII word. -/
example : (originDet.parse demoEnv HashOrd.insertion "thé at once".toList none).run ruleWorld
    = .ok ⟨⟨some "idiom".toList, 1⟩, [⟨"at once".toList, ⟨4, 11⟩, "snips/number".toList, "count".toList⟩]⟩ := by
  decide +kernel

end Snips
