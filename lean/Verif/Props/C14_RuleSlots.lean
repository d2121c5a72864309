import Verif.Props.C36_Rankings
import Verif.Spec.Slots

/-! # C01, C09, C14, C15 for the lookup and the deterministic parser -/

namespace Snips

/-! ### C01 -/

/-- The lookup parser returns a permitted intent or none. -/
theorem c01_lookup (env : RuleEnv) (p : Lookup) (o : HashOrd) (w : World) (input : Text)
    (filter : List Text) (out : InternalResult) (h : (p.parse env o input (some filter)).run w = .ok out) :
    ∀ i, out.intent.name = some i → i ∈ filter := by
  intro i hi
  obtain ⟨ms, _, h1, _, hv⟩ := c35_lookup_rounded env p o w input _ out h
  obtain ⟨⟨_, _, _, _, _, _, _, _, _, n, _, _, _, hp, _⟩, _⟩ := h1 i out.slots (hv.slots i hi)
  exact hp filter rfl

/-- The deterministic parser returns a permitted intent or none. -/
theorem c01_deterministic (env : RuleEnv) (p : Det) (hb : p.Built env.names) (o : HashOrd) (w : World)
    (input : Text) (filter : List Text) (out : InternalResult)
    (h : (p.parse env o input (some filter)).run w = .ok out) :
    ∀ i, out.intent.name = some i → i ∈ filter := by
  intro i hi
  obtain ⟨ms, _, h1, hv⟩ := c35_deterministic_rounded env p hb o w input _ out h
  exact ((h1 i out.slots).1 (hv.slots i hi)).1 filter rfl

/-! ### C09 -/

/-- The lookup parser fails when asked for the slots of an intent that is not its own. -/
theorem c09_lookup_unknown (env : RuleEnv) (p : Lookup) (o : HashOrd) (w : World) (input intent : Text)
    (h : intent ∉ p.intentsNames) :
    (p.getSlots env o input intent).run w = .err (.unknownIntent intent) := by
  unfold Lookup.getSlots
  rw [if_neg (by simpa using h)]
  rfl

/-- The deterministic parser fails when asked for the slots of an intent that is not its own. -/
theorem c09_deterministic_unknown (env : RuleEnv) (p : Det) (o : HashOrd) (w : World) (input intent : Text)
    (h : intent ∉ p.regexes.keys) :
    (p.getSlots env o input intent).run w = .err (.unknownIntent intent) := by
  unfold Det.getSlots
  rw [if_neg (by simpa using h)]
  rfl

/-- The slots the lookup parser gives for an intent, if any, are those of an entry of that very intent. -/
theorem c09_lookup_own (env : RuleEnv) (p : Lookup) (o : HashOrd) (w : World) (input intent : Text)
    (slots : List InternalSlot) (h : (p.getSlots env o input intent).run w = .ok slots) :
    slots = [] ∨ p.Hit env w input (some [intent]) intent slots := by
  unfold Lookup.getSlots at h
  split at h
  · rw [Prog.run_bind, Outcome.bind_ok] at h
    obtain ⟨r, hr, h⟩ := h
    simp only [Prog.run_ret, Outcome.ok.injEq] at h
    subst h
    obtain ⟨ms, _, h1, _, hv⟩ := c35_lookup_rounded env p o w input _ r hr
    cases hn : r.intent.name with
    | none => left; rw [hv.absent hn]
    | some i =>
      have := c01_lookup env p o w input _ r hr i hn
      rw [List.mem_singleton] at this
      subst this
      exact Or.inr (h1 _ _ (hv.slots _ hn)).1
  · cases h

/-- The slots the deterministic parser gives for an intent are those of its recognition of that very
intent. -/
theorem c09_deterministic_own (env : RuleEnv) (p : Det) (hb : p.Built env.names) (o : HashOrd) (w : World)
    (input intent : Text) (slots : List InternalSlot)
    (h : (p.getSlots env o input intent).run w = .ok slots) :
    slots = [] ∨ p.MatchesAlone env o w input intent slots := by
  unfold Det.getSlots at h
  split at h
  · rw [Prog.run_bind, Outcome.bind_ok] at h
    obtain ⟨r, hr, h⟩ := h
    simp only [Prog.run_ret, Outcome.ok.injEq] at h
    subst h
    obtain ⟨ms, _, h1, hv⟩ := c35_deterministic_rounded env p hb o w input _ r hr
    cases hn : r.intent.name with
    | none => left; rw [hv.absent hn]
    | some i =>
      have := c01_deterministic env p hb o w input _ r hr i hn
      rw [List.mem_singleton] at this
      subst this
      exact Or.inr ((h1 _ _).1 (hv.slots _ hn)).2
  · cases h

/-! ### C14 and C15 -/

theorem hit_slots {env : RuleEnv} {p : Lookup} {w : World} {input : Text} {filter : Option (List Text)}
    {i : Text} {sl : List InternalSlot} (h : p.Hit env w input filter i sl) :
    TextAtRange input sl ∧ InTextOrder sl := by
  obtain ⟨scope, _, _, _, _, found, es, hfound, hes, n, slotIds, hget, _, _, hsl⟩ := h
  clear hget
  have hord : es.Pairwise fun a b => a.range.Disj b.range ∧ a.range.start ≤ b.range.start := by
    refine List.Pairwise.sublist hes ?_
    unfold Lookup.allEntities at hfound
    rw [Prog.run_bind, Outcome.bind_ok] at hfound
    obtain ⟨kinds, _, hfound⟩ := hfound
    rw [Prog.run_builtinCached_ok] at hfound
    obtain ⟨bs, hbs, hfound⟩ := hfound
    rw [Prog.run_custom_ok] at hfound
    obtain ⟨cs, hcs, hfound⟩ := hfound
    simp only [Prog.run_ret, Outcome.ok.injEq] at hfound
    subst hfound
    exact (c16_sound _).2.1.and (c16_sound _).2.2
  clear hes hfound
  constructor
  · clear hord
    intro s hs
    have : ∀ (l : List (Int × MatchedEntity)) (sl : List InternalSlot),
        List.Forall₂ (fun ie s => p.IsSlot input ie.1 ie.2 s) l sl → ∀ s ∈ sl,
        ∃ e : MatchedEntity, s.charRange = e.range ∧ s.value = substr input e.range := by
      intro l sl h
      induction h with
      | nil => simp
      | cons h _ ih =>
        intro s hs
        rcases List.mem_cons.1 hs with rfl | hs
        · exact ⟨_, h.2.2.1, h.2.2.2⟩
        · exact ih s hs
    obtain ⟨e, h1, h2⟩ := this _ _ hsl s hs
    rw [h1, h2]
    rfl
  · induction es generalizing slotIds sl with
    | nil => rw [List.zip_nil_right] at hsl; cases hsl; exact List.Pairwise.nil
    | cons e es ih =>
      cases slotIds with
      | nil => rw [List.zip_nil_left] at hsl; cases hsl; exact List.Pairwise.nil
      | cons k ks =>
        rw [List.zip_cons_cons] at hsl
        cases hsl with
        | cons hs hsl =>
          rw [List.pairwise_cons] at hord
          refine List.Pairwise.cons ?_ (ih _ hsl hord.2)
          intro s' hs'
          have : ∀ (l : List (Int × MatchedEntity)) (sl : List InternalSlot),
              List.Forall₂ (fun ie s => p.IsSlot input ie.1 ie.2 s) l sl → ∀ s ∈ sl,
              ∃ ie ∈ l, s.charRange = ie.2.range := by
            intro l sl h
            induction h with
            | nil => simp
            | cons h _ ih =>
              intro s hs
              rcases List.mem_cons.1 hs with rfl | hs
              · exact ⟨_, List.mem_cons_self, h.2.2.1⟩
              · obtain ⟨ie, h1, h2⟩ := ih s hs
                exact ⟨ie, List.mem_cons_of_mem _ h1, h2⟩
          obtain ⟨⟨k', e'⟩, hmem, he'⟩ := this _ _ hsl s' hs'
          rw [hs.2.2.1, he']
          exact hord.1 _ (List.of_mem_zip hmem).2

theorem dedupSlots_order (fns : TextFns) (slots : List InternalSlot) : InTextOrder (dedupSlots fns slots) := by
  unfold InTextOrder dedupSlots
  refine List.Pairwise.and ?_ (sortByKey_pairwise _ _)
  have h := (dedupItems_pairwise (fun a b : InternalSlot => rangesOverlap a.charRange b.charRange)
      (fun s => -(((fns.tokenize s.value).length + s.value.length : Nat) : Int)) slots).imp
        (fun hab => rangesOverlap_false_disj hab)
  exact ((sortByKey_perm _ _).pairwise_iff (fun {a b} hab => disj_symm hab)).2 h

theorem mem_dedupSlots {fns : TextFns} {slots : List InternalSlot} {s : InternalSlot}
    (h : s ∈ dedupSlots fns slots) : s ∈ slots := by
  unfold dedupSlots at h
  exact (dedupItems_subperm _ _ _).subset ((mem_sortByKey _).1 h)

theorem matchesAlone_slots {env : RuleEnv} {p : Det} (hb : p.Built env.names) {o : HashOrd} {w : World}
    {input i : Text} {sl : List InternalSlot} (h : p.MatchesAlone env o w input i sl) :
    TextAtRange input sl ∧ InTextOrder sl := by
  obtain ⟨s, _, _, hrun⟩ := (matchesAlone_iff hb).1 h
  obtain ⟨_, _, _, _, _, _, _, _, formatted, mapping, hres⟩ := matchIntent_some hrun
  obtain ⟨caps, raw, _, hraw, hr⟩ := matchingResult_some hres
  have : sl = dedupSlots env.fns raw := congrArg InternalResult.slots hr
  subst this
  refine ⟨?_, dedupSlots_order _ _⟩
  intro x hx
  have hx := mem_dedupSlots hx
  rw [mapOutcome_ok_iff] at hraw
  have hall : ∀ (l : List (Rng × Text)) (l' : List InternalSlot),
      List.Forall₂ (fun a b => p.slotOf o input formatted s.1 mapping a = .ok b) l l' →
      ∀ x ∈ l', x.value = substr input x.charRange := by
    intro l l' h
    induction h with
    | nil => simp
    | cons h _ ih =>
      intro x hx
      rcases List.mem_cons.1 hx with rfl | hx
      · unfold Det.slotOf at h
        simp only [Outcome.bind_eq, Outcome.bind_ok] at h
        obtain ⟨_, _, _, _, _, _, h⟩ := h
        cases h
        rfl
      · exact ih x hx
  exact hall _ _ hraw x hx

/-- Slots of the lookup parser: raw text at range, disjoint, in text order. -/
theorem c14_lookup (env : RuleEnv) (p : Lookup) (o : HashOrd) (w : World) (input : Text)
    (filter : Option (List Text)) (out : InternalResult) (h : (p.parse env o input filter).run w = .ok out) :
    TextAtRange input out.slots := by
  obtain ⟨ms, _, h1, _, hv⟩ := c35_lookup_rounded env p o w input _ out h
  cases hn : out.intent.name with
  | none => rw [hv.absent hn]; intro s hs; cases hs
  | some i => exact (hit_slots (h1 i _ (hv.slots i hn)).1).1

theorem c15_lookup (env : RuleEnv) (p : Lookup) (o : HashOrd) (w : World) (input : Text)
    (filter : Option (List Text)) (out : InternalResult) (h : (p.parse env o input filter).run w = .ok out) :
    InTextOrder out.slots := by
  obtain ⟨ms, _, h1, _, hv⟩ := c35_lookup_rounded env p o w input _ out h
  cases hn : out.intent.name with
  | none => rw [hv.absent hn]; exact List.Pairwise.nil
  | some i => exact (hit_slots (h1 i _ (hv.slots i hn)).1).2

theorem c14_deterministic (env : RuleEnv) (p : Det) (hb : p.Built env.names) (o : HashOrd) (w : World)
    (input : Text) (filter : Option (List Text)) (out : InternalResult)
    (h : (p.parse env o input filter).run w = .ok out) : TextAtRange input out.slots := by
  obtain ⟨ms, _, h1, hv⟩ := c35_deterministic_rounded env p hb o w input _ out h
  cases hn : out.intent.name with
  | none => rw [hv.absent hn]; intro s hs; cases hs
  | some i => exact (matchesAlone_slots hb ((h1 i _).1 (hv.slots i hn)).2).1

theorem c15_deterministic (env : RuleEnv) (p : Det) (hb : p.Built env.names) (o : HashOrd) (w : World)
    (input : Text) (filter : Option (List Text)) (out : InternalResult)
    (h : (p.parse env o input filter).run w = .ok out) : InTextOrder out.slots := by
  obtain ⟨ms, _, h1, hv⟩ := c35_deterministic_rounded env p hb o w input _ out h
  cases hn : out.intent.name with
  | none => rw [hv.absent hn]; exact List.Pairwise.nil
  | some i => exact (matchesAlone_slots hb ((h1 i _).1 (hv.slots i hn)).2).2

/-- Slots obtained through `get_slots`. -/
theorem c14_lookup_get_slots (env : RuleEnv) (p : Lookup) (o : HashOrd) (w : World) (input intent : Text)
    (slots : List InternalSlot) (h : (p.getSlots env o input intent).run w = .ok slots) :
    TextAtRange input slots ∧ InTextOrder slots := by
  rcases c09_lookup_own env p o w input intent slots h with rfl | h
  · exact ⟨fun s hs => (by cases hs), List.Pairwise.nil⟩
  · exact hit_slots h

theorem c14_deterministic_get_slots (env : RuleEnv) (p : Det) (hb : p.Built env.names) (o : HashOrd)
    (w : World) (input intent : Text) (slots : List InternalSlot)
    (h : (p.getSlots env o input intent).run w = .ok slots) :
    TextAtRange input slots ∧ InTextOrder slots := by
  rcases c09_deterministic_own env p hb o w input intent slots h with rfl | h
  · exact ⟨fun s hs => (by cases hs), List.Pairwise.nil⟩
  · exact matchesAlone_slots hb h

/-! ### Concrete cases for the theorems on rule-based parsers -/

/-- `make the two tea`, without a filter: `idiom` (no slots) wins over `brew` (two slots). -/
example : (demoLookup.parse demoEnv HashOrd.insertion "make the two tea".toList none).run ruleWorld
    = .ok ⟨⟨some "idiom".toList, 3/4⟩, []⟩ := by decide +kernel

/-- With a filter `brew` is returned, with its two slots. -/
example : (demoLookup.parse demoEnv HashOrd.insertion "make the two tea".toList
    (some ["brew".toList])).run ruleWorld
    = .ok ⟨⟨some "brew".toList, 1⟩, [⟨"two".toList, ⟨9, 12⟩, "snips/number".toList, "count".toList⟩,
        ⟨"tea".toList, ⟨13, 16⟩, "drink".toList, "kind".toList⟩]⟩ := by decide +kernel

example : (demoLookup.getIntents demoEnv HashOrd.insertion "make the two tea".toList).run ruleWorld
    = .ok [⟨some "idiom".toList, 3/4⟩, ⟨some "brew".toList, 1/4⟩, ⟨some "halt".toList, 0⟩, ⟨none, 0⟩] := by
  decide +kernel

example : demoLookup.intentsNames.Nodup := by decide

example : (demoDet.parse demoEnv HashOrd.insertion "make the two tea".toList none).run ruleWorld
    = .ok ⟨⟨some "idiom".toList, 2/3⟩, []⟩ := by decide +kernel

example : (demoDet.parse demoEnv HashOrd.insertion "make the two tea".toList
    (some ["brew".toList])).run ruleWorld
    = .ok ⟨⟨some "brew".toList, 1⟩, [⟨"two".toList, ⟨9, 12⟩, "snips/number".toList, "count".toList⟩]⟩ := by
  decide +kernel

example : (demoDet.getIntents demoEnv HashOrd.insertion "make the two tea".toList).run ruleWorld
    = .ok [⟨some "idiom".toList, 2/3⟩, ⟨some "brew".toList, 1/3⟩, ⟨some "halt".toList, 0⟩, ⟨none, 0⟩] := by
  decide +kernel

example : demoDet.Built demoEnv.names ∧ demoDet.regexes.keys.Nodup ∧ demoEnv.rd = Rounding.exact :=
  ⟨demoDet_built, by decide, rfl⟩

/-- The hypothesis of `c37_deterministic_partial` for the same input. -/
example : demoDet.SmallMatches demoEnv ruleWorld "make the two tea".toList := by
  refine smallMatches_of_length ?_
  intro s hs bs cs hbs hcs
  simp only [ruleWorld, Outcome.ok.injEq] at hbs hcs
  subst hbs hcs
  revert s
  simp only [Rng.NonEmpty]
  decide +kernel

/-- `c36`: exact arithmetic has relative error 0 (and any other). -/
example : Rounding.exact.RelError (1 / 100) := by
  refine ⟨by norm_num, by norm_num, fun x hx => ?_⟩
  constructor
  · show _ ≤ x
    linarith
  · show x ≤ _
    linarith

end Snips
