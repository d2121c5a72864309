import Verif.Proofs.Filters
import Verif.Spec.RuleDemo

/-! # C76: a filter matters only by the intents it lets through -/

namespace Snips

section
variable (dataset : DatasetMetadata) (names : KindNames) (ps : List ParserModel) (o : HashOrd) (input : Text)

/-- Two pairs of lists which let the same trained intents through lead to the same outcome, answer, error or panic,
whatever the entity parsers find and however many alternatives are asked for.  One of the pairs may be no list at all. -/
theorem c76_same_answer (hk : ∀ m ∈ ps, m.OnlyKnows (dataset.slotNameMappings.map Prod.fst))
    (wl bl wl' bl' : Option (List Text))
    (h : (Engine.ofParsers dataset names ps).FilterKnown wl bl)
    (h' : (Engine.ofParsers dataset names ps).FilterKnown wl' bl')
    (hsame : ∀ i ∈ dataset.slotNameMappings.map Prod.fst, Allowed wl bl i ↔ Allowed wl' bl' i) (ni ns : Nat) (w : World) :
    ((Engine.ofParsers dataset names ps).parseWithAlternatives o input wl bl ni ns).run w
      = ((Engine.ofParsers dataset names ps).parseWithAlternatives o input wl' bl' ni ns).run w := by
  obtain ⟨eff, h1, h2⟩ := getIntentsWhitelist_known _ (o.sub 0) wl bl h
  obtain ⟨eff', h1', h2'⟩ := getIntentsWhitelist_known _ (o.sub 0) wl' bl' h'
  have hon : SameOn (dataset.slotNameMappings.map Prod.fst) eff eff' := by
    intro i hi
    rw [IsFilterFor.permits h2 hi, IsFilterFor.permits h2' hi, hsame i hi]
  have hp : ∀ p ∈ (Engine.ofParsers dataset names ps).parsers, ∀ o, p.parse o input eff = p.parse o input eff' := by
    intro p hp o
    obtain ⟨m, hm, rfl⟩ := List.mem_map.1 hp
    exact ParserModel.parse_on (hk m hm) hon o input
  unfold Engine.parseWithAlternatives
  rw [h1, h1']
  show Prog.run w (Prog.bind ((Engine.ofParsers dataset names ps).cascade (o.sub 1) input eff ns 0
      (Engine.ofParsers dataset names ps).parsers 0) _)
    = Prog.run w (Prog.bind ((Engine.ofParsers dataset names ps).cascade (o.sub 1) input eff' ns 0
      (Engine.ofParsers dataset names ps).parsers 0) _)
  rw [Engine.cascade_eq 0 0 hp, Prog.run_bind, Prog.run_bind]
  cases (((Engine.ofParsers dataset names ps).cascade (o.sub 1) input eff' ns 0
      (Engine.ofParsers dataset names ps).parsers 0).run w) with
  | err e => rfl
  | panic => rfl
  | ok main =>
    simp only [Outcome.bind]
    split
    · rfl
    · show Prog.run w (Prog.bind _ _) = Prog.run w (Prog.bind _ _)
      rw [Prog.run_bind, Prog.run_bind]
      cases hr : ((Engine.ofParsers dataset names ps).getIntents (o.sub 2) input).run w with
      | err e => rfl
      | panic => rfl
      | ok ranked =>
        simp only [Outcome.bind]
        have hf : ranked.filter (Engine.passesFilter eff) = ranked.filter (Engine.passesFilter eff') := by
          refine List.filter_congr fun r hr' => ?_
          rw [Bool.eq_iff_iff, passesFilter_permits, passesFilter_permits]
          refine forall_congr' fun i => ?_
          constructor
          · intro h1 hi; exact (hon i (Engine.ranking_known hk hr hr' hi)).1 (h1 hi)
          · intro h1 hi; exact (hon i (Engine.ranking_known hk hr hr' hi)).2 (h1 hi)
        rw [hf]

/-- In particular a list of allowed intents is as good as the list of the forbidden others. -/
theorem c76_complement (hk : ∀ m ∈ ps, m.OnlyKnows (dataset.slotNameMappings.map Prod.fst)) (allowed forbidden : List Text)
    (h : ∀ i, i ∈ dataset.slotNameMappings.map Prod.fst ↔ i ∈ allowed ∨ i ∈ forbidden)
    (hd : ∀ i, i ∈ allowed → i ∉ forbidden) (ni ns : Nat) (w : World) :
    ((Engine.ofParsers dataset names ps).parseWithAlternatives o input (some allowed) none ni ns).run w
      = ((Engine.ofParsers dataset names ps).parseWithAlternatives o input none (some forbidden) ni ns).run w := by
  refine c76_same_answer dataset names ps o input hk _ _ _ _ ?_ ?_ ?_ ni ns w
  · rintro i (hi | hi)
    · exact (h i).2 (Or.inl hi)
    · cases hi
  · rintro i (hi | hi)
    · cases hi
    · exact (h i).2 (Or.inr hi)
  · intro i hi
    have := (h i).1 hi
    have := hd i
    simp only [Allowed, Option.some.injEq, forall_eq', reduceCtorEq, false_implies, implies_true, and_true, true_and]
    tauto

/-- If there are lists in both calls, the calls also put the same questions to the entity parsers, in the same order; this
holds whatever intents the parsers know. -/
theorem c76_same_program (wl bl wl' bl' : Option (List Text)) (hg : ¬(wl = none ∧ bl = none)) (hg' : ¬(wl' = none ∧ bl' = none))
    (h : (Engine.ofParsers dataset names ps).FilterKnown wl bl)
    (h' : (Engine.ofParsers dataset names ps).FilterKnown wl' bl')
    (hsame : ∀ i ∈ dataset.slotNameMappings.map Prod.fst, Allowed wl bl i ↔ Allowed wl' bl' i) (ni ns : Nat) :
    (Engine.ofParsers dataset names ps).parseWithAlternatives o input wl bl ni ns
      = (Engine.ofParsers dataset names ps).parseWithAlternatives o input wl' bl' ni ns := by
  obtain ⟨eff, h1, h2⟩ := getIntentsWhitelist_known _ (o.sub 0) wl bl h
  obtain ⟨eff', h1', h2'⟩ := getIntentsWhitelist_known _ (o.sub 0) wl' bl' h'
  have hon : SameFilter eff eff' := by
    unfold Engine.IsFilterFor at h2 h2'
    cases eff with
    | none => exact absurd h2 hg
    | some l =>
      cases eff' with
      | none => exact absurd h2' hg'
      | some l' =>
        intro i
        rw [h2.2 i, h2'.2 i]
        constructor
        · rintro ⟨hi, ha⟩; exact ⟨hi, (hsame i hi).1 ha⟩
        · rintro ⟨hi, ha⟩; exact ⟨hi, (hsame i hi).2 ha⟩
  have hp : ∀ p ∈ (Engine.ofParsers dataset names ps).parsers, ∀ o, p.parse o input eff = p.parse o input eff' := by
    intro p hp o
    obtain ⟨m, hm, rfl⟩ := List.mem_map.1 hp
    cases m with
    | lookup env p => exact lookup_filter_same env p o input hon
    | deterministic env p => exact det_filter_same env p o input hon
    | probabilistic env p => exact prob_filter_same env p o input hon
  unfold Engine.parseWithAlternatives
  rw [h1, h1']
  show (Prog.bind ((Engine.ofParsers dataset names ps).cascade (o.sub 1) input eff ns 0
      (Engine.ofParsers dataset names ps).parsers 0) _)
    = (Prog.bind ((Engine.ofParsers dataset names ps).cascade (o.sub 1) input eff' ns 0
      (Engine.ofParsers dataset names ps).parsers 0) _)
  rw [Engine.cascade_eq 0 0 hp, passesFilter_same hon]

end

/-! ### Witnesses -/

/-- The parsers of the examples only know the intents of the engine. -/
theorem demo_onlyKnows : ∀ m ∈ [ParserModel.deterministic demoEnv demoDet, .lookup demoEnv demoLookup],
    m.OnlyKnows (["brew".toList, "idiom".toList, "halt".toList]) := by
  intro m hm
  rcases List.mem_cons.1 hm with rfl | hm
  · exact ⟨demoDet_built, by decide, by decide⟩
  · rw [List.mem_singleton] at hm
    subst hm
    exact ⟨by decide, by decide⟩

/-- A list of allowed intents with repetitions and in another order, and the list of what is forbidden: both lead to the
answer that the sentence is a `brew`, with one alternative.  Without lists the answer is another. -/
example :
    let e := Engine.ofParsers ⟨[("drink".toList, false)], [("brew".toList, []), ("idiom".toList, []), ("halt".toList, [])]⟩
      demoKinds [.deterministic demoEnv demoDet, .lookup demoEnv demoLookup]
    let answer : ParseResult := ⟨"make the two tea".toList, ⟨some "brew".toList, 1⟩,
        [⟨"two".toList, .builtin 2, [], ⟨9, 12⟩, "snips/number".toList, "count".toList⟩], [⟨⟨some "halt".toList, 0⟩, []⟩]⟩
    (e.parseWithAlternatives HashOrd.insertion "make the two tea".toList
      (some ["halt".toList, "brew".toList, "halt".toList]) none 1 0).run ruleWorld = .ok answer ∧
    (e.parseWithAlternatives HashOrd.insertion "make the two tea".toList none (some ["idiom".toList]) 1 0).run ruleWorld
      = .ok answer ∧
    (e.parseWithAlternatives HashOrd.insertion "make the two tea".toList none none 1 0).run ruleWorld ≠ .ok answer := by
  decide +kernel

/-- A parser that knows an intent on which the engine was not trained: forbidding nothing is then not the same as giving
no list, which is why `c76_same_answer` asks what the parsers know. -/
theorem c76_unknown_intent_counterexample :
    ∃ (dataset : DatasetMetadata) (ps : List ParserModel) (res res' : ParseResult),
      ((Engine.ofParsers dataset demoKinds ps).parse HashOrd.insertion "stop".toList none none).run ruleWorld = .ok res ∧
      ((Engine.ofParsers dataset demoKinds ps).parse HashOrd.insertion "stop".toList none (some [])).run ruleWorld = .ok res' ∧
      res.intent.name = some "halt".toList ∧ res'.intent.name = none := by
  refine ⟨⟨[], [("brew".toList, [])]⟩, [.deterministic demoEnv demoDet],
    ⟨"stop".toList, ⟨some "halt".toList, 1⟩, [], []⟩, ⟨"stop".toList, ⟨none, 1⟩, [], []⟩, by decide +kernel,
    by decide +kernel, rfl, rfl⟩

end Snips
