import Verif.Proofs.Narrow

/-! Stricter filters and the lookup parser. -/

namespace Snips

section
variable {α : Type} [DecidableEq α]

theorem unique_filter (q : α → Bool) : ∀ l : List α, unique (l.filter q) = (unique l).filter q
  | [] => rfl
  | a :: l => by
    rw [List.filter_cons, unique]
    split
    · rename_i h
      rw [unique, unique_filter q l, List.filter_cons, if_pos h, List.filter_filter, List.filter_filter]
      congr 1
      refine List.filter_congr fun b _ => ?_
      rw [Bool.and_comm]
    · rename_i h
      rw [List.filter_cons, if_neg h, unique_filter q l, List.filter_filter]
      refine List.filter_congr fun b _ => ?_
      rw [Bool.eq_iff_iff]
      simp only [Bool.and_eq_true, decide_eq_true_eq, ne_eq]
      constructor
      · intro hb
        exact ⟨hb, fun hba => h (hba ▸ hb)⟩
      · exact fun hb => hb.1

theorem unique_append (x y : List α) : unique (x ++ y) = unique x ++ (unique y).filter fun b => b ∉ x := by
  induction x with
  | nil => simp [unique]
  | cons a x ih =>
    rw [List.cons_append, unique, unique, ih, List.filter_append, List.cons_append, List.filter_filter]
    congr 2
    refine List.filter_congr fun b _ => ?_
    rw [Bool.eq_iff_iff]
    simp only [Bool.and_eq_true, decide_eq_true_eq, List.mem_cons, not_or, ne_eq]

theorem mem_of_unique_eq {x x' : List α} (h : unique x = unique x') (b : α) : b ∈ x ↔ b ∈ x' := by
  rw [← mem_unique, h, mem_unique]

theorem unique_append_congr {x x' y y' : List α} (hx : unique x = unique x') (hy : unique y = unique y') :
    unique (x ++ y) = unique (x' ++ y') := by
  rw [unique_append, unique_append, hx, hy]
  congr 1
  refine List.filter_congr fun b _ => ?_
  rw [Bool.eq_iff_iff]
  simp only [decide_eq_true_eq, mem_of_unique_eq hx b]

theorem unique_flatMap_congr {β : Type} {f g : β → List α} (h : ∀ b, unique (f b) = unique (g b)) :
    ∀ l : List β, unique (l.flatMap f) = unique (l.flatMap g)
  | [] => rfl
  | b :: l => by
    rw [List.flatMap_cons, List.flatMap_cons]
    exact unique_append_congr (h b) (unique_flatMap_congr h l)

/-- Saying the same several times is saying it once. -/
theorem unique_repeat {β : Type} (c : List α) : ∀ g : List β, g ≠ [] → unique (g.flatMap fun _ => c) = unique c
  | [], h => absurd rfl h
  | [_], _ => by simp
  | _ :: b :: g, _ => by
    rw [List.flatMap_cons, unique_append, unique_repeat c (b :: g) (by simp)]
    have : (unique c).filter (fun x => decide (x ∉ c)) = [] := by
      rw [List.filter_eq_nil_iff]
      intro x hx
      have := mem_unique.1 hx
      simp [this]
    rw [this, List.append_nil]

end

theorem forIntent_of_none {s : StopWords} (h : s.specific = []) (i : Text) : s.forIntent i = s.general := by
  unfold StopWords.forIntent
  rw [h]
  rfl

theorem scopeCandidates_same (env : RuleEnv) (p : Lookup) (hs : p.stopWords.specific = []) (input : Text)
    {g g' : List Text} (hg : g ≠ []) (hg' : g' ≠ []) (es : List MatchedEntity) :
    unique (p.scopeCandidates env input g es) = unique (p.scopeCandidates env input g' es) := by
  unfold Lookup.scopeCandidates
  refine unique_flatMap_congr (fun es => ?_) _
  simp only [Lookup.preprocess, forIntent_of_none hs]
  rw [unique_repeat _ g hg, unique_repeat _ g' hg']

theorem candidatesFrom_narrow (env : RuleEnv) (p : Lookup) (hs : p.stopWords.specific = []) (input : Text) (w : World)
    {f f' : Option (List Text)} : ∀ (l : List GroupedScope) (cs : List (Text × List MatchedEntity)),
    (∀ s ∈ l, (∃ i ∈ s.intentGroup, Permits f i) ↔ ∃ i ∈ s.intentGroup, Permits f' i) →
    (p.candidatesFrom env input f l).run w = .ok cs →
    ∃ cs', (p.candidatesFrom env input f' l).run w = .ok cs' ∧ unique cs = unique cs'
  | [], cs, _, h => ⟨cs, h, rfl⟩
  | s :: l, cs, hg, h => by
    have hempty : ∀ f : Option (List Text), (s.intentGroup.filter (allowedBy f)).isEmpty = true ↔
        ¬∃ i ∈ s.intentGroup, Permits f i := by
      intro f
      rw [List.isEmpty_iff, List.filter_eq_nil_iff]
      simp only [allowedBy_iff, not_exists, not_and]
    unfold Lookup.candidatesFrom at h ⊢
    by_cases he : ∃ i ∈ s.intentGroup, Permits f i
    · have he' := (hg s (by simp)).1 he
      have hn : ¬(s.intentGroup.filter (allowedBy f)).isEmpty = true := by rw [hempty]; exact not_not.2 he
      have hn' : ¬(s.intentGroup.filter (allowedBy f')).isEmpty = true := by rw [hempty]; exact not_not.2 he'
      rw [if_neg hn, Prog.run_bind, Outcome.bind_ok] at h
      obtain ⟨es, hes, h⟩ := h
      rw [Prog.run_bind, Outcome.bind_ok] at h
      obtain ⟨rest, hrest, h⟩ := h
      simp only [Prog.run_ret, Outcome.ok.injEq] at h
      subst h
      obtain ⟨rest', hrest', hu⟩ := candidatesFrom_narrow env p hs input w l rest (fun s hs => hg s (by simp [hs])) hrest
      refine ⟨p.scopeCandidates env input (s.intentGroup.filter (allowedBy f')) es ++ rest', ?_, ?_⟩
      · rw [if_neg hn', Prog.run_bind, hes]
        show ((Prog.bind _ _).run w) = _
        rw [Prog.run_bind, hrest']
        rfl
      · refine unique_append_congr (scopeCandidates_same env p hs input ?_ ?_ es) hu
        · intro h0; rw [h0] at hn; exact hn rfl
        · intro h0; rw [h0] at hn'; exact hn' rfl
    · have he' : ¬∃ i ∈ s.intentGroup, Permits f' i := fun h => he ((hg s (by simp)).2 h)
      rw [if_pos ((hempty f).2 he)] at h
      rw [if_pos ((hempty f').2 he')]
      exact candidatesFrom_narrow env p hs input w l cs (fun s hs => hg s (by simp [hs])) h

/-- The result for a candidate under a stricter filter. -/
theorem lookupOne_narrow {env : RuleEnv} {p : Lookup} {input : Text} {f f' : Option (List Text)} (hf : Narrower f f')
    {c : Text × List MatchedEntity} {r : Option InternalResult} (h : p.lookupOne env input f c = .ok r) :
    p.lookupOne env input f' c = .ok (r.filter fun r => keptByWhitelist f' r.intent) := by
  unfold Lookup.lookupOne at h ⊢
  cases hg : p.map.get (env.fns.hashStr c.1) with
  | none =>
    rw [hg] at h
    simp only [Outcome.ok.injEq] at h
    subst h
    rfl
  | some output =>
    rw [hg] at h
    simp only [Lookup.parseMapOutput] at h ⊢
    split at h
    · cases h
    · rename_i hd
      rw [if_neg hd]
      rw [Outcome.bind_eq, Outcome.bind_ok] at h
      obtain ⟨i, hi, h⟩ := h
      rw [hi]
      show (if allowedBy f' i = true then _ else _) = _
      by_cases ha : allowedBy f' i = true
      · have hp := (allowedBy_iff _ _).1 ha
        rw [if_pos ((allowedBy_iff _ _).2 (hf i hp)), Outcome.bind_eq, Outcome.bind_ok] at h
        obtain ⟨sl, hsl, h⟩ := h
        rw [if_pos ha, hsl]
        simp only [Outcome.ok.injEq] at h
        subst h
        have : keptByWhitelist f' (⟨some i, 1⟩ : IntentResult) = true := by
          rw [keptByWhitelist_iff]
          intro j hj
          simp only [Option.some.injEq] at hj
          exact hj ▸ hp
        simp only [Option.filter, this, if_true]
        rfl
      · rw [if_neg ha]
        split at h
        · rw [Outcome.bind_eq, Outcome.bind_ok] at h
          obtain ⟨sl, _, h⟩ := h
          simp only [Outcome.ok.injEq] at h
          subst h
          have : ¬keptByWhitelist f' (⟨some i, 1⟩ : IntentResult) = true := by
            rw [keptByWhitelist_iff]
            intro hj
            exact ha ((allowedBy_iff _ _).2 (hj i rfl))
          simp only [Option.filter, this]
          rfl
        · simp only [Outcome.ok.injEq] at h
          subst h
          rfl

theorem mapOutcome_narrow {env : RuleEnv} {p : Lookup} {input : Text} {f f' : Option (List Text)} (hf : Narrower f f') :
    ∀ {cs : List (Text × List MatchedEntity)} {rs : List (Option InternalResult)},
    mapOutcome (p.lookupOne env input f) cs = .ok rs →
    ∃ rs', mapOutcome (p.lookupOne env input f') cs = .ok rs' ∧
      rs'.filterMap id = (rs.filterMap id).filter fun r => keptByWhitelist f' r.intent := by
  intro cs rs h
  rw [mapOutcome_ok_iff] at h
  induction h with
  | nil => exact ⟨[], rfl, rfl⟩
  | cons h1 _ ih =>
    obtain ⟨rs', hrs', he⟩ := ih
    rename_i a b l₁ l₂ h2
    refine ⟨_ :: rs', mapOutcome_ok_iff.2 (List.Forall₂.cons (lookupOne_narrow hf h1) (mapOutcome_ok_iff.1 hrs')), ?_⟩
    cases b with
    | none => simpa using he
    | some r =>
      by_cases hk : keptByWhitelist f' r.intent = true
      · simp only [Option.filter, hk, if_true, List.filterMap_cons, id, List.filter_cons]
        exact congrArg (r :: ·) he
      · simp only [Option.filter, hk, List.filterMap_cons, id, List.filter_cons]
        exact he

/-- The best match of an intent is found among the matches of that intent. -/
theorem mem_bestPerIntent {rd : Rounding} {o : HashOrd} {rs : List InternalResult} (hrs : AllNamed rs)
    {r : InternalResult} : r ∈ bestPerIntent rd o rs ↔
      ∃ i, maxByLast (fun r : InternalResult => slotWeight rd r.slots.length) (resultsOf i rs) = some r := by
  have hnd := pushAll_nodup rs [] (by simp [Map.keys])
  have hget : ∀ n, (rs.foldl pushResult []).get n = if resultsOf n rs = [] then none else some (resultsOf n rs) := by
    intro n; rw [pushAll_get]; simp [Map.get_nil]
  unfold bestPerIntent
  rw [List.mem_filterMap]
  constructor
  · rintro ⟨e, he, h⟩
    have he := (o.perm 0 _).mem_iff.1 he
    have h1 := Map.get_of_mem hnd (k := e.1) (v := e.2) he
    rw [hget] at h1
    split at h1
    · cases h1
    · simp only [Option.some.injEq] at h1
      exact ⟨e.1, by rw [h1]; exact h⟩
  · rintro ⟨i, h⟩
    have hne : resultsOf i rs ≠ [] := by
      intro h0
      rw [h0] at h
      cases h
    have h1 := hget i
    rw [if_neg hne] at h1
    exact ⟨(i, resultsOf i rs), (o.perm 0 _).mem_iff.2 (Map.get_some_mem h1), h⟩

theorem resultsOf_filter (i : Text) (f : Option (List Text)) (rs : List InternalResult) :
    resultsOf i (rs.filter fun r => keptByWhitelist f r.intent) = if allowedBy f i then resultsOf i rs else [] := by
  unfold resultsOf
  rw [List.filter_filter]
  split
  · rename_i h
    refine List.filter_congr fun r _ => ?_
    rw [Bool.eq_iff_iff, Bool.and_eq_true, keptByWhitelist_iff, decide_eq_true_eq]
    refine ⟨fun h => h.1, fun hr => ⟨hr, fun j hj => ?_⟩⟩
    rw [hr, Option.some.injEq] at hj
    exact hj ▸ (allowedBy_iff _ _).1 h
  · rename_i h
    rw [List.filter_eq_nil_iff]
    intro r _ hr
    rw [Bool.and_eq_true, keptByWhitelist_iff, decide_eq_true_eq] at hr
    exact h ((allowedBy_iff _ _).2 (hr.2 i hr.1))

theorem lookup_narrow {env : RuleEnv} {p : Lookup} (hs : p.stopWords.specific = []) {o : HashOrd} {w : World} {input : Text}
    {f f' : Option (List Text)} (hf : Narrower f f')
    (hg : ∀ s ∈ p.scopes, (∃ i ∈ s.intentGroup, Permits f i) → ∃ i ∈ s.intentGroup, Permits f' i) {out : InternalResult}
    (h : (p.parse env o input f).run w = .ok out) :
    ∃ ms ms' : List (Text × List InternalSlot), ms'.Subperm ms ∧
      out = pickUnambiguous (rankByWeight env.rd (ms.map mkRes) 1) ∧
      (p.parse env o input f').run w = .ok (pickUnambiguous (rankByWeight env.rd (ms'.map mkRes) 1)) ∧
      ∀ i sl, (i, sl) ∈ ms → Permits f' i → (i, sl) ∈ ms' := by
  unfold Lookup.parse at h
  rw [Prog.run_bind, Outcome.bind_ok] at h
  obtain ⟨top, htop, h⟩ := h
  simp only [Prog.run_ret, Outcome.ok.injEq] at h
  unfold Lookup.parseTopIntents at htop
  rw [Prog.run_bind, Outcome.bind_ok] at htop
  obtain ⟨cs, hcs, htop⟩ := htop
  rw [Prog.run_bind, Outcome.bind_ok] at htop
  obtain ⟨rs, hrs, htop⟩ := htop
  simp only [Prog.run_ret, Outcome.ok.injEq] at htop
  rw [Prog.run_ofOutcome] at hrs
  have hcs' : (p.getCandidates env input f').run w = .ok cs := by
    unfold Lookup.getCandidates at hcs ⊢
    rw [Prog.run_bind, Outcome.bind_ok] at hcs
    obtain ⟨l, hl, hcs⟩ := hcs
    simp only [Prog.run_ret, Outcome.ok.injEq] at hcs
    obtain ⟨l', hl', hu⟩ := candidatesFrom_narrow env p hs input w p.scopes l (fun s hs => ⟨hg s hs, fun ⟨i, hi, hp⟩ =>
      ⟨i, hi, hf i hp⟩⟩) hl
    rw [Prog.run_bind, hl']
    simp only [Outcome.bind, Prog.run_ret, ← hu, hcs]
  obtain ⟨rs', hrs', he⟩ := mapOutcome_narrow hf hrs
  have hnamed : AllNamed (rs.filterMap id) := by
    intro r hr
    obtain ⟨x, hx, hxr⟩ := List.mem_filterMap.1 hr
    simp only [id] at hxr
    subst hxr
    obtain ⟨c, _, hc⟩ : ∃ c, c ∈ cs ∧ p.lookupOne env input f c = .ok (some r) := by
      obtain ⟨k, hk, hkx⟩ := List.mem_iff_getElem.1 hx
      have hlen := (mapOutcome_ok_iff.1 hrs).length_eq
      have := (List.forall₂_iff_get.1 (mapOutcome_ok_iff.1 hrs)).2 k (by omega) hk
      simp only [List.get_eq_getElem, hkx] at this
      exact ⟨cs[k], List.getElem_mem (by omega), this⟩
    obtain ⟨_, _, i, sl, hr, _⟩ := lookupOne_some hc
    exact ⟨(i, sl), hr⟩
  have hnamed' : AllNamed (rs'.filterMap id) := by
    intro r hr
    rw [he] at hr
    exact hnamed r (List.mem_filter.1 hr).1
  obtain ⟨g, hg1, hg2, _, _⟩ := bestPerIntent_eq env.rd _ hnamed
  obtain ⟨g', hg1', hg2', _, _⟩ := bestPerIntent_eq env.rd _ hnamed'
  have hmem : ∀ m : Text × List InternalSlot, m ∈ (o.order 0 ((rs.filterMap id).foldl pushResult [])).map g ↔
      mkRes m ∈ bestPerIntent env.rd o (rs.filterMap id) := by
    intro m
    rw [hg1 o, List.mem_map_of_injective (fun a b hab => mkRes_inj hab)]
  have hmem' : ∀ m : Text × List InternalSlot, m ∈ (o.order 0 ((rs'.filterMap id).foldl pushResult [])).map g' ↔
      mkRes m ∈ bestPerIntent env.rd o (rs'.filterMap id) := by
    intro m
    rw [hg1' o, List.mem_map_of_injective (fun a b hab => mkRes_inj hab)]
  have hname : ∀ {i : Text} {m : Text × List InternalSlot}, maxByLast (fun r : InternalResult => slotWeight env.rd r.slots.length)
      (resultsOf i (rs.filterMap id)) = some (mkRes m) → m.1 = i := by
    intro i m hm
    have hne : resultsOf i (rs.filterMap id) ≠ [] := by
      intro h0
      rw [h0] at hm
      cases hm
    obtain ⟨a, ha, hmax, _⟩ := maxByLast_spec (fun r : InternalResult => slotWeight env.rd r.slots.length) _ hne
    rw [hm] at hmax
    simp only [Option.some.injEq] at hmax
    subst hmax
    have := of_decide_eq_true (List.mem_filter.1 ha).2
    simpa [mkRes] using this
  refine ⟨(o.order 0 ((rs.filterMap id).foldl pushResult [])).map g,
    (o.order 0 ((rs'.filterMap id).foldl pushResult [])).map g', ?_, ?_, ?_, ?_⟩
  · refine List.subperm_of_subset ?_ ?_
    · refine List.Nodup.of_map Prod.fst ?_
      refine (((o.perm 0 _).map g').map Prod.fst).nodup_iff.2 ?_
      rw [hg2']
      exact pushAll_nodup _ [] (by simp [Map.keys])
    · intro m hm
      rw [hmem, mem_bestPerIntent hnamed]
      rw [hmem', mem_bestPerIntent hnamed'] at hm
      obtain ⟨i, hi⟩ := hm
      rw [he, resultsOf_filter] at hi
      split at hi
      · exact ⟨i, hi⟩
      · cases hi
  · rw [← h, ← htop, hg1 o]
  · unfold Lookup.parse Lookup.parseTopIntents
    rw [Prog.run_bind, Prog.run_bind, hcs']
    simp only [Outcome.bind]
    rw [Prog.run_bind, Prog.run_ofOutcome, hrs']
    simp only [Outcome.bind, Prog.run_ret, hg1' o]
  · intro i sl hm hp
    rw [hmem, mem_bestPerIntent hnamed] at hm
    obtain ⟨j, hj⟩ := hm
    have : i = j := hname hj
    subst this
    rw [hmem', mem_bestPerIntent hnamed']
    refine ⟨i, ?_⟩
    rw [he, resultsOf_filter, if_pos ((allowedBy_iff _ _).2 hp)]
    exact hj

end Snips
