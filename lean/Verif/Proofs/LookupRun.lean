import Verif.Proofs.Rule
import Verif.Props.C34_Combinations

/-! What running the lookup parser amounts to. -/

namespace Snips

/-- The results for one intent, in order. -/
def resultsOf (n : Text) (rs : List InternalResult) : List InternalResult :=
  rs.filter fun r => r.intent.name = some n

theorem pushResult_get (m : Map Text (List InternalResult)) (r : InternalResult) (n : Text) :
    (pushResult m r).get n =
      if r.intent.name = some n then some ((m.get n).getD [] ++ [r]) else m.get n := by
  unfold pushResult
  cases hn : r.intent.name with
  | none => simp
  | some i =>
    simp only [Option.some.injEq]
    cases hg : m.get i with
    | some rs =>
      rw [Map.get_insert]
      by_cases h : n = i
      · subst h; simp [hg]
      · simp [h, Ne.symm h]
    | none =>
      rw [Map.get_insert]
      by_cases h : n = i
      · subst h; simp [hg]
      · simp [h, Ne.symm h]

theorem pushResult_nodup (m : Map Text (List InternalResult)) (r : InternalResult) (h : m.keys.Nodup) :
    (pushResult m r).keys.Nodup := by
  unfold pushResult
  cases r.intent.name with
  | none => exact h
  | some i =>
    simp only
    cases m.get i with
    | some rs => exact Map.keys_insert_nodup _ _ _ h
    | none => exact Map.keys_insert_nodup _ _ _ h

theorem pushAll_get (rs : List InternalResult) : ∀ (m : Map Text (List InternalResult)) (n : Text),
    (rs.foldl pushResult m).get n =
      if resultsOf n rs = [] then m.get n else some ((m.get n).getD [] ++ resultsOf n rs) := by
  induction rs with
  | nil => intro m n; simp [resultsOf]
  | cons r rs ih =>
    intro m n
    rw [List.foldl_cons, ih, pushResult_get]
    unfold resultsOf
    rw [List.filter_cons]
    by_cases h : r.intent.name = some n
    · simp only [h, if_true, decide_true]
      by_cases h2 : List.filter (fun r => decide (r.intent.name = some n)) rs = []
      · simp [h2]
      · simp [h2, List.append_assoc]
    · simp [h]

theorem pushAll_nodup (rs : List InternalResult) : ∀ m : Map Text (List InternalResult), m.keys.Nodup →
    (rs.foldl pushResult m).keys.Nodup := by
  induction rs with
  | nil => intro m h; exact h
  | cons r rs ih => intro m h; exact ih _ (pushResult_nodup m r h)

theorem maxByLast_spec {α : Type} (score : α → ℚ) (l : List α) (h : l ≠ []) :
    ∃ a ∈ l, maxByLast score l = some a ∧ ∀ b ∈ l, score b ≤ score a := by
  cases l with
  | nil => exact absurd rfl h
  | cons x l =>
    unfold maxByLast
    have : ∀ (l : List α) (x : α), let r := l.foldl (fun best y => if score best ≤ score y then y else best) x
        (r = x ∨ r ∈ l) ∧ score x ≤ score r ∧ ∀ b ∈ l, score b ≤ score r := by
      intro l
      induction l with
      | nil => intro x; exact ⟨Or.inl rfl, le_refl _, by simp⟩
      | cons y l ih =>
        intro x
        simp only [List.foldl_cons]
        by_cases hxy : score x ≤ score y
        · rw [if_pos hxy]
          obtain ⟨h1, h2, h3⟩ := ih y
          refine ⟨Or.inr ?_, le_trans hxy h2, ?_⟩
          · rcases h1 with h1 | h1
            · rw [h1]; simp
            · simp [h1]
          · intro b hb
            rcases List.mem_cons.1 hb with rfl | hb
            · exact h2
            · exact h3 b hb
        · rw [if_neg hxy]
          obtain ⟨h1, h2, h3⟩ := ih x
          refine ⟨?_, h2, ?_⟩
          · rcases h1 with h1 | h1
            · exact Or.inl h1
            · exact Or.inr (by simp [h1])
          · intro b hb
            rcases List.mem_cons.1 hb with rfl | hb
            · exact le_trans (le_of_lt (not_le.1 hxy)) h2
            · exact h3 b hb
    obtain ⟨h1, h2, h3⟩ := this l x
    refine ⟨_, ?_, rfl, ?_⟩
    · rcases h1 with h1 | h1
      · rw [h1]; simp
      · exact List.mem_cons_of_mem _ h1
    · intro b hb
      rcases List.mem_cons.1 hb with rfl | hb
      · exact h2
      · exact h3 b hb

/-- All results carry an intent and the score 1. -/
def AllNamed (rs : List InternalResult) : Prop := ∀ r ∈ rs, ∃ m, r = mkRes m

/-- Best results: one per intent, in the order of the hash map. -/
theorem bestPerIntent_eq (rd : Rounding) (rs : List InternalResult) (hrs : AllNamed rs) :
    ∃ f : Text × List InternalResult → Text × List InternalSlot,
      (∀ o : HashOrd, bestPerIntent rd o rs = ((o.order 0 (rs.foldl pushResult [])).map f).map mkRes) ∧
      ((rs.foldl pushResult []).map f).map Prod.fst = (rs.foldl pushResult []).keys ∧
      (∀ n sl, (n, sl) ∈ (rs.foldl pushResult []).map f →
        mkRes (n, sl) ∈ rs ∧
        ∀ sl', mkRes (n, sl') ∈ rs → slotWeight rd sl'.length ≤ slotWeight rd sl.length) ∧
      (∀ n sl', mkRes (n, sl') ∈ rs → ∃ sl, (n, sl) ∈ (rs.foldl pushResult []).map f) := by
  have hnd := pushAll_nodup rs [] (by simp [Map.keys])
  have hget : ∀ n, (rs.foldl pushResult []).get n = if resultsOf n rs = [] then none else some (resultsOf n rs) := by
    intro n; rw [pushAll_get]; simp [Map.get_nil]
  have hentry : ∀ e ∈ rs.foldl pushResult [], ∃ sl, maxByLast (fun r : InternalResult =>
      slotWeight rd r.slots.length) e.2 = some (mkRes (e.1, sl)) ∧ mkRes (e.1, sl) ∈ rs ∧
      ∀ sl', mkRes (e.1, sl') ∈ rs → slotWeight rd sl'.length ≤ slotWeight rd sl.length := by
    intro e he
    have h1 := Map.get_of_mem hnd (k := e.1) (v := e.2) he
    rw [hget] at h1
    split at h1
    · simp at h1
    · rename_i hne
      simp only [Option.some.injEq] at h1
      obtain ⟨a, ha, hmax, hall⟩ := maxByLast_spec (fun r : InternalResult => slotWeight rd r.slots.length)
        (resultsOf e.1 rs) hne
      have ha' := List.mem_filter.1 ha
      obtain ⟨m, rfl⟩ := hrs a ha'.1
      have hm1 : m.1 = e.1 := by
        have := of_decide_eq_true ha'.2
        simpa [mkRes] using this
      obtain ⟨m1, sl⟩ := m
      simp only at hm1
      subst hm1
      refine ⟨sl, by rw [← h1]; exact hmax, ha'.1, ?_⟩
      intro sl' hsl'
      exact hall (mkRes (e.1, sl')) (List.mem_filter.2 ⟨hsl', by simp [mkRes]⟩)
  let f : Text × List InternalResult → Text × List InternalSlot := fun e =>
    (e.1, match maxByLast (fun r : InternalResult => slotWeight rd r.slots.length) e.2 with
      | some r => r.slots
      | none => [])
  have hf : ∀ e ∈ rs.foldl pushResult [], maxByLast (fun r : InternalResult =>
      slotWeight rd r.slots.length) e.2 = some (mkRes (f e)) := by
    intro e he
    obtain ⟨sl, h1, _⟩ := hentry e he
    simp only [f, h1]
    rfl
  refine ⟨f, ?_, ?_, ?_, ?_⟩
  · intro o
    unfold bestPerIntent
    have hsub : ∀ e ∈ o.order 0 (rs.foldl pushResult []), e ∈ rs.foldl pushResult [] :=
      fun e he => (o.perm 0 _).mem_iff.1 he
    revert hsub
    generalize o.order 0 (rs.foldl pushResult []) = L
    intro hsub
    induction L with
    | nil => rfl
    | cons e L ih =>
      rw [List.filterMap_cons, hf e (hsub e (by simp)), List.map_cons, List.map_cons,
        ih (fun e' he' => hsub e' (by simp [he']))]
  · rw [List.map_map]; rfl
  · intro n sl hmem
    obtain ⟨e, he, heq⟩ := List.mem_map.1 hmem
    obtain ⟨sl', h1, h2, h3⟩ := hentry e he
    have : f e = (e.1, sl') := by simp only [f, h1]; rfl
    rw [this] at heq
    simp only [Prod.mk.injEq] at heq
    obtain ⟨rfl, rfl⟩ := heq
    exact ⟨h2, h3⟩
  · intro n sl' hmem
    have hne : resultsOf n rs ≠ [] := by
      intro h
      have : mkRes (n, sl') ∈ resultsOf n rs := List.mem_filter.2 ⟨hmem, by simp [mkRes]⟩
      rw [h] at this
      simp at this
    have h1 := hget n
    rw [if_neg hne] at h1
    exact ⟨_, List.mem_map.2 ⟨_, Map.get_some_mem h1, rfl⟩⟩

theorem indexName_ok {names : List Text} {id : Int} {t : Text} :
    indexName names id = .ok t ↔ ∃ k : Nat, id = k ∧ names[k]? = some t := by
  unfold indexName
  by_cases h : 0 ≤ id
  · rw [if_pos h]
    obtain ⟨k, rfl⟩ := Int.eq_ofNat_of_zero_le h
    simp only [Int.toNat_natCast, Nat.cast_inj]
    constructor
    · intro h2
      refine ⟨k, rfl, ?_⟩
      cases h3 : names[k]? with
      | some t' => rw [h3] at h2; simpa [Outcome.unwrap] using h2
      | none => rw [h3] at h2; simp [Outcome.unwrap] at h2
    · rintro ⟨k', rfl, h2⟩
      rw [h2]; rfl
  · rw [if_neg h]
    constructor
    · intro h2; simp at h2
    · rintro ⟨k, rfl, _⟩; omega

theorem lookupSlots_ok {p : Lookup} {input : Text} {l : List (Int × MatchedEntity)} {sl : List InternalSlot} :
    mapOutcome (p.slotOf input) l = .ok sl ↔ List.Forall₂ (fun ie s => p.IsSlot input ie.1 ie.2 s) l sl := by
  rw [mapOutcome_ok_iff]
  have : ∀ ie s, p.slotOf input ie = .ok s ↔ p.IsSlot input ie.1 ie.2 s := by
    intro ie s
    unfold Lookup.slotOf Lookup.IsSlot
    rw [Outcome.bind_eq, Outcome.bind_ok]
    constructor
    · rintro ⟨n, h1, h2⟩
      simp only [Outcome.ok.injEq] at h2
      subst h2
      exact ⟨indexName_ok.1 h1, rfl, rfl, rfl⟩
    · rintro ⟨h1, h2, h3, h4⟩
      refine ⟨s.slotName, indexName_ok.2 h1, ?_⟩
      cases s
      simp only at h2 h3 h4
      subst h2 h3 h4
      rfl
  simp only [this]

theorem lookupOne_some {env : RuleEnv} {p : Lookup} {input : Text} {filter : Option (List Text)}
    {c : Text × List MatchedEntity} {r : InternalResult} (h : p.lookupOne env input filter c = .ok (some r)) :
    ∃ (n : Nat) (slotIds : List Int) (i : Text) (sl : List InternalSlot), r = mkRes (i, sl) ∧
      p.map.get (env.fns.hashStr c.1) = some ((n : Int), slotIds) ∧ p.intentsNames[n]? = some i ∧
      Permits filter i ∧ List.Forall₂ (fun ie s => p.IsSlot input ie.1 ie.2 s) (slotIds.zip c.2) sl := by
  unfold Lookup.lookupOne at h
  cases hg : p.map.get (env.fns.hashStr c.1) with
  | none => rw [hg] at h; simp at h
  | some output =>
    rw [hg] at h
    simp only [Lookup.parseMapOutput] at h
    split at h
    · simp at h
    · rw [Outcome.bind_eq, Outcome.bind_ok] at h
      obtain ⟨i, hi, h⟩ := h
      split at h
      · rename_i hall
        rw [Outcome.bind_eq, Outcome.bind_ok] at h
        obtain ⟨sl, hsl, h⟩ := h
        simp only [Outcome.ok.injEq, Option.some.injEq] at h
        obtain ⟨k, hk1, hk2⟩ := indexName_ok.1 hi
        refine ⟨k, output.2, i, sl, h.symm, ?_, hk2, (allowedBy_iff _ _).1 hall, lookupSlots_ok.1 hsl⟩
        rw [← hk1]
      · simp at h

theorem lookupOne_of {env : RuleEnv} {p : Lookup} {input : Text} {filter : Option (List Text)}
    {c : Text × List MatchedEntity} {n : Nat} {slotIds : List Int} {i : Text} {sl : List InternalSlot}
    {res : Option InternalResult} (hok : p.lookupOne env input filter c = .ok res)
    (hg : p.map.get (env.fns.hashStr c.1) = some ((n : Int), slotIds)) (hi : p.intentsNames[n]? = some i)
    (hp : Permits filter i)
    (hsl : List.Forall₂ (fun ie s => p.IsSlot input ie.1 ie.2 s) (slotIds.zip c.2) sl) :
    res = some (mkRes (i, sl)) := by
  unfold Lookup.lookupOne at hok
  rw [hg] at hok
  simp only [Lookup.parseMapOutput] at hok
  split at hok
  · simp at hok
  · rw [Outcome.bind_eq, Outcome.bind_ok] at hok
    obtain ⟨i', hi', h⟩ := hok
    have : indexName p.intentsNames (n : Int) = .ok i := indexName_ok.2 ⟨n, rfl, hi⟩
    rw [this] at hi'
    simp only [Outcome.ok.injEq] at hi'
    subst hi'
    rw [if_pos ((allowedBy_iff _ _).2 hp), Outcome.bind_eq, Outcome.bind_ok] at h
    obtain ⟨sl', hsl', h⟩ := h
    rw [lookupSlots_ok.2 hsl] at hsl'
    simp only [Outcome.ok.injEq] at hsl' h
    subst hsl'
    exact h.symm

/-- Running `parse_top_intents`: the matches do not depend on hash order, only their order does. -/
theorem lookup_top_run {env : RuleEnv} {p : Lookup} {input : Text} {filter : Option (List Text)}
    {w : World} {o : HashOrd} {n : Nat} {out : List InternalResult}
    (h : (p.parseTopIntents env o input n filter).run w = .ok out) :
    ∃ ms : List (Text × List InternalSlot), (ms.map Prod.fst).Nodup ∧
      (∀ i sl, (i, sl) ∈ ms → p.Hit env w input filter i sl ∧
        ∀ sl', p.Hit env w input filter i sl' → slotWeight env.rd sl'.length ≤ slotWeight env.rd sl.length) ∧
      (∀ i sl', p.Hit env w input filter i sl' → ∃ sl, (i, sl) ∈ ms) ∧
      ∀ (o' : HashOrd), ∃ ms' : List (Text × List InternalSlot), ms'.Perm ms ∧ ∀ k, (p.parseTopIntents env o' input k filter).run w
        = .ok (rankByWeight env.rd (ms'.map mkRes) k) := by
  have h0 := h
  unfold Lookup.parseTopIntents at h
  rw [Prog.run_bind, Outcome.bind_ok] at h
  obtain ⟨cs, hcs, h⟩ := h
  rw [Prog.run_bind, Outcome.bind_ok] at h
  obtain ⟨rs, hrs, _⟩ := h
  rw [Prog.run_ofOutcome] at hrs
  have hrs2 := mapOutcome_ok_iff.1 hrs
  have hmem : ∀ r, r ∈ rs.filterMap id ↔ ∃ c ∈ cs, p.lookupOne env input filter c = .ok (some r) := by
    intro r
    rw [List.mem_filterMap]
    constructor
    · rintro ⟨a, ha, hr⟩
      simp only [id] at hr
      subst hr
      obtain ⟨k, hk, hka⟩ := List.mem_iff_getElem.1 ha
      have hlen := hrs2.length_eq
      have h3 := (List.forall₂_iff_get.1 hrs2).2 k (by omega) hk
      simp only [List.get_eq_getElem, hka] at h3
      exact ⟨cs[k], List.getElem_mem (by omega), h3⟩
    · rintro ⟨c, hc, hlk⟩
      obtain ⟨k, hk, hkc⟩ := List.mem_iff_getElem.1 hc
      have hlen := hrs2.length_eq
      have := (List.forall₂_iff_get.1 hrs2).2 k hk (by omega)
      simp only [List.get_eq_getElem, hkc] at this
      rw [hlk] at this
      simp only [Outcome.ok.injEq] at this
      exact ⟨some r, this ▸ List.getElem_mem (by omega), rfl⟩
  have hhit : ∀ i sl, mkRes (i, sl) ∈ rs.filterMap id ↔ p.Hit env w input filter i sl := by
    intro i sl
    rw [hmem]
    constructor
    · rintro ⟨c, hc, hlk⟩
      obtain ⟨scope, hs, owner, ho, hperm, found, hf, hes, hkey⟩ :=
        (c34_candidates env p input filter w cs hcs c.1 c.2).1 hc
      obtain ⟨nn, ids, i', sl', hr, h1, h2, h3, h4⟩ := lookupOne_some hlk
      have := mkRes_inj hr
      simp only [Prod.mk.injEq] at this
      obtain ⟨rfl, rfl⟩ := this
      refine ⟨scope, hs, owner, ho, hperm, found, c.2, hf, hes, nn, ids, ?_, h2, h3, h4⟩
      rw [← hkey]; exact h1
    · rintro ⟨scope, hs, owner, ho, hperm, found, es, hf, hes, nn, ids, h1, h2, h3, h4⟩
      have hc := (c34_candidates env p input filter w cs hcs _ es).2
        ⟨scope, hs, owner, ho, hperm, found, hf, hes, rfl⟩
      obtain ⟨k, hk, hkc⟩ := List.mem_iff_getElem.1 hc
      have hlen := hrs2.length_eq
      have hok := (List.forall₂_iff_get.1 hrs2).2 k hk (by omega)
      simp only [List.get_eq_getElem, hkc] at hok
      have := lookupOne_of hok h1 h2 h3 h4
      rw [this] at hok
      exact ⟨_, hc, hok⟩
  have hnamed : AllNamed (rs.filterMap id) := by
    intro r hr
    obtain ⟨c, _, hlk⟩ := (hmem r).1 hr
    obtain ⟨_, _, i, sl, hr, _⟩ := lookupOne_some hlk
    exact ⟨(i, sl), hr⟩
  obtain ⟨f, hf1, hf2, hf3, hf4⟩ := bestPerIntent_eq env.rd (rs.filterMap id) hnamed
  refine ⟨((rs.filterMap id).foldl pushResult []).map f, ?_, ?_, ?_, ?_⟩
  · rw [hf2]; exact pushAll_nodup _ [] (by simp [Map.keys])
  · intro i sl hm
    obtain ⟨h1, h2⟩ := hf3 i sl hm
    exact ⟨(hhit i sl).1 h1, fun sl' hsl' => h2 sl' ((hhit i sl').2 hsl')⟩
  · intro i sl' hh
    exact hf4 i sl' ((hhit i sl').2 hh)
  · intro o'
    refine ⟨(o'.order 0 ((rs.filterMap id).foldl pushResult [])).map f, (o'.perm 0 _).map f, ?_⟩
    intro k
    unfold Lookup.parseTopIntents
    rw [Prog.run_bind, hcs]
    show ((Prog.ofOutcome _).bind _).run w = _
    rw [Prog.run_bind, Prog.run_ofOutcome, hrs]
    show Outcome.ok _ = _
    rw [hf1 o']

end Snips
