import Verif.Proofs.Weights
import Verif.Spec.Rule
import Verif.Proofs.Map

/-! The decision of the rule-based parsers, for matches of distinct intents. -/

namespace Snips

/-- The internal result of a match. -/
def mkRes (m : Text × List InternalSlot) : InternalResult := ⟨⟨some m.1, 1⟩, m.2⟩

theorem mkRes_inj {a b : Text × List InternalSlot} (h : mkRes a = mkRes b) : a = b := by
  simp only [mkRes, InternalResult.mk.injEq, IntentResult.mk.injEq, Option.some.injEq, and_true] at h
  exact Prod.ext h.1 h.2

section
variable {ms : List (Text × List InternalSlot)}

theorem mem_unique_key (hn : (ms.map Prod.fst).Nodup) {i : Text} {sl sl' : List InternalSlot}
    (h : (i, sl) ∈ ms) (h' : (i, sl') ∈ ms) : sl = sl' := by
  have h1 := Map.get_of_mem (m := ms) hn h
  have h2 := Map.get_of_mem (m := ms) hn h'
  rw [h1] at h2
  exact Option.some.inj h2

/-- Distinct entries of `ms` are competitors in the sense of `conf_le_half`. -/
theorem conf_le_half_of_rival (rd : Rounding) {a b : Text × List InternalSlot} (ha : a ∈ ms) (hb : b ∈ ms)
    (hab : a ≠ b) (hk : b.2.length ≤ a.2.length) : confOf rd (ms.map mkRes) a.2.length ≤ 1 / 2 := by
  obtain ⟨i, hi⟩ := List.mem_iff_getElem?.1 ha
  obtain ⟨j, hj⟩ := List.mem_iff_getElem?.1 hb
  have hij : i ≠ j := by
    intro h
    subst h
    rw [hi] at hj
    exact hab (Option.some.inj hj)
  exact conf_le_half rd (rs := ms.map mkRes) (i := i) (j := j) (r := mkRes a) (c := mkRes b) hij
    (by simp [hi]) (by simp [hj]) hk

theorem erase_map_mkRes {a : Text × List InternalSlot} :
    (ms.map mkRes).erase (mkRes a) = (ms.erase a).map mkRes := by
  induction ms with
  | nil => rfl
  | cons b ms ih =>
    by_cases h : b = a
    · subst h; simp
    · have h' : mkRes b ≠ mkRes a := fun he => h (mkRes_inj he)
      rw [List.map_cons, List.erase_cons_tail (by simpa using h'), List.erase_cons_tail (by simpa using h), ih]
      rfl

theorem erase_eq_filter_key (hn : (ms.map Prod.fst).Nodup) {i : Text} {sl : List InternalSlot}
    (h : (i, sl) ∈ ms) : ms.erase (i, sl) = ms.filter (fun m => m.1 ≠ i) := by
  rw [List.Nodup.erase_eq_filter (List.Nodup.of_map _ hn)]
  apply List.filter_congr
  intro m hm
  by_cases hmi : m.1 = i
  · have : m = (i, sl) := Prod.ext hmi (mem_unique_key hn (i := i) (by rw [← hmi]; exact hm) h)
    subst this
    simp
  · have : m ≠ (i, sl) := fun h => hmi (by rw [h])
    simp [hmi, this]

theorem wins_iff (hn : (ms.map Prod.fst).Nodup) {i : Text} {sl : List InternalSlot} (h : (i, sl) ∈ ms) :
    1 / 2 < confOf Rounding.exact (ms.map mkRes) sl.length ↔ rivalsWeight ms i < idealWeight sl := by
  have h1 := conf_exact_iff (rs := ms.map mkRes) (r := mkRes (i, sl)) (List.mem_map.2 ⟨_, h, rfl⟩)
  rw [erase_map_mkRes, erase_eq_filter_key hn h, List.map_map] at h1
  exact h1

theorem pick_cases' (rd : Rounding) :
    pickUnambiguous (rankByWeight rd (ms.map mkRes) 1) = noIntent ∧
        (∀ m ∈ ms, confOf rd (ms.map mkRes) m.2.length ≤ 1 / 2) ∨
    ∃ m ∈ ms, pickUnambiguous (rankByWeight rd (ms.map mkRes) 1)
          = ⟨⟨some m.1, confOf rd (ms.map mkRes) m.2.length⟩, m.2⟩ ∧
      1 / 2 < confOf rd (ms.map mkRes) m.2.length := by
  rcases pick_cases rd (ms.map mkRes) with ⟨h1, h2⟩ | ⟨r, hr, h1, h2⟩
  · exact Or.inl ⟨h1, fun m hm => h2 (mkRes m) (List.mem_map.2 ⟨m, hm, rfl⟩)⟩
  · obtain ⟨m, hm, rfl⟩ := List.mem_map.1 hr
    exact Or.inr ⟨m, hm, h1, h2⟩

/-- At most one match has a confidence above one half. -/
theorem winner_unique (rd : Rounding) {a b : Text × List InternalSlot} (ha : a ∈ ms) (hb : b ∈ ms)
    (h1 : 1 / 2 < confOf rd (ms.map mkRes) a.2.length) (h2 : 1 / 2 < confOf rd (ms.map mkRes) b.2.length) :
    a = b := by
  by_contra hab
  rcases Nat.le_total a.2.length b.2.length with h | h
  · exact absurd (conf_le_half_of_rival rd hb ha (fun e => hab e.symm) h) (not_le.2 h2)
  · exact absurd (conf_le_half_of_rival rd ha hb hab h) (not_le.2 h1)

theorem verdict_of (hn : (ms.map Prod.fst).Nodup) :
    Verdict ms (pickUnambiguous (rankByWeight Rounding.exact (ms.map mkRes) 1)) := by
  rcases pick_cases' (ms := ms) Rounding.exact with ⟨h1, h2⟩ | ⟨m, hm, h1, h2⟩
  · rw [h1]
    refine ⟨fun i => ?_, fun i h => by simp [noIntent] at h, fun _ => rfl⟩
    constructor
    · intro h; simp [noIntent] at h
    · rintro ⟨sl, hsl, hw⟩
      exact absurd (h2 (i, sl) hsl) (not_le.2 ((wins_iff hn hsl).2 hw))
  · rw [h1]
    refine ⟨fun i => ?_, fun i h => ?_, fun h => by simp at h⟩
    · constructor
      · intro h
        simp only [Option.some.injEq] at h
        subst h
        exact ⟨m.2, hm, (wins_iff hn (i := m.1) hm).1 h2⟩
      · rintro ⟨sl, hsl, hw⟩
        have := winner_unique _ hm hsl h2 ((wins_iff hn hsl).2 hw)
        rw [this]
    · simp only [Option.some.injEq] at h
      subst h
      exact hm

theorem roundedVerdict_of (rd : Rounding) :
    RoundedVerdict ms (pickUnambiguous (rankByWeight rd (ms.map mkRes) 1)) := by
  rcases pick_cases' (ms := ms) rd with ⟨h1, h2⟩ | ⟨m, hm, h1, h2⟩
  · rw [h1]
    refine ⟨fun i h => by simp [noIntent] at h, fun _ => rfl, ?_, fun i h => by simp [noIntent] at h,
      fun _ _ _ _ => rfl⟩
    rintro i sl rfl
    have := h2 (i, sl) (by simp)
    rw [show confOf rd (List.map mkRes [(i, sl)]) (i, sl).2.length = 1 from conf_single rd (mkRes (i, sl))]
      at this
    norm_num at this
  · rw [h1]
    refine ⟨fun i h => ?_, fun h => by simp at h, ?_, ?_, ?_⟩
    · simp only [Option.some.injEq] at h; subst h; exact hm
    · rintro i sl rfl
      rw [List.mem_singleton] at hm
      subst hm
      rw [show confOf rd (List.map mkRes [(i, sl)]) (i, sl).2.length = 1 from conf_single rd (mkRes (i, sl))]
    · intro i hi c hc hne
      simp only [Option.some.injEq] at hi
      subst hi
      by_contra hlt
      exact absurd (conf_le_half_of_rival rd hm hc (fun e => hne (by rw [e])) (not_lt.1 hlt)) (not_le.2 h2)
    · intro a b hp hab
      exfalso
      have hp' := (List.Perm.map mkRes hp)
      obtain ⟨x, y, hxy⟩ : ∃ x y, ms = [x, y] := List.length_eq_two.1 hp.length_eq
      subst hxy
      have hlen : x.2.length = y.2.length := by
        have hx := hp.mem_iff.1 (show x ∈ [x, y] by simp)
        have hy := hp.mem_iff.1 (show y ∈ [x, y] by simp)
        simp only [List.mem_cons, List.not_mem_nil, or_false] at hx hy
        rcases hx with rfl | rfl <;> rcases hy with rfl | rfl <;> simp [hab]
      have hhalf : confOf rd [mkRes x, mkRes y] x.2.length ≤ 1 / 2 :=
        conf_le_half rd (rs := [mkRes x, mkRes y]) (i := 0) (j := 1) (r := mkRes x) (c := mkRes y) (by decide)
          rfl rfl (by show y.2.length ≤ x.2.length; omega)
      simp only [List.mem_cons, List.not_mem_nil, or_false] at hm
      rcases hm with rfl | rfl
      · exact absurd hhalf (not_le.2 h2)
      · rw [hlen] at hhalf; exact absurd hhalf (not_le.2 h2)

/-- In exact arithmetic the decision does not depend on the order of the matches. -/
theorem pick_perm {ms' : List (Text × List InternalSlot)} (hp : ms.Perm ms') :
    pickUnambiguous (rankByWeight Rounding.exact (ms.map mkRes) 1)
      = pickUnambiguous (rankByWeight Rounding.exact (ms'.map mkRes) 1) := by
  have hc := fun k => conf_perm (hp.map mkRes) k
  rcases pick_cases' (ms := ms) Rounding.exact with ⟨h1, h2⟩ | ⟨m, hm, h1, h2⟩
  · rcases pick_cases' (ms := ms') Rounding.exact with ⟨h1', _⟩ | ⟨m', hm', h1', h2'⟩
    · rw [h1, h1']
    · rw [← hc] at h2'
      exact absurd h2' (not_lt.2 (h2 _ (hp.mem_iff.2 hm')))
  · rcases pick_cases' (ms := ms') Rounding.exact with ⟨h1', h2'⟩ | ⟨m', hm', h1', h2'⟩
    · rw [hc] at h2
      exact absurd h2 (not_lt.2 (h2' _ (hp.mem_iff.1 hm)))
    · rw [← hc] at h2'
      have := winner_unique _ hm (hp.mem_iff.2 hm') h2 h2'
      subst this
      rw [h1, h1', hc]

/-- Whatever the rounding, two orders of the matches cannot select different intents. -/
theorem pick_same_intent (rd : Rounding) {ms' : List (Text × List InternalSlot)} (hp : ms.Perm ms')
    {i j : Text}
    (hi : (pickUnambiguous (rankByWeight rd (ms.map mkRes) 1)).intent.name = some i)
    (hj : (pickUnambiguous (rankByWeight rd (ms'.map mkRes) 1)).intent.name = some j)
    (hn : (ms.map Prod.fst).Nodup) :
    i = j ∧ (pickUnambiguous (rankByWeight rd (ms.map mkRes) 1)).slots
      = (pickUnambiguous (rankByWeight rd (ms'.map mkRes) 1)).slots := by
  have v := roundedVerdict_of (ms := ms) rd
  have v' := roundedVerdict_of (ms := ms') rd
  have h1 := v.slots i hi
  have h2 := hp.mem_iff.2 (v'.slots j hj)
  by_cases hij : i = j
  · subst hij
    exact ⟨rfl, mem_unique_key hn h1 h2⟩
  · have h3 := v.fewer i hi _ h2 (fun h => hij h.symm)
    have h4 := v'.fewer j hj _ (hp.mem_iff.1 h1) hij
    exact absurd h3 (not_lt.2 (le_of_lt h4))

/-! ### Rankings -/

theorem rank_all (rd : Rounding) {n : Nat} (h : ms.length ≤ n) :
    (rankByWeight rd (ms.map mkRes) n).Perm
      (ms.map fun m => ⟨⟨some m.1, confOf rd (ms.map mkRes) m.2.length⟩, m.2⟩) := by
  rw [rankByWeight_eq, List.take_of_length_le]
  · refine (sortDesc_perm _ _).trans ?_
    rw [List.map_map]
    exact List.Perm.refl _
  · rw [(sortDesc_perm _ _).length_eq]
    simpa using h

theorem rank_sorted (rd : Rounding) (n : Nat) :
    (rankByWeight rd (ms.map mkRes) n).Pairwise (fun a b => b.intent.score ≤ a.intent.score) := by
  rw [rankByWeight_eq]
  exact (sortDesc_pairwise (fun r : InternalResult => r.intent.score) _).sublist (List.take_sublist _ _)

theorem rank_mem (rd : Rounding) {n : Nat} {r : InternalResult} (h : r ∈ rankByWeight rd (ms.map mkRes) n) :
    ∃ m ∈ ms, r = ⟨⟨some m.1, confOf rd (ms.map mkRes) m.2.length⟩, m.2⟩ := by
  rw [rankByWeight_eq] at h
  have := (mem_sortDesc _).1 (List.mem_of_mem_take h)
  rw [List.map_map] at this
  obtain ⟨m, hm, rfl⟩ := List.mem_map.1 this
  exact ⟨m, hm, rfl⟩

end

end Snips
