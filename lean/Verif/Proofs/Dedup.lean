import Verif.Model.Utils
import Verif.Spec.Ranges
import Verif.Proofs.Sort

/-! Lemmas on overlap removal. -/

namespace Snips

theorem rangesOverlap_false_disj {a b : Rng} (h : rangesOverlap a b = false) : a.Disj b := by
  intro i hi
  simp only [rangesOverlap, Bool.and_eq_false_iff, decide_eq_false_iff_not] at h
  unfold Rng.Has at hi
  omega

theorem rangesOverlap_iff {a b : Rng} (ha : a.NonEmpty) (hb : b.NonEmpty) :
    rangesOverlap a b = true ↔ ¬ a.Disj b := by
  constructor
  · intro h hd
    simp only [rangesOverlap, Bool.and_eq_true, decide_eq_true_eq] at h
    apply hd (max a.start b.start)
    unfold Rng.Has Rng.NonEmpty at *
    omega
  · intro h
    by_contra hc
    exact h (rangesOverlap_false_disj (by simpa using hc))

theorem disj_symm {a b : Rng} (h : a.Disj b) : b.Disj a := fun i hi => h i ⟨hi.2, hi.1⟩

section fold
variable {α : Type} (overlap : α → α → Bool)

theorem dedupFold_append (l : List α) : ∀ kept : List α,
    ∃ s, l.foldl (dedupStep overlap) kept = kept ++ s ∧ s.Sublist l := by
  induction l with
  | nil => intro kept; exact ⟨[], by simp, List.Sublist.refl _⟩
  | cons x l ih =>
    intro kept
    rw [List.foldl_cons]
    unfold dedupStep
    split
    · obtain ⟨s, hs, hl⟩ := ih kept
      exact ⟨s, hs, hl.cons x⟩
    · obtain ⟨s, hs, hl⟩ := ih (kept ++ [x])
      exact ⟨x :: s, by erw [hs]; simp, hl.cons_cons x⟩

theorem dedupFold_pairwise (l : List α) : ∀ kept : List α,
    kept.Pairwise (fun a b => overlap a b = false) →
    (l.foldl (dedupStep overlap) kept).Pairwise (fun a b => overlap a b = false) := by
  induction l with
  | nil => intro kept h; exact h
  | cons x l ih =>
    intro kept h
    rw [List.foldl_cons]
    apply ih
    unfold dedupStep
    split
    · exact h
    · rename_i hn
      rw [List.pairwise_append]
      refine ⟨h, List.pairwise_singleton _ _, ?_⟩
      intro a ha b hb
      rw [List.mem_singleton] at hb
      subst hb
      simp only [List.any_eq_true, not_exists, not_and, Bool.not_eq_true] at hn
      exact hn a ha

theorem dedupFold_complete (l : List α) : ∀ kept : List α, ∀ x ∈ l,
    x ∈ l.foldl (dedupStep overlap) kept ∨
      ∃ k ∈ l.foldl (dedupStep overlap) kept, overlap k x = true ∧ (k ∈ kept ∨ [k, x].Sublist l) := by
  induction l with
  | nil => intro kept x hx; simp at hx
  | cons y l ih =>
    intro kept x hx
    rw [List.foldl_cons]
    obtain ⟨s, hs, _⟩ := dedupFold_append overlap l (dedupStep overlap kept y)
    have hsub : ∀ k ∈ dedupStep overlap kept y, k ∈ l.foldl (dedupStep overlap) (dedupStep overlap kept y) := by
      intro k hk; rw [hs]; exact List.mem_append_left _ hk
    rcases List.mem_cons.1 hx with rfl | hxl
    · by_cases hany : kept.any (fun d => overlap d x)
      · obtain ⟨k, hk, hov⟩ := List.any_eq_true.1 hany
        right
        refine ⟨k, hsub k ?_, hov, Or.inl hk⟩
        unfold dedupStep; rw [if_pos hany]; exact hk
      · left
        apply hsub
        unfold dedupStep; rw [if_neg hany]; simp
    · rcases ih (dedupStep overlap kept y) x hxl with h | ⟨k, hk, hov, hk'⟩
      · exact Or.inl h
      · right
        refine ⟨k, hk, hov, ?_⟩
        rcases hk' with hk' | hk'
        · unfold dedupStep at hk'
          split at hk'
          · exact Or.inl hk'
          · rcases List.mem_append.1 hk' with h | h
            · exact Or.inl h
            · rw [List.mem_singleton] at h
              subst h
              exact Or.inr ((List.singleton_sublist.2 hxl).cons_cons k)
        · exact Or.inr (hk'.cons y)

theorem dedupFold_of_pairwise (l : List α) : ∀ kept : List α,
    (kept ++ l).Pairwise (fun a b => overlap a b = false) →
    l.foldl (dedupStep overlap) kept = kept ++ l := by
  induction l with
  | nil => intro kept _; simp
  | cons x l ih =>
    intro kept h
    have hn : ¬ (kept.any (fun d => overlap d x) = true) := by
      rw [List.pairwise_append] at h
      simp only [List.any_eq_true, not_exists, not_and, Bool.not_eq_true]
      intro d hd
      exact h.2.2 d hd x (by simp)
    rw [List.foldl_cons]
    have : dedupStep overlap kept x = kept ++ [x] := by unfold dedupStep; rw [if_neg hn]
    rw [this, ih]
    · simp
    · simpa using h

end fold

section items
variable {α κ : Type} [LinearOrder κ] (overlap : α → α → Bool) (key : α → κ)

theorem dedupItems_subperm (l : List α) : (dedupItems overlap key l).Subperm l := by
  obtain ⟨s, hs, hl⟩ := dedupFold_append overlap (sortByKey key l) []
  unfold dedupItems
  rw [hs]
  simp only [List.nil_append]
  exact hl.subperm.trans (sortByKey_perm key l).subperm

theorem dedupItems_pairwise (l : List α) :
    (dedupItems overlap key l).Pairwise (fun a b => overlap a b = false) :=
  dedupFold_pairwise overlap _ [] List.Pairwise.nil

theorem dedupItems_complete (l : List α) : ∀ x ∈ l, x ∈ dedupItems overlap key l ∨
    ∃ k ∈ dedupItems overlap key l, overlap k x = true ∧
      (key k < key x ∨ (key k = key x ∧ [k, x].Sublist l)) := by
  intro x hx
  rcases dedupFold_complete overlap (sortByKey key l) [] x ((mem_sortByKey key).2 hx) with h | h
  · exact Or.inl h
  · obtain ⟨k, hk, hov, hk'⟩ := h
    refine Or.inr ⟨k, hk, hov, ?_⟩
    rcases hk' with hk' | hk'
    · simp at hk'
    · exact sublist_of_sortByKey key hk'

theorem dedupItems_of_pairwise {l : List α}
    (h : (sortByKey key l).Pairwise (fun a b => overlap a b = false)) :
    dedupItems overlap key l = sortByKey key l := by
  unfold dedupItems
  rw [dedupFold_of_pairwise overlap _ [] (by simpa using h)]
  simp

theorem dedupItems_sorted (l : List α) :
    (dedupItems overlap key l).Pairwise (fun a b => key a ≤ key b) := by
  obtain ⟨s, hs, hl⟩ := dedupFold_append overlap (sortByKey key l) []
  unfold dedupItems
  rw [hs]
  exact (sortByKey_pairwise key l).sublist hl

end items

theorem rangesOverlap_symm (a b : Rng) : rangesOverlap a b = rangesOverlap b a := by
  unfold rangesOverlap
  rw [Bool.and_comm]

/-- The kept matches: by start, then the longest first. -/
theorem dedupEntities_lex (es : List MatchedEntity) :
    (dedupEntities es).Pairwise (fun a b => a.range.start < b.range.start ∨
      a.range.start = b.range.start ∧ -(a.range.count : Int) ≤ -(b.range.count : Int)) := by
  rw [List.pairwise_iff_forall_sublist]
  intro a b hab
  unfold dedupEntities at hab
  rcases sublist_of_sortByKey _ hab with h | ⟨h, hs⟩
  · exact Or.inl h
  · refine Or.inr ⟨h, ?_⟩
    have := (dedupItems_sorted _ _ es).sublist hs
    simpa using this

end Snips
