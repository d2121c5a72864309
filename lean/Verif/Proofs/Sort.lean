import Verif.Model.Basic

/-! Lemmas on stable sorting. -/

namespace Snips

section generic
variable {α : Type} {r : α → α → Prop} [DecidableRel r]

theorem orderedInsert_of_forall {a : α} {l : List α} (h : ∀ b ∈ l, r a b) :
    l.orderedInsert r a = a :: l := by
  cases l with
  | nil => rfl
  | cons b l => simp [List.orderedInsert, h b (by simp)]

theorem filter_orderedInsert [IsTrans α r] (p : α → Bool) (a : α) :
    ∀ {l : List α}, l.Pairwise r →
      (l.orderedInsert r a).filter p
        = if p a then (l.filter p).orderedInsert r a else l.filter p
  | [], _ => by by_cases hp : p a <;> simp [hp]
  | b :: l, hl => by
    rw [List.pairwise_cons] at hl
    by_cases hab : r a b
    · have hall : ∀ c ∈ b :: l, r a c := by
        intro c hc
        rcases List.mem_cons.1 hc with rfl | hc
        · exact hab
        · exact IsTrans.trans _ _ _ hab (hl.1 c hc)
      rw [orderedInsert_of_forall hall]
      by_cases hp : p a
      · rw [if_pos hp, orderedInsert_of_forall (fun c hc => hall c (List.mem_filter.1 hc).1)]
        simp [hp]
      · simp [hp]
    · rw [List.orderedInsert, if_neg hab]
      have ih := filter_orderedInsert p a hl.2
      by_cases hpb : p b
      · rw [List.filter_cons_of_pos hpb, List.filter_cons_of_pos hpb, ih]
        by_cases hp : p a
        · simp [hp, List.orderedInsert, hab]
        · simp [hp]
      · rw [List.filter_cons_of_neg hpb, List.filter_cons_of_neg hpb, ih]

theorem filter_insertionSort [IsTrans α r] [Std.Total r] (p : α → Bool) :
    ∀ l : List α, (l.insertionSort r).filter p = (l.filter p).insertionSort r
  | [] => rfl
  | a :: l => by
    rw [List.insertionSort_cons, filter_orderedInsert p a (List.pairwise_insertionSort r l),
      filter_insertionSort p l]
    by_cases hp : p a <;> simp [hp]

end generic

section byKey
variable {α κ : Type} [LinearOrder κ] (key : α → κ)

instance : IsTrans α (fun a b => key a ≤ key b) := ⟨fun _ _ _ h h' => le_trans h h'⟩
instance : Std.Total (fun a b : α => key a ≤ key b) := ⟨fun a b => le_total (key a) (key b)⟩

theorem sortByKey_perm (l : List α) : (sortByKey key l).Perm l := List.perm_insertionSort _ l

theorem mem_sortByKey {l : List α} {x : α} : x ∈ sortByKey key l ↔ x ∈ l :=
  (sortByKey_perm key l).mem_iff

theorem length_sortByKey (l : List α) : (sortByKey key l).length = l.length :=
  (sortByKey_perm key l).length_eq

theorem sortByKey_pairwise (l : List α) : (sortByKey key l).Pairwise (fun a b => key a ≤ key b) :=
  List.pairwise_insertionSort _ l

theorem sortByKey_of_sorted {l : List α} (h : l.Pairwise (fun a b => key a ≤ key b)) :
    sortByKey key l = l := h.insertionSort_eq

theorem filter_sortByKey (p : α → Bool) (l : List α) :
    (sortByKey key l).filter p = sortByKey key (l.filter p) := filter_insertionSort p l

/-- Stability: elements with equal keys keep their relative order. -/
theorem filter_key_sortByKey (c : κ) (l : List α) :
    (sortByKey key l).filter (fun a => key a = c) = l.filter (fun a => key a = c) := by
  rw [filter_sortByKey]
  apply sortByKey_of_sorted
  apply List.Pairwise.imp_of_mem (R := fun _ _ => True)
  · intro a b ha hb _
    have ha := of_decide_eq_true (List.mem_filter.1 ha).2
    have hb := of_decide_eq_true (List.mem_filter.1 hb).2
    rw [ha, hb]
  · exact List.pairwise_of_forall (fun _ _ => trivial)

/-- If `a` precedes `b` in the sorted list, then its key is smaller or it preceded `b` already. -/
theorem sublist_of_sortByKey {l : List α} {a b : α} (h : [a, b].Sublist (sortByKey key l)) :
    key a < key b ∨ (key a = key b ∧ [a, b].Sublist l) := by
  have hle : key a ≤ key b := by
    have := (sortByKey_pairwise key l).sublist h
    simpa using this
  rcases lt_or_eq_of_le hle with hlt | heq
  · exact Or.inl hlt
  · refine Or.inr ⟨heq, ?_⟩
    have h2 := h.filter (fun x => decide (key x = key b))
    rw [filter_key_sortByKey] at h2
    simp only [heq, decide_true, List.filter_cons_of_pos, List.filter_nil] at h2
    exact h2.trans List.filter_sublist

/-- Two sorted lists with the same elements of each key, in the same order, are the same. -/
theorem eq_of_filter_key {l l' : List α} (h : l.Pairwise (fun a b => key a ≤ key b))
    (h' : l'.Pairwise (fun a b => key a ≤ key b))
    (hf : ∀ c, l.filter (fun a => key a = c) = l'.filter (fun a => key a = c)) : l = l' := by
  induction l generalizing l' with
  | nil =>
    cases l' with
    | nil => rfl
    | cons b t => have := hf (key b); simp at this
  | cons a t ih =>
    cases l' with
    | nil => have := hf (key a); simp at this
    | cons b t' =>
      have hab : key a ≤ key b := by
        have hm : b ∈ (a :: t).filter (fun x => key x = key b) := by rw [hf]; simp
        rcases List.mem_cons.1 (List.mem_filter.1 hm).1 with rfl | hm
        · exact le_refl _
        · exact (List.pairwise_cons.1 h).1 b hm
      have hba : key b ≤ key a := by
        have hm : a ∈ (b :: t').filter (fun x => key x = key a) := by rw [← hf]; simp
        rcases List.mem_cons.1 (List.mem_filter.1 hm).1 with rfl | hm
        · exact le_refl _
        · exact (List.pairwise_cons.1 h').1 a hm
      have hk := le_antisymm hab hba
      have h0 := hf (key a)
      simp only [hk, decide_true, List.filter_cons_of_pos, List.cons.injEq] at h0
      obtain ⟨rfl, h0⟩ := h0
      congr 1
      refine ih (List.pairwise_cons.1 h).2 (List.pairwise_cons.1 h').2 fun c => ?_
      have hc := hf c
      by_cases hac : key a = c
      · simpa [hac] using hc
      · simpa [hac] using hc

/-- Sorting by a second key and then by a first one leaves a list sorted by both unchanged. -/
theorem sortByKey_twice {ι : Type} [LinearOrder ι] (key' : α → ι) {l : List α}
    (h : l.Pairwise (fun a b => key a < key b ∨ key a = key b ∧ key' a ≤ key' b)) :
    sortByKey key (sortByKey key' l) = l := by
  refine eq_of_filter_key key (sortByKey_pairwise _ _) (h.imp ?_) fun c => ?_
  · rintro a b (hab | ⟨hab, _⟩)
    · exact hab.le
    · exact hab.le
  · rw [filter_key_sortByKey, filter_sortByKey]
    refine sortByKey_of_sorted _ ?_
    refine (h.sublist (List.filter_sublist (p := fun a => decide (key a = c)))).imp_of_mem ?_
    intro a b ha hb hab
    have ha := of_decide_eq_true (List.mem_filter.1 ha).2
    have hb := of_decide_eq_true (List.mem_filter.1 hb).2
    rcases hab with hab | hab
    · rw [ha, hb] at hab; exact absurd hab (lt_irrefl _)
    · exact hab.2

end byKey

section desc
variable {α : Type} (score : α → ℚ)

instance : IsTrans α (fun a b => score b ≤ score a) := ⟨fun _ _ _ h h' => le_trans h' h⟩
instance : Std.Total (fun a b : α => score b ≤ score a) :=
  ⟨fun a b => le_total (score b) (score a)⟩

theorem sortDesc_perm (l : List α) : (sortDesc score l).Perm l := List.perm_insertionSort _ l

theorem mem_sortDesc {l : List α} {x : α} : x ∈ sortDesc score l ↔ x ∈ l :=
  (sortDesc_perm score l).mem_iff

theorem sortDesc_pairwise (l : List α) :
    (sortDesc score l).Pairwise (fun a b => score b ≤ score a) :=
  List.pairwise_insertionSort _ l

theorem sortDesc_of_sorted {l : List α} (h : l.Pairwise (fun a b => score b ≤ score a)) :
    sortDesc score l = l := h.insertionSort_eq

theorem filter_sortDesc (p : α → Bool) (l : List α) :
    (sortDesc score l).filter p = sortDesc score (l.filter p) := filter_insertionSort p l

end desc

end Snips
