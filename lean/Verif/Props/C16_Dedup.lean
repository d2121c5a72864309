import Verif.Proofs.Dedup

/-! # C16: overlap removal is sound, greedy and complete -/

namespace Snips

/-- The kept matches are among the given ones (with multiplicity), pairwise disjoint, in text order. -/
theorem c16_sound (es : List MatchedEntity) :
    (dedupEntities es).Subperm es ∧
    (dedupEntities es).Pairwise (fun a b => a.range.Disj b.range) ∧
    (dedupEntities es).Pairwise (fun a b => a.range.start ≤ b.range.start) := by
  unfold dedupEntities
  refine ⟨?_, ?_, sortByKey_pairwise _ _⟩
  · exact (sortByKey_perm _ _).subperm.trans (dedupItems_subperm _ _ _)
  · have h := dedupItems_pairwise (fun a b : MatchedEntity => rangesOverlap a.range b.range)
      (fun e => -(e.range.count : Int)) es
    have h' : (dedupItems (fun a b : MatchedEntity => rangesOverlap a.range b.range)
        (fun e => -(e.range.count : Int)) es).Pairwise (fun a b => a.range.Disj b.range) :=
      h.imp (fun hab => rangesOverlap_false_disj hab)
    exact ((sortByKey_perm _ _).pairwise_iff (fun {a b} hab => disj_symm hab)).2 h'

/-- When matches are non-empty the kept ones follow each other: each ends before the next starts. -/
theorem c16_in_text_order (es : List MatchedEntity) (hne : ∀ e ∈ es, e.range.NonEmpty) :
    (dedupEntities es).Pairwise (fun a b => a.range.Before b.range) := by
  obtain ⟨hsub, hd, hs⟩ := c16_sound es
  refine (hd.and hs).imp_of_mem ?_
  intro a b ha hb hab
  have hna := hne a (hsub.subset ha)
  have hnb := hne b (hsub.subset hb)
  obtain ⟨h1, h2⟩ := hab
  unfold Rng.Before
  by_contra hc
  apply h1 b.range.start
  unfold Rng.Has Rng.NonEmpty at *
  omega

/-- Every discarded match overlaps a kept match which is longer, or equally long and given earlier. -/
theorem c16_priority (es : List MatchedEntity) (hne : ∀ e ∈ es, e.range.NonEmpty) :
    ∀ x ∈ es, x ∈ dedupEntities es ∨ ∃ k ∈ dedupEntities es, ¬ k.range.Disj x.range ∧
      (x.range.count < k.range.count ∨ (x.range.count = k.range.count ∧ [k, x].Sublist es)) := by
  intro x hx
  have hsub := (c16_sound es).1
  unfold dedupEntities at *
  rcases dedupItems_complete (fun a b : MatchedEntity => rangesOverlap a.range b.range)
    (fun e => -(e.range.count : Int)) es x hx with h | ⟨k, hk, hov, hk'⟩
  · exact Or.inl ((mem_sortByKey _).2 h)
  · have hk2 := (mem_sortByKey (fun e : MatchedEntity => e.range.start)).2 hk
    refine Or.inr ⟨k, hk2, ?_, ?_⟩
    · exact (rangesOverlap_iff (hne k (hsub.subset hk2)) (hne x hx)).1 hov
    · rcases hk' with h | ⟨h, h'⟩
      · left; omega
      · right; refine ⟨?_, h'⟩; omega

/-- Matches that do not overlap are all kept: the list is only reordered. -/
theorem c16_disjoint_input_kept (es : List MatchedEntity)
    (hd : es.Pairwise (fun a b => a.range.Disj b.range)) (hne : ∀ e ∈ es, e.range.NonEmpty) :
    (dedupEntities es).Perm es := by
  unfold dedupEntities
  refine (sortByKey_perm _ _).trans ?_
  have hp := sortByKey_perm (fun e : MatchedEntity => -(e.range.count : Int)) es
  rw [dedupItems_of_pairwise]
  · exact hp
  · have := (hp.pairwise_iff (fun {a b} hab => disj_symm hab)).2 hd
    refine this.imp_of_mem ?_
    intro a b ha hb hab
    by_contra hc
    exact (rangesOverlap_iff (hne a (hp.mem_iff.1 ha)) (hne b (hp.mem_iff.1 hb))).1
      (by simpa using hc) hab

/-- Removing overlaps twice is the same as once (whatever the ranges, empty ones too). -/
theorem c16_idempotent (es : List MatchedEntity) : dedupEntities (dedupEntities es) = dedupEntities es := by
  have hp : (dedupEntities es).Pairwise (fun a b => rangesOverlap a.range b.range = false) :=
    ((sortByKey_perm _ _).pairwise_iff (fun {a b} hab => by rw [rangesOverlap_symm]; exact hab)).2
      (dedupItems_pairwise _ _ es)
  conv_lhs => unfold dedupEntities
  rw [dedupItems_of_pairwise]
  · exact sortByKey_twice _ _ (dedupEntities_lex es)
  · exact ((sortByKey_perm _ _).pairwise_iff (fun {a b} hab => by rw [rangesOverlap_symm]; exact hab)).2 hp

/-- Whatever the ranges, empty ones too: two matches conflict if each starts before the other stops (an empty
match conflicts with one it is strictly inside of).  No two kept matches conflict, a discarded match conflicts
with a kept one that is longer, or equally long and given earlier, and matches without conflict are all kept. -/
theorem c16_any_ranges (es : List MatchedEntity) :
    (dedupEntities es).Pairwise (fun a b =>
      ¬ (a.range.start < b.range.stop ∧ b.range.start < a.range.stop)) ∧
    (∀ x ∈ es, x ∈ dedupEntities es ∨ ∃ k ∈ dedupEntities es,
      (k.range.start < x.range.stop ∧ x.range.start < k.range.stop) ∧
      (x.range.count < k.range.count ∨ (x.range.count = k.range.count ∧ [k, x].Sublist es))) ∧
    (es.Pairwise (fun a b => ¬ (a.range.start < b.range.stop ∧ b.range.start < a.range.stop)) →
      (dedupEntities es).Perm es) := by
  have hov : ∀ a b : Rng, rangesOverlap a b = true ↔ a.start < b.stop ∧ b.start < a.stop := by
    intro a b
    simp only [rangesOverlap, Bool.and_eq_true, decide_eq_true_eq]
  refine ⟨?_, ?_, ?_⟩
  · have h := dedupItems_pairwise (fun a b : MatchedEntity => rangesOverlap a.range b.range)
      (fun e => -(e.range.count : Int)) es
    have h' := ((sortByKey_perm (fun e : MatchedEntity => e.range.start) _).pairwise_iff
      (fun {a b} hab => by rw [rangesOverlap_symm]; exact hab)).2 h
    refine h'.imp fun {a b} hab => ?_
    rw [← hov, hab]
    exact Bool.false_ne_true
  · intro x hx
    unfold dedupEntities
    rcases dedupItems_complete (fun a b : MatchedEntity => rangesOverlap a.range b.range)
      (fun e => -(e.range.count : Int)) es x hx with h | ⟨k, hk, hkx, hk'⟩
    · exact Or.inl ((mem_sortByKey _).2 h)
    · refine Or.inr ⟨k, (mem_sortByKey _).2 hk, (hov _ _).1 hkx, ?_⟩
      rcases hk' with h | ⟨h, h'⟩
      · left; omega
      · right; exact ⟨by omega, h'⟩
  · intro h
    unfold dedupEntities
    refine (sortByKey_perm _ _).trans ?_
    have hp := sortByKey_perm (fun e : MatchedEntity => -(e.range.count : Int)) es
    rw [dedupItems_of_pairwise]
    · exact hp
    · refine ((hp.pairwise_iff (fun {a b} hab => ?_)).2 h).imp fun {a b} hab => ?_
      · rw [and_comm]; exact hab
      · rw [← hov] at hab; simpa using hab

/-- The same for the items of any type, any notion of overlap and any priority (`deduplicate_overlapping_items`,
which the lookup and the probabilistic parsers use too): the kept items are among the given ones, by priority,
none overlapping an earlier one; a discarded item is overlapped by a kept one of better priority, or of the same
priority and given earlier; doing it twice changes nothing. -/
theorem c16_items {α κ : Type} [LinearOrder κ] (overlap : α → α → Bool) (key : α → κ) (items : List α) :
    (dedupItems overlap key items).Subperm items ∧
    (dedupItems overlap key items).Pairwise (fun a b => overlap a b = false ∧ key a ≤ key b) ∧
    (∀ x ∈ items, x ∈ dedupItems overlap key items ∨ ∃ k ∈ dedupItems overlap key items,
      overlap k x = true ∧ (key k < key x ∨ (key k = key x ∧ [k, x].Sublist items))) ∧
    dedupItems overlap key (dedupItems overlap key items) = dedupItems overlap key items := by
  have hs := dedupItems_sorted overlap key items
  have hp := dedupItems_pairwise overlap key items
  refine ⟨dedupItems_subperm _ _ _, hp.and hs, dedupItems_complete _ _ _, ?_⟩
  rw [dedupItems_of_pairwise]
  · exact sortByKey_of_sorted _ hs
  · rw [sortByKey_of_sorted _ hs]; exact hp

/-- No match is reported twice. -/
theorem c16_nodup (es : List MatchedEntity) (hne : ∀ e ∈ es, e.range.NonEmpty) :
    (dedupEntities es).Nodup := by
  refine (c16_in_text_order es hne).imp_of_mem ?_
  intro a b ha _ hab he
  subst he
  have := hne a ((c16_sound es).1.subset ha)
  unfold Rng.Before Rng.NonEmpty at *
  omega

/-! Non-vacuity: three overlapping matches with a tie, plus a disjoint one. -/

/-- A concrete overlapping input: `[0,5)`, `[3,9)`, `[10,12)`, `[11,13)`. -/
def c16Sample : List MatchedEntity :=
  [⟨⟨0, 5⟩, "a".toList⟩, ⟨⟨3, 9⟩, "b".toList⟩, ⟨⟨11, 13⟩, "c".toList⟩, ⟨⟨10, 12⟩, "d".toList⟩]

example : ∀ e ∈ c16Sample, e.range.NonEmpty := by unfold Rng.NonEmpty c16Sample; decide

example : dedupEntities c16Sample = [⟨⟨3, 9⟩, "b".toList⟩, ⟨⟨11, 13⟩, "c".toList⟩] := by decide

/-- Empty matches: `[3,3)` inside of `[1,5)` is discarded, at its end it is kept. -/
example : dedupEntities [⟨⟨3, 3⟩, "a".toList⟩, ⟨⟨5, 5⟩, "b".toList⟩, ⟨⟨1, 5⟩, "c".toList⟩]
    = [⟨⟨1, 5⟩, "c".toList⟩, ⟨⟨5, 5⟩, "b".toList⟩] := by decide

example : ∃ es : List MatchedEntity, es.length = 2 ∧
    es.Pairwise (fun a b => a.range.Disj b.range) ∧ (∀ e ∈ es, e.range.NonEmpty) :=
  ⟨dedupEntities c16Sample, by decide, (c16_sound _).2.1, by unfold Rng.NonEmpty c16Sample; decide⟩

end Snips
