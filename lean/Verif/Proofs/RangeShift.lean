import Verif.Model.Deterministic
import Verif.Proofs.Replace
import Verif.Spec.Segments
import Verif.Spec.Ranges

/-! Recovering ranges of the original text from ranges of the text with placeholders. -/

namespace Snips

/-- What the loop of `get_range_shift` computes: the shift of the entry with the greatest end not after
the start of the capture. -/
theorem rangeShiftFrom_spec (m : Nat) (l : List (Rng × Rng)) : ∀ (pe : Nat) (sh : Int),
    (∃ e ∈ l, e.1.stop ≤ m ∧ pe < e.1.stop ∧ (∀ e' ∈ l, e'.1.stop ≤ m → e'.1.stop ≤ e.1.stop) ∧
      rangeShiftFrom m pe sh l = (e.2.stop : Int) - e.1.stop) ∨
    ((∀ e ∈ l, ¬ (e.1.stop ≤ m ∧ pe < e.1.stop)) ∧ rangeShiftFrom m pe sh l = sh) := by
  induction l with
  | nil => intro pe sh; exact Or.inr ⟨by simp, rfl⟩
  | cons x l ih =>
    intro pe sh
    obtain ⟨rp, og⟩ := x
    unfold rangeShiftFrom
    by_cases h : rp.stop ≤ m ∧ rp.stop > pe
    · rw [if_pos h]
      rcases ih rp.stop ((og.stop : Int) - rp.stop) with ⟨e, he, h1, h2, h3, h4⟩ | ⟨h1, h2⟩
      · refine Or.inl ⟨e, by simp [he], h1, by omega, ?_, h4⟩
        intro e' he' hm'
        rcases List.mem_cons.1 he' with rfl | he'
        · show rp.stop ≤ e.1.stop; omega
        · exact h3 e' he' hm'
      · refine Or.inl ⟨(rp, og), by simp, h.1, h.2, ?_, h2⟩
        intro e' he' hm'
        rcases List.mem_cons.1 he' with rfl | he'
        · exact Nat.le_refl _
        · have := h1 e' he'
          show e'.1.stop ≤ rp.stop
          omega
    · rw [if_neg h]
      rcases ih pe sh with ⟨e, he, h1, h2, h3, h4⟩ | ⟨h1, h2⟩
      · refine Or.inl ⟨e, by simp [he], h1, h2, ?_, h4⟩
        intro e' he' hm'
        rcases List.mem_cons.1 he' with rfl | he'
        · have : ¬ (rp.stop ≤ m ∧ pe < rp.stop) := h
          show rp.stop ≤ e.1.stop
          have hm'' : rp.stop ≤ m := hm'
          omega
        · exact h3 e' he' hm'
      · refine Or.inr ⟨?_, h2⟩
        intro e he
        rcases List.mem_cons.1 he with rfl | he
        · exact h
        · exact h1 e he

/-- The result depends only on the set of entries when their ends are distinct. -/
theorem rangeShiftFrom_perm (m : Nat) {l l' : List (Rng × Rng)} (hp : l.Perm l')
    (hd : ∀ a ∈ l, ∀ b ∈ l, a.1.stop = b.1.stop → a = b) (pe : Nat) (sh : Int) :
    rangeShiftFrom m pe sh l = rangeShiftFrom m pe sh l' := by
  rcases rangeShiftFrom_spec m l pe sh with ⟨e, he, h1, h2, h3, h4⟩ | ⟨h1, h2⟩
  · rcases rangeShiftFrom_spec m l' pe sh with ⟨e', he', h1', h2', h3', h4'⟩ | ⟨h1', h2'⟩
    · have hle := h3 e' (hp.mem_iff.2 he') h1'
      have hle' := h3' e (hp.mem_iff.1 he) h1
      have := hd e he e' (hp.mem_iff.2 he') (by omega)
      subst this
      rw [h4, h4']
    · exact absurd ⟨h1, h2⟩ (h1' e (hp.mem_iff.1 he))
  · rcases rangeShiftFrom_spec m l' pe sh with ⟨e', he', h1', h2', h3', h4'⟩ | ⟨h1', h2'⟩
    · exact absurd ⟨h1', h2'⟩ (h1 e' (hp.mem_iff.2 he'))
    · rw [h2, h2']

/-- The range table of a list of pieces. -/
def occTable (ph : Text → Text) (o n : Nat) (segs : List Seg) : List (Rng × Rng) :=
  (occs ph o n segs).map fun c => (c.repl, c.orig)

theorem occTable_plain (ph : Text → Text) (o n : Nat) (t : Text) (segs : List Seg) :
    occTable ph o n (.plain t :: segs) = occTable ph (o + t.length) (n + t.length) segs := rfl

theorem occTable_ent (ph : Text → Text) (o n : Nat) (t name : Text) (segs : List Seg) :
    occTable ph o n (.ent t name :: segs) = (⟨n, n + (ph name).length⟩, ⟨o, o + t.length⟩) ::
      occTable ph (o + t.length) (n + (ph name).length) segs := rfl

theorem occTable_start_ge (ph : Text → Text) : ∀ (segs : List Seg) (o n : Nat), ∀ e ∈ occTable ph o n segs,
    n ≤ e.1.start ∧ o ≤ e.2.start ∧ e.2.start ≤ e.2.stop := by
  intro segs
  induction segs with
  | nil => intro o n e he; simp [occTable, occs] at he
  | cons s segs ih =>
    intro o n e he
    cases s with
    | plain t =>
      rw [occTable_plain] at he
      have := ih _ _ e he
      omega
    | ent t name =>
      rw [occTable_ent] at he
      rcases List.mem_cons.1 he with rfl | he
      · simp
      · have := ih _ _ e he
        omega

theorem occTable_stop_gt (ph : Text → Text) (hph : ∀ name, ph name ≠ []) : ∀ (segs : List Seg) (o n : Nat),
    ∀ e ∈ occTable ph o n segs, e.1.start < e.1.stop := by
  intro segs
  induction segs with
  | nil => intro o n e he; simp [occTable, occs] at he
  | cons s segs ih =>
    intro o n e he
    cases s with
    | plain t => rw [occTable_plain] at he; exact ih _ _ e he
    | ent t name =>
      rw [occTable_ent] at he
      rcases List.mem_cons.1 he with rfl | he
      · have := List.length_pos_of_ne_nil (hph name)
        simp; omega
      · exact ih _ _ e he

theorem occTable_stops (ph : Text → Text) (hph : ∀ name, ph name ≠ []) : ∀ (segs : List Seg) (o n : Nat),
    (occTable ph o n segs).Pairwise (fun a b => a.1.stop < b.1.stop) := by
  intro segs
  induction segs with
  | nil => intro o n; exact List.Pairwise.nil
  | cons s segs ih =>
    intro o n
    cases s with
    | plain t => rw [occTable_plain]; exact ih _ _
    | ent t name =>
      rw [occTable_ent]
      refine List.Pairwise.cons ?_ (ih _ _)
      intro e he
      have h1 := (occTable_start_ge ph _ _ _ e he).1
      have h2 := occTable_stop_gt ph hph _ _ _ e he
      show n + (ph name).length < e.1.stop
      omega

theorem stops_distinct {l : List (Rng × Rng)} (h : l.Pairwise (fun a b => a.1.stop < b.1.stop)) :
    ∀ a ∈ l, ∀ b ∈ l, a.1.stop = b.1.stop → a = b := by
  induction l with
  | nil => intro a ha; simp at ha
  | cons x l ih =>
    rw [List.pairwise_cons] at h
    intro a ha b hb hab
    rcases List.mem_cons.1 ha with hax | ha <;> rcases List.mem_cons.1 hb with hbx | hb
    · rw [hax, hbx]
    · have := h.1 b hb; rw [hax] at hab; omega
    · have := h.1 a ha; rw [hbx] at hab; omega
    · exact ih h.2 a ha b hb hab

/-- Entries ending after `m` are ignored. -/
theorem rangeShiftFrom_none (m : Nat) (l : List (Rng × Rng)) (pe : Nat) (sh : Int)
    (h : ∀ e ∈ l, m < e.1.stop) : rangeShiftFrom m pe sh l = sh := by
  rcases rangeShiftFrom_spec m l pe sh with ⟨e, he, h1, _⟩ | ⟨_, h2⟩
  · have := h e he; omega
  · exact h2

/-- A position of the new text outside all placeholders, moved by the shift, carries the same
character in the original text. -/
theorem char_of_plain (ph : Text → Text) (hph : ∀ name, ph name ≠ []) : ∀ (segs : List Seg) (o n pe : Nat)
    (i : Nat), n ≤ i → i < n + (replText ph segs).length → pe ≤ n →
    (∀ e ∈ occTable ph o n segs, ¬ e.1.Has i) →
    ∃ j : Nat, (j : Int) = (i : Int) + rangeShiftFrom i pe ((o : Int) - n) (occTable ph o n segs) ∧ o ≤ j ∧
      j < o + (origText segs).length ∧
      (replText ph segs)[i - n]? = (origText segs)[j - o]? ∧
      (∀ e ∈ occTable ph o n segs, ¬ e.2.Has j) := by
  intro segs
  induction segs with
  | nil => intro o n pe i h1 h2; simp [replText] at h2; omega
  | cons s segs ih =>
    intro o n pe i h1 h2 hpe hout
    cases s with
    | plain t =>
      rw [occTable_plain] at hout ⊢
      have hrt : replText ph (.plain t :: segs) = t ++ replText ph segs := rfl
      have hot : origText (.plain t :: segs) = t ++ origText segs := rfl
      rw [hrt, List.length_append] at h2
      rw [hrt, hot]
      by_cases hi : i < n + t.length
      · have hsh : rangeShiftFrom i pe ((o : Int) - n) (occTable ph (o + t.length) (n + t.length) segs)
            = (o : Int) - n := by
          apply rangeShiftFrom_none
          intro e he
          have := (occTable_start_ge ph _ _ _ e he).1
          have := occTable_stop_gt ph hph _ _ _ e he
          omega
        refine ⟨i - n + o, ?_, ?_, ?_, ?_, ?_⟩
        · rw [hsh]; omega
        · omega
        · rw [List.length_append]; omega
        · rw [show i - n + o - o = i - n by omega]
          rw [List.getElem?_append_left (by omega), List.getElem?_append_left (by omega)]
        · intro e he hhas
          have := (occTable_start_ge ph _ _ _ e he).2.1
          unfold Rng.Has at hhas
          omega
      · have := ih (o + t.length) (n + t.length) pe i (by omega) (by omega) (by omega) hout
        obtain ⟨j, hj, hj1, hj2, hj3, hj4⟩ := this
        refine ⟨j, ?_, by omega, ?_, ?_, hj4⟩
        · rw [hj]
          congr 2
          omega
        · rw [List.length_append]; omega
        · rw [List.getElem?_append_right (by omega), List.getElem?_append_right (by omega)]
          rw [show i - n - t.length = i - (n + t.length) by omega,
            show j - o - t.length = j - (o + t.length) by omega]
          exact hj3
    | ent t name =>
      rw [occTable_ent] at hout ⊢
      have hrt : replText ph (.ent t name :: segs) = ph name ++ replText ph segs := rfl
      have hot : origText (.ent t name :: segs) = t ++ origText segs := rfl
      rw [hrt, List.length_append] at h2
      rw [hrt, hot]
      have hlen := List.length_pos_of_ne_nil (hph name)
      have hi : n + (ph name).length ≤ i := by
        have := hout _ (List.mem_cons_self)
        unfold Rng.Has at this
        simp only at this
        omega
      have := ih (o + t.length) (n + (ph name).length) (n + (ph name).length) i hi (by omega) (Nat.le_refl _)
        (fun e he => hout e (by simp [he]))
      obtain ⟨j, hj, hj1, hj2, hj3, hj4⟩ := this
      refine ⟨j, ?_, by omega, ?_, ?_, ?_⟩
      · rw [hj]
        congr 1
        conv_rhs => rw [rangeShiftFrom]
        rw [if_pos ⟨hi, by show n + (ph name).length > pe; omega⟩]
      · rw [List.length_append]; omega
      · rw [List.getElem?_append_right (by omega), List.getElem?_append_right (by omega)]
        rw [show i - n - (ph name).length = i - (n + (ph name).length) by omega,
          show j - o - t.length = j - (o + t.length) by omega]
        exact hj3
      · intro e he
        rcases List.mem_cons.1 he with rfl | he
        · unfold Rng.Has; simp only; omega
        · exact hj4 e he

/-- Positions of a range that meets no placeholder all have the same shift. -/
theorem shift_const (ph : Text → Text) (hph : ∀ name, ph name ≠ []) (segs : List Seg) (o n : Nat) (r : Rng)
    (hout : ∀ e ∈ occTable ph o n segs, r.Disj e.1) (i : Nat) (hi : r.Has i) (sh : Int) :
    rangeShiftFrom i 0 sh (occTable ph o n segs) = rangeShiftFrom r.start 0 sh (occTable ph o n segs) := by
  have hd := stops_distinct (occTable_stops ph hph segs o n)
  have key : ∀ e ∈ occTable ph o n segs, e.1.stop ≤ i → e.1.stop ≤ r.start := by
    intro e he hle
    by_contra hcon
    have h1 := occTable_stop_gt ph hph _ _ _ e he
    apply hout e he (e.1.stop - 1)
    unfold Rng.Has at hi ⊢
    omega
  unfold Rng.Has at hi
  rcases rangeShiftFrom_spec i (occTable ph o n segs) 0 sh with ⟨e, he, h1, h2, h3, h4⟩ | ⟨h1, h2⟩
  · rcases rangeShiftFrom_spec r.start (occTable ph o n segs) 0 sh with ⟨e', he', h1', h2', h3', h4'⟩ | ⟨h1', h2'⟩
    · have hle := h3 e' he' (by omega)
      have hle' := h3' e he (key e he h1)
      have := hd e he e' he' (by omega)
      subst this
      rw [h4, h4']
    · exact absurd ⟨key e he h1, h2⟩ (h1' e he)
  · rcases rangeShiftFrom_spec r.start (occTable ph o n segs) 0 sh with ⟨e', he', h1', h2', h3', h4'⟩ | ⟨h1', h2'⟩
    · exact absurd ⟨by omega, h2'⟩ (h1 e' he')
    · rw [h2, h2']

end Snips
