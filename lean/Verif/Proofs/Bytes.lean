import Verif.Spec.Tags

/-! Lemmas on byte offsets. -/

namespace Snips

theorem AtByte.zero (t : Text) : AtByte t 0 0 := ⟨Nat.zero_le _, by simp⟩

theorem atByte_cons_succ (c : Char) (t : Text) (n b : Nat) :
    AtByte (c :: t) (n + 1) b ↔ ∃ b', b = c.utf8Size + b' ∧ AtByte t n b' := by
  unfold AtByte
  simp only [List.length_cons, List.take_succ_cons, List.map_cons, List.sum_cons]
  constructor
  · rintro ⟨h1, h2⟩; exact ⟨_, h2.symm, by omega, rfl⟩
  · rintro ⟨b', rfl, h1, h2⟩; exact ⟨by omega, by omega⟩

theorem AtByte.charBoundary {t : Text} : ∀ {n b : Nat}, AtByte t n b → charBoundary t b = some n := by
  induction t with
  | nil =>
    intro n b h
    obtain ⟨h1, h2⟩ := h
    simp at h1 h2
    subst h1; subst h2
    rfl
  | cons c t ih =>
    intro n b h
    cases n with
    | zero =>
      obtain ⟨_, h2⟩ := h
      simp at h2
      subst h2
      rfl
    | succ n =>
      obtain ⟨b', rfl, h'⟩ := (atByte_cons_succ c t n b).1 h
      have hpos := Char.utf8Size_pos c
      obtain ⟨k, hk⟩ : ∃ k, c.utf8Size + b' = k + 1 := ⟨c.utf8Size + b' - 1, by omega⟩
      rw [hk]
      unfold Snips.charBoundary
      rw [if_pos (by omega), show k + 1 - c.utf8Size = b' by omega, ih h']
      rfl

theorem AtByte.mono {t : Text} {n m b c : Nat} (h : AtByte t n b) (h' : AtByte t m c) (hnm : n ≤ m) :
    b ≤ c := by
  induction t generalizing n m b c with
  | nil =>
    obtain ⟨_, h2⟩ := h; obtain ⟨_, h2'⟩ := h'
    simp at h2 h2'; omega
  | cons x t ih =>
    cases n with
    | zero => obtain ⟨_, h2⟩ := h; simp at h2; omega
    | succ n =>
      cases m with
      | zero => omega
      | succ m =>
        obtain ⟨b', rfl, h1⟩ := (atByte_cons_succ x t n b).1 h
        obtain ⟨c', rfl, h2⟩ := (atByte_cons_succ x t m c).1 h'
        have := ih h1 h2 (by omega)
        omega

theorem AtByte.slice {t : Text} {n m b c : Nat} (h : AtByte t n b) (h' : AtByte t m c) (hnm : n ≤ m) :
    byteSlice t ⟨b, c⟩ = .ok (substr t ⟨n, m⟩) := by
  unfold byteSlice
  simp only [h.mono h' hnm, if_true, h.charBoundary, h'.charBoundary]

theorem AtByte.charIndexFrom {t : Text} : ∀ {n b : Nat} (acc k : Nat), AtByte t n b →
    convertToCharIndexFrom t acc k (acc + b) = k + n := by
  induction t with
  | nil =>
    intro n b acc k h
    obtain ⟨h1, _⟩ := h
    simp at h1
    subst h1; rfl
  | cons c t ih =>
    intro n b acc k h
    cases n with
    | zero =>
      obtain ⟨_, h2⟩ := h
      simp at h2
      subst h2
      unfold convertToCharIndexFrom
      have := Char.utf8Size_pos c
      rw [if_pos (by omega)]
      rfl
    | succ n =>
      obtain ⟨b', rfl, h'⟩ := (atByte_cons_succ c t n b).1 h
      unfold convertToCharIndexFrom
      rw [if_neg (by omega), ← Nat.add_assoc, ih _ _ h']
      omega

/-- Slicing succeeds exactly on ordered character boundaries. -/
theorem charBoundary_atByte {t : Text} : ∀ {n b : Nat}, charBoundary t b = some n → AtByte t n b := by
  induction t with
  | nil =>
    intro n b h
    cases b with
    | zero => simp only [charBoundary, Option.some.injEq] at h; subst h; exact AtByte.zero _
    | succ b => simp [charBoundary] at h
  | cons c t ih =>
    intro n b h
    cases b with
    | zero => simp only [charBoundary, Option.some.injEq] at h; subst h; exact AtByte.zero _
    | succ b =>
      unfold charBoundary at h
      split at h
      · rename_i hle
        cases hb : charBoundary t (b + 1 - c.utf8Size) with
        | none => rw [hb] at h; cases h
        | some m =>
          rw [hb] at h
          simp only [Option.map_some, Option.some.injEq] at h
          subst h
          exact (atByte_cons_succ c t m _).2 ⟨_, by omega, ih hb⟩
      · cases h

end Snips
