import Verif.Proofs.JsonValues

/-! # Lemmas about JSON texts: what is written is of the grammar -/

namespace Snips

namespace JsonText

open JsonGrammar

theorem natText_eq (n : Nat) : natText n = Nat.toDigits 10 n := by simp [natText, Nat.toList_repr]

theorem natText_digits (n : Nat) : ∀ c ∈ natText n, Digit c := by
  intro c hc
  rw [natText_eq] at hc
  have := Nat.isDigit_of_mem_toDigits (by decide) (by decide) hc
  simp only [Char.isDigit, Bool.and_eq_true, decide_eq_true_eq, ge_iff_le] at this
  unfold Digit
  have h1 := UInt32.le_iff_toNat_le.1 this.1
  have h2 := UInt32.le_iff_toNat_le.1 this.2
  exact ⟨h1, h2⟩

theorem natText_ne_nil (n : Nat) : natText n ≠ [] := by rw [natText_eq]; exact Nat.toDigits_ne_nil

theorem decimal_natText (n : Nat) : decimal (natText n) = n := by
  have h := Nat.ofDigitChars_ten_toDigits (n := n)
  rw [← natText_eq] at h
  rw [← digitsValue_eq, digitsValue]
  conv_rhs => rw [← h]
  unfold Nat.ofDigitChars
  congr 1
  funext a c
  rw [Nat.mul_comm]
  rfl

theorem toDigits_head (n : Nat) (h : 0 < n) : (Nat.toDigits 10 n).head? ≠ some '0' := by
  induction n using Nat.strong_induction_on with
  | _ n ih =>
    by_cases hn : n < 10
    · rw [Nat.toDigits_of_lt_base hn]
      have : n = 1 ∨ n = 2 ∨ n = 3 ∨ n = 4 ∨ n = 5 ∨ n = 6 ∨ n = 7 ∨ n = 8 ∨ n = 9 := by omega
      rcases this with rfl | rfl | rfl | rfl | rfl | rfl | rfl | rfl | rfl <;> decide
    · rw [Nat.toDigits_of_base_le (by decide) (by omega)]
      have := ih (n / 10) (by omega) (by omega)
      have hne : Nat.toDigits 10 (n / 10) ≠ [] := Nat.toDigits_ne_nil
      cases hd : Nat.toDigits 10 (n / 10) with
      | nil => exact absurd hd hne
      | cons c l => rw [hd] at this; simpa using this

theorem intPart_natText (n : Nat) : IntPart (natText n) := by
  by_cases h : n = 0
  · subst h
    exact Or.inl (by rw [natText_eq]; exact Nat.toDigits_zero 10)
  · refine Or.inr ⟨⟨natText_ne_nil n, natText_digits n⟩, ?_⟩
    rw [natText_eq]
    exact toDigits_head n (by omega)

theorem number_writeInt (f64 : ℚ → Option ℚ) (n : Int) (h1 : -2 ^ 63 ≤ n) (h2 : n < 2 ^ 64) :
    Number f64 (writeInt n) (.int n) := by
  unfold writeInt
  split
  · rename_i hn
    have hv : n = -1 * ((decimal (natText n.natAbs) : Nat) : Int) := by rw [decimal_natText]; omega
    have h := Number.int (f64 := f64) ['-'] (natText n.natAbs) (-1) SignPart.minus (intPart_natText _)
      (by rw [← hv]; exact h1) (by rw [← hv]; exact h2)
    rw [← hv] at h
    exact h
  · rename_i hn
    have hv : n = 1 * ((decimal (natText n.natAbs) : Nat) : Int) := by rw [decimal_natText]; omega
    have h := Number.int (f64 := f64) [] (natText n.natAbs) 1 SignPart.none (intPart_natText _)
      (by rw [← hv]; exact h1) (by rw [← hv]; exact h2)
    rw [← hv] at h
    exact h

theorem hex_hexChar (n : Nat) (h : n < 16) : Hex (hexChar n) n := by
  rw [← hexDigit_iff]
  have : n = 0 ∨ n = 1 ∨ n = 2 ∨ n = 3 ∨ n = 4 ∨ n = 5 ∨ n = 6 ∨ n = 7 ∨ n = 8 ∨ n = 9 ∨ n = 10 ∨ n = 11 ∨ n = 12 ∨
    n = 13 ∨ n = 14 ∨ n = 15 := by omega
  rcases this with rfl | rfl | rfl | rfl | rfl | rfl | rfl | rfl | rfl | rfl | rfl | rfl | rfl | rfl | rfl | rfl <;> decide

theorem stringChar_writeChar (c : Char) : StringChar (writeChar c) c := by
  unfold writeChar
  split_ifs with h1 h2 h3 h4 h5 h6 h7 h8
  · subst h1; exact StringChar.quote
  · subst h2; exact StringChar.backslash
  · subst h3; exact StringChar.backspace _ rfl
  · subst h4; exact StringChar.tab _ rfl
  · subst h5; exact StringChar.lineFeed _ rfl
  · subst h6; exact StringChar.formFeed _ rfl
  · subst h7; exact StringChar.return _ rfl
  · refine StringChar.unicode _ c ?_
    have h0 : Hex '0' 0 := Hex.digit '0' 0 (by decide) rfl
    have := Hex4.mk _ _ _ _ _ _ _ _ h0 h0 (hex_hexChar (c.toNat / 16) (by omega)) (hex_hexChar (c.toNat % 16) (by omega))
    have e : 4096 * 0 + 256 * 0 + 16 * (c.toNat / 16) + c.toNat % 16 = c.toNat := by omega
    rw [e] at this
    exact this
  · exact StringChar.plain c (by omega) h1 h2

theorem str_writeString (t : Text) : Str (writeString t) t := by
  refine Str.mk _ t ?_
  induction t with
  | nil => exact Chars.nil
  | cons c t ih => exact Chars.cons _ _ _ _ (stringChar_writeChar c) ih

theorem writeElements_grammar {env : JsonNumbers} {d : Nat} {l : List Json} (hne : l ≠ [])
    (h : ∀ j ∈ l, Value env.f64 d (write env j) j) : Elements env.f64 d (writeElements env l) l := by
  induction l with
  | nil => exact absurd rfl hne
  | cons j l ih =>
    cases l with
    | nil =>
      have := Elements.one (f64 := env.f64) d [] (write env j) [] j ws_nil (h j (by simp)) ws_nil
      simpa [writeElements] using this
    | cons j' l =>
      have := Elements.more (f64 := env.f64) d [] (write env j) [] _ j (j' :: l) ws_nil (h j (by simp)) ws_nil
        (ih (by simp) fun k hk => h k (by simp [hk]))
      simpa [writeElements] using this

theorem writeMembers_grammar {env : JsonNumbers} {d : Nat} {l : List (Text × Json)} (hne : l ≠ [])
    (h : ∀ e ∈ l, Value env.f64 d (write env e.2) e.2) : Members env.f64 d (writeMembers env l) l := by
  induction l with
  | nil => exact absurd rfl hne
  | cons e l ih =>
    obtain ⟨k, j⟩ := e
    cases l with
    | nil =>
      have := Members.one (f64 := env.f64) d [] (writeString k) [] [] (write env j) [] k j ws_nil (str_writeString k)
        ws_nil ws_nil (h (k, j) (by simp)) ws_nil
      simpa [writeMembers] using this
    | cons e' l =>
      have := Members.more (f64 := env.f64) d [] (writeString k) [] [] (write env j) [] k _ j (e' :: l) ws_nil
        (str_writeString k) ws_nil ws_nil (h (k, j) (by simp)) ws_nil (ih (by simp) fun x hx => h x (by simp [hx]))
      simpa [writeMembers] using this

theorem write_grammar {env : JsonNumbers} {d : Nat} {j : Json} (h : Writable env.f64 env.show' d j) :
    Value env.f64 d (write env j) j := by
  induction h with
  | null d => exact Value.null d
  | bool d b => cases b; exact Value.false d; exact Value.true d
  | int d n h1 h2 => exact Value.number d _ _ (number_writeInt _ n h1 h2)
  | float d q h => exact Value.number d _ _ h
  | str d t => exact Value.string d _ t (str_writeString t)
  | arr d l _ ih =>
    by_cases hl : l = []
    · subst hl; exact Value.emptyArray d [] ws_nil
    · rw [write]; exact Value.array d _ l (writeElements_grammar hl ih)
  | obj d l _ ih =>
    by_cases hl : l = []
    · subst hl; exact Value.emptyObject d [] ws_nil
    · rw [write]; exact Value.object d _ l (writeMembers_grammar hl ih)

end JsonText

end Snips
