import Verif.Model.Binary32

/-! What the numbers of `f32` are and what it means to round to them (IEEE 754). -/

namespace Snips

/-- A finite binary32 number: a significand of 24 bits and an exponent. -/
def Binary32 (q : ℚ) : Prop := ∃ m e : ℤ, |m| < 2 ^ 24 ∧ -149 ≤ e ∧ e ≤ 104 ∧ q = m * 2 ^ e

/-- The last bit of a binary32 number is 0; the significand has all its 24 bits unless the exponent is the least one. -/
def EvenSignificand (q : ℚ) : Prop :=
  ∃ m e : ℤ, |m| < 2 ^ 24 ∧ -149 ≤ e ∧ e ≤ 104 ∧ q = m * 2 ^ e ∧ (2 ^ 23 ≤ |m| ∨ e = -149) ∧ m % 2 = 0

/-- `y` is the binary32 number nearest to `x`, the even one of two. -/
structure RoundsTo32 (x y : ℚ) : Prop where
  number : Binary32 y
  nearest : ∀ z, Binary32 z → |x - y| ≤ |x - z|
  even : ∀ z, Binary32 z → z ≠ y → |x - z| = |x - y| → EvenSignificand y

end Snips
