import Verif.Model.Basic

/-! Vocabulary for statements about character ranges. -/

namespace Snips

/-- Index `i` belongs to the half-open range. -/
def Rng.Has (r : Rng) (i : Nat) : Prop := r.start ≤ i ∧ i < r.stop

/-- No index belongs to both ranges. -/
def Rng.Disj (a b : Rng) : Prop := ∀ i, ¬ (a.Has i ∧ b.Has i)

/-- The range contains at least one index. -/
def Rng.NonEmpty (r : Rng) : Prop := r.start < r.stop

/-- The range lies in a text of `n` characters. -/
def Rng.Within (r : Rng) (n : Nat) : Prop := r.start ≤ r.stop ∧ r.stop ≤ n

/-- `a` ends before (or where) `b` starts. -/
def Rng.Before (a b : Rng) : Prop := a.stop ≤ b.start

end Snips
