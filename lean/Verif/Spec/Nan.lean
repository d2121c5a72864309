import Verif.Model.Nan

/-! Vocabulary for statements about infinities and NaN. -/

namespace Snips

/-- Numbers of which the scores are finite. -/
def AllFinite (l : List Fl) : Prop := ∀ x ∈ l, ∃ q, x = .fin q

/-- The intent may be reported: it is permitted, or it is the absent one. -/
def Reportable (whitelist : Option (List Text)) (name : Option Text) : Prop :=
  ∀ i l, name = some i → whitelist = some l → i ∈ l

/-- The products of the two vectors' elements are in the range of `f32`. -/
def ProductsInRange (r : FlRound) (a b : List ℚ) : Prop :=
  ∀ p ∈ List.zipWith (· * ·) a b, -r.top ≤ p ∧ p ≤ r.top

end Snips
