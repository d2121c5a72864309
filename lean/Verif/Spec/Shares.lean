import Verif.Spec.Rule

/-! What share of the weight a match has, and when it is far from one half. -/

namespace Snips

/-- The share of a match: its weight, one over one plus the number of its slots, divided by the weights of all matches together. -/
def share (ms : List (Text × List InternalSlot)) (m : Text × List InternalSlot) : ℚ :=
  (1 / (1 + m.2.length)) / (ms.map fun m => (1 : ℚ) / (1 + m.2.length)).sum

/-- The relative error that rounding to 24 significant bits may cause when there are `k` matches. -/
def roundingMargin (k : Nat) : ℚ := (k + 7) / 2 ^ 24

/-- No match has a share within the margin of one half. -/
def ClearCut (ms : List (Text × List InternalSlot)) : Prop :=
  ∀ m ∈ ms, roundingMargin ms.length < |share ms m - 1 / 2|

/-- The answer is the match with more than half of the weight, if there is one; its confidence is its share up to the margin. -/
structure ShareVerdict (ms : List (Text × List InternalSlot)) (out : InternalResult) : Prop where
  winner : ∀ i, out.intent.name = some i ↔ ∃ sl, (i, sl) ∈ ms ∧ 1 / 2 < share ms (i, sl)
  slots : ∀ i, out.intent.name = some i → (i, out.slots) ∈ ms
  absent : out.intent.name = none → out = ⟨⟨none, 1⟩, []⟩
  score : ∀ i, out.intent.name = some i →
    (1 - roundingMargin ms.length) * share ms (i, out.slots) ≤ out.intent.score ∧
    (1 - roundingMargin ms.length) * out.intent.score ≤ share ms (i, out.slots)

end Snips
