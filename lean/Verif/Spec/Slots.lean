import Verif.Spec.Ranges
import Verif.Model.Types

/-! Vocabulary for statements about the slots of a result. -/

namespace Snips

/-- The raw text of every slot is the text of the input at the slot's range. -/
def TextAtRange (input : Text) (slots : List InternalSlot) : Prop :=
  ∀ s ∈ slots, s.value = (input.drop s.charRange.start).take (s.charRange.stop - s.charRange.start)

/-- No two slots share a character and they come in text order. -/
def InTextOrder (slots : List InternalSlot) : Prop :=
  slots.Pairwise fun a b => a.charRange.Disj b.charRange ∧ a.charRange.start ≤ b.charRange.start

end Snips
