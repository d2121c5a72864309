import Verif.Model.EntityParser
import Verif.Spec.Ranges

/-! Vocabulary for statements about tokenized texts. -/

namespace Snips

/-- `toks` is a tokenization of `t` as far as characters are concerned: tokens are non-empty, in order,
do not overlap, and each one carries the characters of its own range. -/
structure Tokenized (t : Text) (toks : List Token) : Prop where
  nonempty : ∀ tok ∈ toks, tok.charRange.NonEmpty
  inside : ∀ tok ∈ toks, tok.charRange.stop ≤ t.length
  value : ∀ tok ∈ toks, tok.value = (t.drop tok.charRange.start).take (tok.charRange.stop - tok.charRange.start)
  ordered : toks.Pairwise (fun a b => a.charRange.stop ≤ b.charRange.start)

/-- Position, in the text made of all tokens separated by one space, of the token of index `a`. -/
def joinStart : List Token → Nat → Nat
  | [], _ => 0
  | _ :: _, 0 => 0
  | t :: ts, a + 1 => t.value.length + 1 + joinStart ts a

end Snips
