import Verif.Spec.StopWords
import Verif.Spec.Tags
import Verif.Spec.Tokens

/-! Queries made of tokens with blanks between them. -/

namespace Snips

/-- All characters outside the tokens of the text are blanks, and the text ends with its last token. -/
structure TextFns.Plain (fns : TextFns) (t : Text) : Prop where
  ends : ∀ last, (fns.tokenize t).getLast? = some last → last.charRange.stop = t.length
  blank : ∀ (i : Nat) c, t[i]? = some c → (∀ tok ∈ fns.tokenize t, ¬ tok.charRange.Has i) → c = ' '

end Snips
