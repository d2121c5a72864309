import Verif.Model.Cli
import Verif.Spec.JsonText
import Verif.Spec.ResultJson
import Verif.Spec.Python
import Verif.Spec.Resources

/-! # What the interactive program should do -/

namespace Snips

/-- The characters with the property White_Space of Unicode. -/
def whiteSpace : List Nat :=
  [0x9, 0xA, 0xB, 0xC, 0xD, 0x20, 0x85, 0xA0, 0x1680, 0x2000, 0x2001, 0x2002, 0x2003, 0x2004, 0x2005, 0x2006, 0x2007, 0x2008,
    0x2009, 0x200A, 0x2028, 0x2029, 0x202F, 0x205F, 0x3000]

/-- `u` is the text `t` without the white space at its ends. -/
def Trimmed (t u : Text) : Prop :=
  ∃ before after : Text, t = before ++ u ++ after ∧ (∀ c ∈ before, c.toNat ∈ whiteSpace) ∧
    (∀ c ∈ after, c.toNat ∈ whiteSpace) ∧ (∀ c ∈ u.head?, c.toNat ∉ whiteSpace) ∧ ∀ c ∈ u.getLast?, c.toNat ∉ whiteSpace

/-- An option of the command line gives this number: decimal digits, possibly after a plus sign, or 0 if it is absent. -/
inductive OptionNumber : Option Text → Nat → Prop
  | absent : OptionNumber none 0
  | given (t digits : Text) (n : Nat) : t = digits ∨ t = '+' :: digits → JsonGrammar.Digits digits →
      JsonGrammar.decimal digits = n → n < 2 ^ 64 → OptionNumber (some t) n

/-- The lines typed: `lines` with a line feed each, then `last` without; what the program is to answer in round `i`.  After
the last line there is nothing to read. -/
def typedLine (lines : List Text) (last : Text) (i : Nat) : Text :=
  match (lines ++ [last])[i]? with
  | some t => t
  | none => []

/-- The bytes of these lines. -/
def typedBytes (lines : List Text) (last : Text) : List Nat := encodeUtf8 (lines.flatMap (· ++ ['\n']) ++ last)

/-- What the engine says to a line. -/
def cliAnswer (names : KindNames) (e : LoadedEngine) (ni ns : Nat) (m : CliMoment) (query : Text) : Outcome ParseResult :=
  e.answers names m.time (·.parseWithAlternatives m.order query none none ni ns)

/-- The engine answers a line, and the numbers in the answer are numbers of the machine. -/
def CanAnswer (w : Shown.Writing) (meaning : Nat → OValue) (names : KindNames) (e : LoadedEngine) (ni ns : Nat) (m : CliMoment)
    (line : Text) : Prop :=
  ∀ query, Trimmed line query → ∃ r, cliAnswer names e ni ns m query = .ok r ∧ w.WritesResult meaning r

/-- A text is the prompt and the JSON text of the answer to a line. -/
def Replies (w : Shown.Writing) (meaning : Nat → OValue) (names : KindNames) (e : LoadedEngine) (ni ns : Nat) (m : CliMoment)
    (line text : Text) : Prop :=
  ∃ query r t j, Trimmed line query ∧ cliAnswer names e ni ns m query = .ok r ∧ JsonGrammar.Document w.f64 127 t j ∧
    Shown.Result w.rd meaning j r ∧ text = "> ".toList ++ t ++ "\n".toList

end Snips
