import Verif.Model.Json
import Mathlib.Data.Nat.Digits.Defs

/-! # The grammar of JSON (RFC 8259)

Which texts are JSON documents and what they denote.  Numbers that are not 64-bit integers denote what `f64` makes of
their exact value; a document in which `f64` makes nothing of a number is none. -/

namespace Snips

namespace JsonGrammar

/-- `ws = *( %x20 / %x09 / %x0A / %x0D )` (section 2). -/
def Ws (t : Text) : Prop := ∀ c ∈ t, c.toNat = 0x20 ∨ c.toNat = 0x09 ∨ c.toNat = 0x0A ∨ c.toNat = 0x0D

/-- `DIGIT = %x30-39`. -/
def Digit (c : Char) : Prop := 0x30 ≤ c.toNat ∧ c.toNat ≤ 0x39

/-- `1*DIGIT` -/
def Digits (t : Text) : Prop := t ≠ [] ∧ ∀ c ∈ t, Digit c

/-- The number written in decimal. -/
def decimal (t : Text) : Nat := Nat.ofDigits 10 (t.reverse.map fun c => c.toNat - 0x30)

/-- `int = zero / ( digit1-9 *DIGIT )` (section 6). -/
def IntPart (t : Text) : Prop := t = ['0'] ∨ (Digits t ∧ t.head? ≠ some '0')

/-- `[ frac ]`, `frac = decimal-point 1*DIGIT`: a text and its digits. -/
inductive FracPart : Text → Text → Prop
  | none : FracPart [] []
  | some (ds : Text) : Digits ds → FracPart ('.' :: ds) ds

/-- `[ exp ]`, `exp = e [ minus / plus ] 1*DIGIT`: a text and the exponent. -/
inductive ExpPart : Text → Int → Prop
  | none : ExpPart [] 0
  | plain (e : Char) (ds : Text) : e = 'e' ∨ e = 'E' → Digits ds → ExpPart (e :: ds) (decimal ds)
  | plus (e : Char) (ds : Text) : e = 'e' ∨ e = 'E' → Digits ds → ExpPart (e :: '+' :: ds) (decimal ds)
  | minus (e : Char) (ds : Text) : e = 'e' ∨ e = 'E' → Digits ds → ExpPart (e :: '-' :: ds) (-(decimal ds : Int))

/-- `[ minus ]`: a text and the sign. -/
inductive SignPart : Text → Int → Prop
  | none : SignPart [] 1
  | minus : SignPart ['-'] (-1)

/-- `number = [ minus ] int [ frac ] [ exp ]` (section 6), and what it denotes. -/
inductive Number (f64 : ℚ → Option ℚ) : Text → Json → Prop
  /-- An integer of 64 bits, with or without sign. -/
  | int (sign int : Text) (s : Int) : SignPart sign s → IntPart int →
      -2 ^ 63 ≤ s * decimal int → s * decimal int < 2 ^ 64 →
      Number f64 (sign ++ int) (.int (s * decimal int))
  /-- A larger integer. -/
  | big (sign int : Text) (s : Int) (q : ℚ) : SignPart sign s → IntPart int →
      ¬(-2 ^ 63 ≤ s * decimal int ∧ s * decimal int < 2 ^ 64) →
      f64 ((s * decimal int : Int) : ℚ) = some q → Number f64 (sign ++ int) (.float q)
  /-- A number with a fraction or an exponent. -/
  | float (sign int frac exp fs : Text) (s e : Int) (q : ℚ) : SignPart sign s → IntPart int → FracPart frac fs →
      ExpPart exp e → ¬(frac = [] ∧ exp = []) →
      f64 (s * (decimal int + decimal fs * (10 : ℚ) ^ (-(fs.length : Int))) * (10 : ℚ) ^ e) = some q →
      Number f64 (sign ++ int ++ frac ++ exp) (.float q)

/-- `HEXDIG`: a digit and its value. -/
inductive Hex : Char → Nat → Prop
  | digit (c : Char) (n : Nat) : n < 10 → c.toNat = 0x30 + n → Hex c n
  | lower (c : Char) (n : Nat) : n < 6 → c.toNat = 0x61 + n → Hex c (10 + n)
  | upper (c : Char) (n : Nat) : n < 6 → c.toNat = 0x41 + n → Hex c (10 + n)

/-- `4HEXDIG`: digits and their value. -/
inductive Hex4 : Text → Nat → Prop
  | mk (a b c d : Char) (i j k l : Nat) : Hex a i → Hex b j → Hex c k → Hex d l →
      Hex4 [a, b, c, d] (4096 * i + 256 * j + 16 * k + l)

/-- `char` (section 7): the text of a character in a string. -/
inductive StringChar : Text → Char → Prop
  /-- `unescaped = %x20-21 / %x23-5B / %x5D-10FFFF` -/
  | plain (c : Char) : 0x20 ≤ c.toNat → c ≠ '"' → c ≠ '\\' → StringChar [c] c
  | quote : StringChar ['\\', '"'] '"'
  | backslash : StringChar ['\\', '\\'] '\\'
  | slash : StringChar ['\\', '/'] '/'
  | backspace (c : Char) : c.toNat = 0x08 → StringChar ['\\', 'b'] c
  | formFeed (c : Char) : c.toNat = 0x0C → StringChar ['\\', 'f'] c
  | lineFeed (c : Char) : c.toNat = 0x0A → StringChar ['\\', 'n'] c
  | return (c : Char) : c.toNat = 0x0D → StringChar ['\\', 'r'] c
  | tab (c : Char) : c.toNat = 0x09 → StringChar ['\\', 't'] c
  /-- `uXXXX`: a character of the basic plane. -/
  | unicode (h : Text) (c : Char) : Hex4 h c.toNat → StringChar ('\\' :: 'u' :: h) c
  /-- `uXXXX` twice: a surrogate pair (UTF-16). -/
  | pair (h h' : Text) (hi lo : Nat) (c : Char) : Hex4 h (0xD800 + hi) → Hex4 h' (0xDC00 + lo) → hi < 0x400 →
      lo < 0x400 → c.toNat = 0x10000 + 0x400 * hi + lo → StringChar ('\\' :: 'u' :: h ++ '\\' :: 'u' :: h') c

/-- `*char` -/
inductive Chars : Text → Text → Prop
  | nil : Chars [] []
  | cons (t ts : Text) (c : Char) (cs : Text) : StringChar t c → Chars ts cs → Chars (t ++ ts) (c :: cs)

/-- `string = quotation-mark *char quotation-mark` -/
inductive Str : Text → Text → Prop
  | mk (body s : Text) : Chars body s → Str ('"' :: body ++ ['"']) s

mutual

/-- `value` (section 3): its text and what it denotes.  The number is how many containers may be nested. -/
inductive Value (f64 : ℚ → Option ℚ) : Nat → Text → Json → Prop
  | null (d : Nat) : Value f64 d "null".toList .null
  | true (d : Nat) : Value f64 d "true".toList (.bool true)
  | false (d : Nat) : Value f64 d "false".toList (.bool false)
  | number (d : Nat) (t : Text) (j : Json) : Number f64 t j → Value f64 d t j
  | string (d : Nat) (t s : Text) : Str t s → Value f64 d t (.str s)
  | emptyArray (d : Nat) (w : Text) : Ws w → Value f64 (d + 1) ('[' :: w ++ [']']) (.arr [])
  | array (d : Nat) (t : Text) (l : List Json) : Elements f64 d t l → Value f64 (d + 1) ('[' :: t ++ [']']) (.arr l)
  | emptyObject (d : Nat) (w : Text) : Ws w → Value f64 (d + 1) ('{' :: w ++ ['}']) (.obj [])
  | object (d : Nat) (t : Text) (l : List (Text × Json)) : Members f64 d t l →
      Value f64 (d + 1) ('{' :: t ++ ['}']) (.obj l)

/-- `value *( value-separator value )` with the whitespace around the values (section 5). -/
inductive Elements (f64 : ℚ → Option ℚ) : Nat → Text → List Json → Prop
  | one (d : Nat) (w t w' : Text) (j : Json) : Ws w → Value f64 d t j → Ws w' → Elements f64 d (w ++ t ++ w') [j]
  | more (d : Nat) (w t w' ts : Text) (j : Json) (l : List Json) : Ws w → Value f64 d t j → Ws w' →
      Elements f64 d ts l → Elements f64 d (w ++ t ++ w' ++ ',' :: ts) (j :: l)

/-- `member *( value-separator member )`, `member = string name-separator value` (section 4). -/
inductive Members (f64 : ℚ → Option ℚ) : Nat → Text → List (Text × Json) → Prop
  | one (d : Nat) (w k w₁ w₂ t w' key : Text) (j : Json) : Ws w → Str k key → Ws w₁ → Ws w₂ → Value f64 d t j →
      Ws w' → Members f64 d (w ++ k ++ w₁ ++ ':' :: w₂ ++ t ++ w') [(key, j)]
  | more (d : Nat) (w k w₁ w₂ t w' key ts : Text) (j : Json) (l : List (Text × Json)) : Ws w → Str k key → Ws w₁ →
      Ws w₂ → Value f64 d t j → Ws w' → Members f64 d ts l →
      Members f64 d (w ++ k ++ w₁ ++ ':' :: w₂ ++ t ++ w' ++ ',' :: ts) ((key, j) :: l)

end

/-- `JSON-text = ws value ws` (section 2), in which at most `d` containers are nested. -/
inductive Document (f64 : ℚ → Option ℚ) (d : Nat) : Text → Json → Prop
  | mk (w t w' : Text) (j : Json) : Ws w → Value f64 d t j → Ws w' → Document f64 d (w ++ t ++ w') j

/-- Documents with at most `d` nested containers whose integers have 64 bits and whose other numbers have a text that
denotes them. -/
inductive Writable (f64 : ℚ → Option ℚ) (textOf : ℚ → Text) : Nat → Json → Prop
  | null (d : Nat) : Writable f64 textOf d .null
  | bool (d : Nat) (b : Bool) : Writable f64 textOf d (.bool b)
  | int (d : Nat) (n : Int) : -2 ^ 63 ≤ n → n < 2 ^ 64 → Writable f64 textOf d (.int n)
  | float (d : Nat) (q : ℚ) : Number f64 (textOf q) (.float q) → Writable f64 textOf d (.float q)
  | str (d : Nat) (t : Text) : Writable f64 textOf d (.str t)
  | arr (d : Nat) (l : List Json) : (∀ j ∈ l, Writable f64 textOf d j) → Writable f64 textOf (d + 1) (.arr l)
  | obj (d : Nat) (l : List (Text × Json)) : (∀ e ∈ l, Writable f64 textOf d e.2) → Writable f64 textOf (d + 1) (.obj l)

end JsonGrammar

end Snips
