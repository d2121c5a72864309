import Verif.Model.Json
import Verif.Model.Readers
import Verif.Model.TextFns

/-! # Texts of JSON documents

`serde_json::from_reader` (used in src/nlu_engine.rs:58,75,94, src/resources/loading.rs:38,67 and by all components
that load a model) and `serde_json::to_string` (ffi/src/lib.rs:373,389,402).  The crate `serde_json` is external; this
is its text parser and its compact formatter, transcribed.  Simplifications: a text is checked to be UTF-8 before it is
parsed instead of string by string, and the values of unknown fields, which the crate skips with fewer checks, are
parsed like the others. -/

namespace Snips

/-- Conversion of numbers that are not 64-bit integers, and their printing (crates `serde_json` and `ryu`, external). -/
structure JsonNumbers where
  /-- The `f64` that a decimal number becomes, unless it is out of range. -/
  f64 : ℚ → Option ℚ
  /-- The text of a finite number. -/
  show' : ℚ → Text

namespace JsonText

/-- `Deserializer::parse_whitespace`. -/
def isSpace (c : Char) : Bool := c = ' ' || c = '\n' || c = '\t' || c = '\r'

/-- What follows the whitespace. -/
def skip (t : Text) : Text := t.dropWhile isSpace

/-- `decode_hex_val`. -/
def hexDigit (c : Char) : Option Nat :=
  if '0' ≤ c ∧ c ≤ '9' then some (c.toNat - 48)
  else if 'a' ≤ c ∧ c ≤ 'f' then some (c.toNat - 87)
  else if 'A' ≤ c ∧ c ≤ 'F' then some (c.toNat - 55)
  else none

/-- `Read::decode_hex_escape`. -/
def hex4 : Text → Option (Nat × Text)
  | a :: b :: c :: d :: rest => do
    let a ← hexDigit a
    let b ← hexDigit b
    let c ← hexDigit c
    let d ← hexDigit d
    some (((a * 16 + b) * 16 + c) * 16 + d, rest)
  | _ => none

/-- The character of a number, which is one (`char::from_u32`). -/
def charOf (n : Nat) : Option Char := checkedChar 0 n

/-- The rest of an escape `\u`: a character, or two halves of one. -/
def unicodeEscape (t : Text) : Option (Char × Text) :=
  match hex4 t with
  | none => none
  | some (n, rest) =>
    if 0xDC00 ≤ n ∧ n ≤ 0xDFFF then none
    else if 0xD800 ≤ n ∧ n ≤ 0xDBFF then
      match rest with
      | '\\' :: 'u' :: rest' =>
        match hex4 rest' with
        | none => none
        | some (n', rest'') =>
          if 0xDC00 ≤ n' ∧ n' ≤ 0xDFFF then
            (charOf (0x10000 + (n - 0xD800) * 0x400 + (n' - 0xDC00))).map (·, rest'')
          else none
      | _ => none
    else (charOf n).map (·, rest)

/-- `parse_escape`. -/
def escape : Text → Option (Char × Text)
  | '"' :: rest => some ('"', rest)
  | '\\' :: rest => some ('\\', rest)
  | '/' :: rest => some ('/', rest)
  | 'b' :: rest => some ('\x08', rest)
  | 'f' :: rest => some ('\x0c', rest)
  | 'n' :: rest => some ('\n', rest)
  | 'r' :: rest => some ('\r', rest)
  | 't' :: rest => some ('\t', rest)
  | 'u' :: rest => unicodeEscape rest
  | _ => none

/-- `Read::parse_str`, from behind the opening quote to behind the closing one.  `fuel` bounds the number of
characters and is the length of the text. -/
def stringBody : Nat → Text → Option (Text × Text)
  | 0, _ => none
  | _ + 1, [] => none
  | fuel + 1, c :: rest =>
    if c = '"' then some ([], rest)
    else if c = '\\' then
      match escape rest with
      | none => none
      | some (c', rest') => (stringBody fuel rest').map fun r => (c' :: r.1, r.2)
    else if c.toNat < 0x20 then none
    else (stringBody fuel rest).map fun r => (c :: r.1, r.2)

/-- A string, from its opening quote. -/
def string : Text → Option (Text × Text)
  | '"' :: rest => stringBody rest.length rest
  | _ => none

/-- ASCII digits. -/
def isDigit (c : Char) : Bool := decide ('0' ≤ c ∧ c ≤ '9')

/-- Digits, and what follows them. -/
def digits (t : Text) : Text × Text := (t.takeWhile isDigit, t.dropWhile isDigit)

/-- The number that digits make. -/
def digitsValue (ds : Text) : Nat := ds.foldl (fun n c => n * 10 + (c.toNat - 48)) 0

/-- `parse_integer`: a single zero, or digits that do not begin with one. -/
def integerPart (t : Text) : Option (Text × Text) :=
  match t with
  | [] => none
  | c :: rest =>
    if c = '0' then
      match rest with
      | [] => some (['0'], [])
      | d :: rest' => if isDigit d then none else some (['0'], d :: rest')
    else if isDigit c then some (digits (c :: rest))
    else none

/-- `parse_decimal`: the digits behind a point, if there is one; at least one digit. -/
def fractionPart (t : Text) : Option (Option Text × Text) :=
  match t with
  | '.' :: rest => if (digits rest).1 = [] then none else some (some (digits rest).1, (digits rest).2)
  | _ => some (none, t)

/-- The sign of an exponent. -/
def exponentSign (t : Text) : Bool × Text :=
  match t with
  | '+' :: rest => (false, rest)
  | '-' :: rest => (true, rest)
  | _ => (false, t)

/-- `parse_exponent`: whether the exponent is negative and its digits, if there is one; at least one digit. -/
def exponentPart (t : Text) : Option (Option (Bool × Text) × Text) :=
  match t with
  | [] => some (none, [])
  | c :: rest =>
    if c = 'e' || c = 'E' then
      let s := exponentSign rest
      if (digits s.2).1 = [] then none else some (some (s.1, (digits s.2).1), (digits s.2).2)
    else some (none, c :: rest)

/-- Ten to the power of an exponent. -/
def tenTo (neg : Bool) (n : Nat) : ℚ := if neg then 1 / 10 ^ n else 10 ^ n

/-- The value of a number.  Integers of 64 bits, with or without sign, are integers (`-0` is taken to be one);
everything else becomes an `f64`. -/
def numberValue (env : JsonNumbers) (neg : Bool) (int : Text) (frac : Option Text) (exp : Option (Bool × Text)) :
    Option Json :=
  let n : Int := if neg then -(digitsValue int : Int) else digitsValue int
  match frac, exp with
  | none, none =>
    if -9223372036854775808 ≤ n ∧ n < 18446744073709551616 then some (.int n) else (env.f64 n).map .float
  | _, _ =>
    let fs := frac.getD []
    let m : ℚ := (digitsValue (int ++ fs) : ℚ) / 10 ^ fs.length
    let m := match exp with | none => m | some (s, e) => m * tenTo s (digitsValue e)
    (env.f64 (if neg then -m else m)).map .float

/-- The sign of a number. -/
def numberSign (t : Text) : Bool × Text :=
  match t with
  | '-' :: rest => (true, rest)
  | _ => (false, t)

/-- `parse_any_number`. -/
def number (env : JsonNumbers) (t : Text) : Option (Json × Text) := do
  let s := numberSign t
  let (int, t) ← integerPart s.2
  let (frac, t) ← fractionPart t
  let (exp, t) ← exponentPart t
  let j ← numberValue env s.1 int frac exp
  some (j, t)

/-- A word, if the text begins with it. -/
def word (w : Text) (j : Json) (t : Text) : Option (Json × Text) :=
  if w <+: t then some (j, t.drop w.length) else none

mutual

/-- `Deserializer::parse_value` (`deserialize_any`).  `depth` is `remaining_depth`: a container is entered only if more
than one is left.  `fuel` bounds the number of calls. -/
def value (env : JsonNumbers) : Nat → Nat → Text → Option (Json × Text)
  | 0, _, _ => none
  | fuel + 1, depth, t =>
    match t with
    | [] => none
    | c :: rest =>
      if c = 'n' then word "null".toList .null t
      else if c = 't' then word "true".toList (.bool true) t
      else if c = 'f' then word "false".toList (.bool false) t
      else if c = '"' then (string t).map fun r => (.str r.1, r.2)
      else if c = '[' then
        if depth ≤ 1 then none
        else
          match skip rest with
          | ']' :: rest' => some (.arr [], rest')
          | rest' => (elements env fuel (depth - 1) rest').map fun r => (.arr r.1, r.2)
      else if c = '{' then
        if depth ≤ 1 then none
        else
          match skip rest with
          | '}' :: rest' => some (.obj [], rest')
          | rest' => (members env fuel (depth - 1) rest').map fun r => (.obj r.1, r.2)
      else number env t

/-- `SeqAccess`: the elements of an array from the first one on, and the bracket behind them. -/
def elements (env : JsonNumbers) : Nat → Nat → Text → Option (List Json × Text)
  | 0, _, _ => none
  | fuel + 1, depth, t =>
    match value env fuel depth t with
    | none => none
    | some (j, rest) =>
      match skip rest with
      | ',' :: rest' => (elements env fuel depth (skip rest')).map fun r => (j :: r.1, r.2)
      | ']' :: rest' => some ([j], rest')
      | _ => none

/-- `MapAccess`: the entries of an object from the first one on, and the bracket behind them. -/
def members (env : JsonNumbers) : Nat → Nat → Text → Option (List (Text × Json) × Text)
  | 0, _, _ => none
  | fuel + 1, depth, t =>
    match string t with
    | none => none
    | some (k, rest) =>
      match skip rest with
      | ':' :: rest' =>
        match value env fuel depth (skip rest') with
        | none => none
        | some (j, rest) =>
          match skip rest with
          | ',' :: rest' => (members env fuel depth (skip rest')).map fun r => ((k, j) :: r.1, r.2)
          | '}' :: rest' => some ([(k, j)], rest')
          | _ => none
      | _ => none

end

/-- `serde_json::from_str`: a value with nothing but whitespace around it, and at most 127 containers deep. -/
def parse (env : JsonNumbers) (t : Text) : Option Json :=
  match value env (t.length + 1) 128 (skip t) with
  | none => none
  | some (j, rest) => if skip rest = [] then some j else none

/-- `serde_json::from_reader` of a file with these bytes. -/
def read (env : JsonNumbers) (bytes : List Nat) : Option Json := (decodeUtf8 bytes).bind (parse env)

/-! ## Writing -/

/-- A digit of an escape, in lower case (`write_char_escape`). -/
def hexChar (n : Nat) : Char := if n < 10 then Char.ofNat (48 + n) else Char.ofNat (87 + n)

/-- A character in a string (`format_escaped_str_contents` and the table `ESCAPE`). -/
def writeChar (c : Char) : Text :=
  if c = '"' then ['\\', '"']
  else if c = '\\' then ['\\', '\\']
  else if c = '\x08' then ['\\', 'b']
  else if c = '\t' then ['\\', 't']
  else if c = '\n' then ['\\', 'n']
  else if c = '\x0c' then ['\\', 'f']
  else if c = '\r' then ['\\', 'r']
  else if c.toNat < 0x20 then ['\\', 'u', '0', '0', hexChar (c.toNat / 16), hexChar (c.toNat % 16)]
  else [c]

/-- `format_escaped_str`. -/
def writeString (t : Text) : Text := '"' :: t.flatMap writeChar ++ ['"']

/-- Decimal text of an integer (`itoa`). -/
def writeInt (n : Int) : Text := if n < 0 then '-' :: natText n.natAbs else natText n.natAbs

mutual

/-- `serde_json::to_string` with the compact formatter. -/
def write (env : JsonNumbers) : Json → Text
  | .null => "null".toList
  | .bool true => "true".toList
  | .bool false => "false".toList
  | .int n => writeInt n
  | .float q => env.show' q
  | .str t => writeString t
  | .arr l => '[' :: writeElements env l ++ [']']
  | .obj l => '{' :: writeMembers env l ++ ['}']

/-- Elements with commas between them. -/
def writeElements (env : JsonNumbers) : List Json → Text
  | [] => []
  | [j] => write env j
  | j :: j' :: l => write env j ++ ',' :: writeElements env (j' :: l)

/-- Entries with commas between them. -/
def writeMembers (env : JsonNumbers) : List (Text × Json) → Text
  | [] => []
  | [(k, j)] => writeString k ++ ':' :: write env j
  | (k, j) :: e :: l => writeString k ++ ':' :: write env j ++ ',' :: writeMembers env (e :: l)

end

end JsonText

end Snips
