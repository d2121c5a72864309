import Verif.Model.Basic

/-! # Reading text files

UTF-8, `BufRead::lines` (standard library) and the `csv` crate (external), transcribed.  Bytes are numbers below 256. -/

namespace Snips

/-- UTF-8 encoding of a character. -/
def encodeChar (c : Char) : List Nat :=
  if c.toNat < 0x80 then [c.toNat]
  else if c.toNat < 0x800 then [0xC0 + c.toNat / 64, 0x80 + c.toNat % 64]
  else if c.toNat < 0x10000 then [0xE0 + c.toNat / 4096, 0x80 + c.toNat / 64 % 64, 0x80 + c.toNat % 64]
  else [0xF0 + c.toNat / 262144, 0x80 + c.toNat / 4096 % 64, 0x80 + c.toNat / 64 % 64, 0x80 + c.toNat % 64]

/-- UTF-8 encoding of a text: `str::as_bytes`. -/
def encodeUtf8 (t : Text) : List Nat := t.flatMap encodeChar

/-- Whether a byte continues a character. -/
def isContinuation (b : Nat) : Bool := decide (0x80 ≤ b ∧ b < 0xC0)

/-- The character numbered `n`, if there is one and it needs as many bytes as it has. -/
def checkedChar (least n : Nat) : Option Char :=
  if h : n.isValidChar then (if least ≤ n then some (Char.ofNatAux n h) else none) else none

/-- `String::from_utf8` (standard library, transcribed). -/
def decodeUtf8 : List Nat → Option Text
  | [] => some []
  | b0 :: bs =>
    if b0 < 0x80 then (checkedChar 0 b0).bind fun c => (decodeUtf8 bs).map (c :: ·)
    else match bs with
      | [] => none
      | b1 :: bs =>
        if isContinuation b1 then
          if 0xC0 ≤ b0 ∧ b0 < 0xE0 then
            (checkedChar 0x80 ((b0 - 0xC0) * 64 + (b1 - 0x80))).bind fun c => (decodeUtf8 bs).map (c :: ·)
          else match bs with
            | [] => none
            | b2 :: bs =>
              if isContinuation b2 then
                if 0xE0 ≤ b0 ∧ b0 < 0xF0 then
                  (checkedChar 0x800 ((b0 - 0xE0) * 4096 + (b1 - 0x80) * 64 + (b2 - 0x80))).bind fun c =>
                    (decodeUtf8 bs).map (c :: ·)
                else match bs with
                  | [] => none
                  | b3 :: bs =>
                    if isContinuation b3 ∧ 0xF0 ≤ b0 ∧ b0 < 0xF8 then
                      (checkedChar 0x10000
                        ((b0 - 0xF0) * 262144 + (b1 - 0x80) * 4096 + (b2 - 0x80) * 64 + (b3 - 0x80))).bind fun c =>
                          (decodeUtf8 bs).map (c :: ·)
                    else none
              else none
        else none

/-- A text, or an error if the bytes are not UTF-8. -/
def utf8OrErr (b : List Nat) : Outcome Text :=
  match decodeUtf8 b with
  | some t => .ok t
  | none => .err (.external 310)

/-- The lines of a file, each with whether a line feed follows it. -/
def rawLines : List Nat → List (List Nat × Bool)
  | [] => []
  | b :: bs =>
    if b = 10 then ([], true) :: rawLines bs
    else match rawLines bs with
      | [] => [([b], false)]
      | (l, terminated) :: ls => (b :: l, terminated) :: ls

/-- The line without a carriage return at its end. -/
def stripCr (l : List Nat) : List Nat := if l.getLast? = some 13 then l.dropLast else l

/-- `BufReader::new(file).lines()` (standard library, transcribed): lines end with a line feed, which is removed with a
carriage return before it; the last line may lack it; a line that is not UTF-8 is an error. -/
def readLines (bytes : List Nat) : List (Outcome Text) :=
  (rawLines bytes).map fun l => utf8OrErr (if l.2 then stripCr l.1 else l.1)

/-- The records of a file, as fields (bytes).  `fields` and `field` are the fields of the current record and the
beginning of its next field, `started` is whether a record has begun.  The automaton of the `csv` crate for the
default terminator: records end with a carriage return or a line feed, and empty lines are skipped. -/
def csvFrom (delimiter : Nat) (fields : List (List Nat)) (field : List Nat) (started : Bool) :
    List Nat → List (List (List Nat))
  | [] => if started then [fields ++ [field]] else []
  | b :: bs =>
    if b = 10 ∨ b = 13 then
      if started then (fields ++ [field]) :: csvFrom delimiter [] [] false bs
      else csvFrom delimiter [] [] false bs
    else if b = delimiter then csvFrom delimiter (fields ++ [field]) [] true bs
    else csvFrom delimiter fields (field ++ [b]) true bs

/-- The fields of a record as texts. -/
def decodeFields : List (List Nat) → Option (List Text)
  | [] => some []
  | f :: fs => (decodeUtf8 f).bind fun t => (decodeFields fs).map (t :: ·)

/-- `StringRecordsIter::next`: unless the reader is flexible, a record with another number of fields than the first one
is an error; so is one that is not UTF-8. -/
def csvCheck (flexible : Bool) : Option Nat → List (List (List Nat)) → List (Outcome (List Text))
  | _, [] => []
  | expected, r :: rs =>
    (if !flexible && expected.any (· != r.length) then .err (.external 311)
      else match decodeFields r with
        | some fields => .ok fields
        | none => .err (.external 310)) :: csvCheck flexible (some (expected.getD r.length)) rs

/-- `csv::ReaderBuilder::new().delimiter(delimiter).quoting(false).flexible(flexible).has_headers(false)
.from_reader(file).records()` (crate `csv`, external, transcribed), used in src/resources/stemmer.rs:18-25 and
src/resources/word_clusterer.rs:21-31.  Simplification: a byte order mark at the beginning of the file is not
treated specially. -/
def csvRecords (delimiter : Nat) (flexible : Bool) (bytes : List Nat) : List (Outcome (List Text)) :=
  csvCheck flexible none (csvFrom delimiter [] [] false bytes)

end Snips
