import Verif.Model.Resources

/-! # Decoding of JSON values

The code generated by `#[derive(Deserialize)]` and the implementations of `Deserialize` for the types of the standard
library (crates `serde` and `serde_json`, external, transcribed).  All errors are the same. -/

namespace Snips

/-- A JSON document, as `serde_json` reads it: integers that fit in 64 bits, other numbers as `f64`, and the entries of
objects in the order of the document. -/
inductive Json where
  | null
  | bool (b : Bool)
  | int (n : Int)
  | float (q : ℚ)
  | str (t : Text)
  | arr (l : List Json)
  | obj (entries : List (Text × Json))

/-- `serde_json::Error`. -/
def jsonError {α : Type} : Outcome α := .err (.external 300)

namespace Json

/-- `String::deserialize`. -/
def text : Json → Outcome Text
  | .str t => .ok t
  | _ => jsonError

/-- `bool::deserialize`. -/
def boolean : Json → Outcome Bool
  | .bool b => .ok b
  | _ => jsonError

/-- `u8::deserialize` and `usize::deserialize`: an integer below the bound. -/
def natBelow (bound : Nat) : Json → Outcome Nat
  | .int n => if 0 ≤ n ∧ n < bound then .ok n.toNat else jsonError
  | _ => jsonError

/-- `i32::deserialize`. -/
def i32 : Json → Outcome Int
  | .int n => if -2147483648 ≤ n ∧ n < 2147483648 then .ok n else jsonError
  | _ => jsonError

/-- `f32::deserialize`.  Simplification: numbers that overflow `f32` do not become infinite. -/
def f32 (rd : Rounding) : Json → Outcome ℚ
  | .int n => .ok (rd.rnd n)
  | .float q => .ok (rd.rnd q)
  | _ => jsonError

/-- `Option::deserialize`. -/
def option {α : Type} (d : Json → Outcome α) : Json → Outcome (Option α)
  | .null => .ok none
  | j => do
    let a ← d j
    .ok (some a)

/-- `Vec::deserialize`. -/
def vec {α : Type} (d : Json → Outcome α) : Json → Outcome (List α)
  | .arr l => mapOutcome d l
  | _ => jsonError

/-- Deserialization of a pair. -/
def pair {α β : Type} (d : Json → Outcome α) (d' : Json → Outcome β) : Json → Outcome (α × β)
  | .arr [x, y] => do
    let a ← d x
    let b ← d' y
    .ok (a, b)
  | _ => jsonError

/-- Loop of `HashMap::deserialize`: `while let Some((key, value)) = map.next_entry()? { values.insert(key, value) }`. -/
def hashMapFrom {κ ν : Type} [DecidableEq κ] (key : Text → Outcome κ) (d : Json → Outcome ν) :
    List (Text × Json) → Map κ ν → Outcome (Map κ ν)
  | [], m => .ok m
  | e :: rest, m => do
    let k ← key e.1
    let v ← d e.2
    hashMapFrom key d rest (m.insert k v)

/-- `HashMap::deserialize`. -/
def hashMap {κ ν : Type} [DecidableEq κ] (key : Text → Outcome κ) (d : Json → Outcome ν) : Json → Outcome (Map κ ν)
  | .obj entries => hashMapFrom key d entries []
  | _ => jsonError

/-- Keys of type `usize`: `serde_json` uses `usize::from_str`, an optional `+` and decimal digits. -/
def usizeKey (t : Text) : Outcome Nat :=
  match decimalValue (dropPlus t) with
  | some n => if n < 18446744073709551616 then .ok n else jsonError
  | none => jsonError

/-- Keys of type `i32`: `serde_json` uses `i32::from_str`, an optional sign and decimal digits. -/
def i32Key (t : Text) : Outcome Int :=
  match t with
  | '-' :: rest =>
    match decimalValue rest with
    | some n => if n ≤ 2147483648 then .ok (-(n : Int)) else jsonError
    | none => jsonError
  | _ =>
    match decimalValue (dropPlus t) with
    | some n => if n < 2147483648 then .ok (n : Int) else jsonError
    | none => jsonError

/-- The fields of a structure in a document. -/
structure Fields where
  /-- whether the structure is given as an array -/
  positional : Bool
  get : Text → Option Json

/-- The derived `deserialize` of a structure with named fields (in the order of their declaration): an object, in which
a known field may not occur twice and unknown ones are ignored, or an array that is not longer than the structure. -/
def fields (names : List Text) : Json → Outcome Fields
  | .obj entries =>
    if names.any fun n => decide (1 < (entries.filter fun e => e.1 = n).length) then jsonError
    else .ok ⟨false, fun n => if names.contains n then entries.lookup n else none⟩
  | .arr l => if names.length < l.length then jsonError else .ok ⟨true, fun n => (names.zip l).lookup n⟩
  | _ => jsonError

/-- A field without attribute whose type is not an `Option`. -/
def Fields.required {α : Type} (s : Fields) (name : String) (d : Json → Outcome α) : Outcome α :=
  match s.get name.toList with
  | some j => d j
  | none => jsonError

/-- A field of type `Option<T>`: it may be absent from an object (but not from an array). -/
def Fields.optional {α : Type} (s : Fields) (name : String) (d : Json → Outcome α) : Outcome (Option α) :=
  match s.get name.toList with
  | some j => option d j
  | none => if s.positional then jsonError else .ok none

/-- A field with `#[serde(default)]`. -/
def Fields.orDefault {α : Type} (s : Fields) (name : String) (d : Json → Outcome α) (default : α) : Outcome α :=
  match s.get name.toList with
  | some j => d j
  | none => .ok default

/-- The tag of an internally tagged enumeration (`#[serde(tag = "...")]`): an object in which the tag occurs once, or an
array that begins with it. -/
def tag (name : Text) : Json → Outcome Json
  | .obj entries =>
    match entries.filter fun e => e.1 = name with
    | [e] => .ok e.2
    | _ => jsonError
  | .arr (j :: _) => .ok j
  | _ => jsonError

/-- `Value::as_str`. -/
def asStr : Json → Option Text
  | .str t => some t
  | _ => none

/-- `Value::as_bool`. -/
def asBool : Json → Option Bool
  | .bool b => some b
  | _ => none

/-- `Value::as_u64`. -/
def asU64 : Json → Option Nat
  | .int n => if 0 ≤ n then some n.toNat else none
  | _ => none

/-- `Value::as_array`. -/
def asArray : Json → Option (List Json)
  | .arr l => some l
  | _ => none

end Json

end Snips
