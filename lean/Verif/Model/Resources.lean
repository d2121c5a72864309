import Verif.Model.TextFns

/-! # Model of src/resources/{gazetteer,stemmer,word_clusterer}.rs

The files are given by what the readers of `std::io` and of the `csv` crate (external) yield: the lines, or
the fields of the successive records, each of which may be an error. -/

namespace Snips

/-- `HashSetGazetteer` (src/resources/gazetteer.rs:11-13): a set of hashes, as a list. -/
structure Gazetteer where
  values : List Int

/-- Loop of `HashSetGazetteer::from_reader` (src/resources/gazetteer.rs:19-24). -/
def Gazetteer.load (hash : Text → Int) : List (Outcome Text) → List Int → Outcome Gazetteer
  | [], values => .ok ⟨values⟩
  | line :: lines, values => do
    let word ← line
    if word = [] then Gazetteer.load hash lines values
    else Gazetteer.load hash lines (if values.contains (hash word) then values else values ++ [hash word])

/-- `HashSetGazetteer::from_reader` (src/resources/gazetteer.rs:16-26). -/
def Gazetteer.fromReader (hash : Text → Int) (lines : List (Outcome Text)) : Outcome Gazetteer :=
  Gazetteer.load hash lines []

/-- `HashSetGazetteer::contains` (src/resources/gazetteer.rs:41-43). -/
def Gazetteer.contains (hash : Text → Int) (g : Gazetteer) (value : Text) : Bool := g.values.contains (hash value)

/-- `HashMapStemmer` (src/resources/stemmer.rs:11-13). -/
structure Stemmer where
  values : Map Int Text

/-- Inner loop of `HashMapStemmer::from_reader` (src/resources/stemmer.rs:28-30). -/
def Stemmer.addValues (hash : Text → Int) (stem : Text) (values : Map Int Text) (words : List Text) : Map Int Text :=
  words.foldl (fun m w => m.insert (hash w) stem) values

/-- Outer loop of `HashMapStemmer::from_reader` (src/resources/stemmer.rs:25-31); `elements[0]` panics on a
record without fields. -/
def Stemmer.load (hash : Text → Int) : List (Outcome (List Text)) → Map Int Text → Outcome Stemmer
  | [], values => .ok ⟨values⟩
  | record :: records, values => do
    let elements ← record
    let stem ← Outcome.unwrap elements[0]?
    Stemmer.load hash records (Stemmer.addValues hash stem values (elements.drop 1))

/-- `HashMapStemmer::from_reader` (src/resources/stemmer.rs:16-33). -/
def Stemmer.fromReader (hash : Text → Int) (records : List (Outcome (List Text))) : Outcome Stemmer :=
  Stemmer.load hash records []

/-- `HashMapStemmer::stem` (src/resources/stemmer.rs:48-53). -/
def Stemmer.stem (fns : TextFns) (s : Stemmer) (value : Text) : Text :=
  match s.values.get (fns.hashStr (fns.normalize value)) with
  | some v => v
  | none => value

/-- The value of a text of ASCII digits, if it is one and not empty. -/
def decimalValue (t : Text) : Option Nat :=
  if t ≠ [] ∧ t.all Char.isDigit then some (t.foldl (fun n c => 10 * n + (c.toNat - '0'.toNat)) 0) else none

/-- The text without a leading plus sign (part of `u16::from_str`). -/
def dropPlus (t : Text) : Text :=
  match t with
  | [] => []
  | c :: rest => if c = '+' then rest else c :: rest

/-- `u16::from_str` (standard library, transcribed): an optional `+`, then decimal digits; the value must
be below 2^16. -/
def parseU16 (t : Text) : Option Nat :=
  match decimalValue (dropPlus t) with
  | some n => if n < 65536 then some n else none
  | none => none

/-- `HashMapWordClusterer` (src/resources/word_clusterer.rs:13-17). -/
inductive WordClusterer where
  | numeric (values : Map Int Nat)
  | textual (values : Map Int Text)

/-- Loop of `HashMapWordClusterer::from_reader` (src/resources/word_clusterer.rs:31-55) once a cluster was
found that is not a `u16`; `elements[0]` and `elements[1]` panic when absent. -/
def WordClusterer.loadTextual (hash : Text → Int) : List (Outcome (List Text)) → Map Int Text → Outcome WordClusterer
  | [], values => .ok (.textual values)
  | record :: records, values => do
    let elements ← record
    let word ← Outcome.unwrap elements[0]?
    let cluster ← Outcome.unwrap elements[1]?
    WordClusterer.loadTextual hash records (values.insert (hash word) cluster)

/-- `for (hash, value) in u16_values.iter() { str_values.insert(*hash, format!("{}", value)) }`
(src/resources/word_clusterer.rs:44-46), in hash order. -/
def WordClusterer.toTextual (o : HashOrd) (values : Map Int Nat) : Map Int Text :=
  (o.order 0 values).foldl (fun m hv => m.insert hv.1 (natText hv.2)) []

/-- Loop of `HashMapWordClusterer::from_reader` (src/resources/word_clusterer.rs:31-55) as long as all
clusters are `u16`. -/
def WordClusterer.loadNumeric (hash : Text → Int) (o : HashOrd) :
    List (Outcome (List Text)) → Map Int Nat → Outcome WordClusterer
  | [], values => .ok (.numeric values)
  | record :: records, values => do
    let elements ← record
    let word ← Outcome.unwrap elements[0]?
    let cluster ← Outcome.unwrap elements[1]?
    match parseU16 cluster with
    | some n => WordClusterer.loadNumeric hash o records (values.insert (hash word) n)
    | none =>
      WordClusterer.loadTextual hash records
        ((WordClusterer.toTextual o values).insert (hash word) cluster)

/-- `HashMapWordClusterer::from_reader` (src/resources/word_clusterer.rs:20-63). -/
def WordClusterer.fromReader (hash : Text → Int) (o : HashOrd) (records : List (Outcome (List Text))) :
    Outcome WordClusterer :=
  WordClusterer.loadNumeric hash o records []

/-- `HashMapWordClusterer::get_cluster` (src/resources/word_clusterer.rs:67-73). -/
def WordClusterer.getCluster (hash : Text → Int) (w : WordClusterer) (word : Text) : Option Text :=
  match w with
  | .numeric values => (values.get (hash word)).map natText
  | .textual values => values.get (hash word)

end Snips
