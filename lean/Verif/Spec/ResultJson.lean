import Verif.Spec.JsonText
import Verif.Model.SwiftValues
import Verif.Model.Readers

/-! # Answers as a program that reads JSON sees them -/

namespace Snips

/-- `j[k]` of an object. -/
def Json.entry (j : Json) (k : String) : Option Json :=
  match j with
  | .obj l => l.lookup k.toList
  | _ => none

namespace Shown

/-- `j[k]` is this text. -/
def Text' (j : Json) (k : String) (t : Text) : Prop := j.entry k = some (.str t)

/-- `j[k]` is this word. -/
def Word (j : Json) (k w : String) : Prop := j.entry k = some (.str w.toList)

/-- `j[k]` is this integer. -/
def Int' (j : Json) (k : String) (n : Int) : Prop := j.entry k = some (.int n)

/-- `j[k]` is this number. -/
def Double (j : Json) (k : String) (q : ℚ) : Prop := j.entry k = some (.float q)

/-- `j[k]` is a number that becomes `q` when it is rounded to 32 bits. -/
def Single (rd : Rounding) (j : Json) (k : String) (q : ℚ) : Prop := ∃ x, j.entry k = some (.float x) ∧ rd.rnd x = q

/-- `j[k]` is null or this text. -/
def Maybe (j : Json) (k : String) : Option Text → Prop
  | none => j.entry k = some .null
  | some t => j.entry k = some (.str t)

/-- The names of the grains. -/
inductive GrainName : TimeGrain → String → Prop
  | year : GrainName .year "Year"
  | quarter : GrainName .quarter "Quarter"
  | month : GrainName .month "Month"
  | week : GrainName .week "Week"
  | day : GrainName .day "Day"
  | hour : GrainName .hour "Hour"
  | minute : GrainName .minute "Minute"
  | second : GrainName .second "Second"

/-- The names of the precisions. -/
inductive PrecisionName : ValuePrecision → String → Prop
  | approximate : PrecisionName .approximate "Approximate"
  | exact : PrecisionName .exact "Exact"

/-- `j` shows a value of a slot. -/
inductive Value (rd : Rounding) (j : Json) : OValue → Prop
  | custom (t : Text) : Word j "kind" "Custom" → Text' j "value" t → Value rd j (.custom t)
  | number (x : ℚ) : Word j "kind" "Number" → Double j "value" x → Value rd j (.number x)
  | ordinal (n : Int) : Word j "kind" "Ordinal" → Int' j "value" n → Value rd j (.ordinal n)
  | instantTime (t : Text) (g : TimeGrain) (gn : String) (p : ValuePrecision) (pn : String) :
      Word j "kind" "InstantTime" → Text' j "value" t → GrainName g gn → Word j "grain" gn → PrecisionName p pn →
      Word j "precision" pn → Value rd j (.instantTime t g p)
  | timeInterval (a b : Option Text) : Word j "kind" "TimeInterval" → Maybe j "from" a → Maybe j "to" b →
      Value rd j (.timeInterval a b)
  | amountOfMoney (x : ℚ) (p : ValuePrecision) (pn : String) (u : Option Text) : Word j "kind" "AmountOfMoney" →
      Single rd j "value" x → PrecisionName p pn → Word j "precision" pn → Maybe j "unit" u →
      Value rd j (.amountOfMoney x p u)
  | temperature (x : ℚ) (u : Option Text) : Word j "kind" "Temperature" → Single rd j "value" x → Maybe j "unit" u →
      Value rd j (.temperature x u)
  | duration (d : DurationParts) (p : ValuePrecision) (pn : String) : Word j "kind" "Duration" →
      Int' j "years" d.years → Int' j "quarters" d.quarters → Int' j "months" d.months → Int' j "weeks" d.weeks →
      Int' j "days" d.days → Int' j "hours" d.hours → Int' j "minutes" d.minutes → Int' j "seconds" d.seconds →
      PrecisionName p pn → Word j "precision" pn → Value rd j (.duration d p)
  | percentage (x : ℚ) : Word j "kind" "Percentage" → Double j "value" x → Value rd j (.percentage x)
  | musicAlbum (t : Text) : Word j "kind" "MusicAlbum" → Text' j "value" t → Value rd j (.musicAlbum t)
  | musicArtist (t : Text) : Word j "kind" "MusicArtist" → Text' j "value" t → Value rd j (.musicArtist t)
  | musicTrack (t : Text) : Word j "kind" "MusicTrack" → Text' j "value" t → Value rd j (.musicTrack t)
  | city (t : Text) : Word j "kind" "City" → Text' j "value" t → Value rd j (.city t)
  | country (t : Text) : Word j "kind" "Country" → Text' j "value" t → Value rd j (.country t)
  | region (t : Text) : Word j "kind" "Region" → Text' j "value" t → Value rd j (.region t)

/-- `j[k]` is a list that shows these things in this order. -/
def Many {α : Type} (P : Json → α → Prop) (j : Json) (k : String) (l : List α) : Prop :=
  ∃ js, j.entry k = some (.arr js) ∧ List.Forall₂ P js l

/-- `j` shows a slot. -/
structure Slot' (rd : Rounding) (meaning : Nat → OValue) (j : Json) (s : Slot) : Prop where
  rawValue : Text' j "rawValue" s.rawValue
  value : ∃ v, j.entry "value" = some v ∧ Value rd v (s.value.meant meaning)
  alternatives : Many (fun v x => Value rd v (SlotValue.meant meaning x)) j "alternatives" s.alternatives
  range : ∃ r, j.entry "range" = some r ∧ Int' r "start" s.range.start ∧ Int' r "end" s.range.stop
  entity : Text' j "entity" s.entity
  slotName : Text' j "slotName" s.slotName

/-- `j` shows an intent with its confidence score. -/
structure Intent (rd : Rounding) (j : Json) (r : IntentResult) : Prop where
  name : Maybe j "intentName" r.name
  score : Single rd j "confidenceScore" r.score

/-- `j` shows an alternative. -/
structure Alternative' (rd : Rounding) (meaning : Nat → OValue) (j : Json) (a : Alternative) : Prop where
  intent : ∃ i, j.entry "intent" = some i ∧ Intent rd i a.intent
  slots : Many (Slot' rd meaning) j "slots" a.slots

/-- `j` shows a result. -/
structure Result (rd : Rounding) (meaning : Nat → OValue) (j : Json) (r : ParseResult) : Prop where
  input : Text' j "input" r.input
  intent : ∃ i, j.entry "intent" = some i ∧ Intent rd i r.intent
  slots : Many (Slot' rd meaning) j "slots" r.slots
  alternatives : Many (Alternative' rd meaning) j "alternatives" r.alternatives

/-- How the numbers of the machine are written: the text of a 64-bit number, what a text is read as, the number that the
text of a 32-bit number is read as, and rounding to 32 bits. -/
structure Writing where
  f64 : ℚ → Option ℚ
  textOf : ℚ → Text
  widen : ℚ → ℚ
  rd : Rounding

/-- A 64-bit number has a text that denotes it. -/
def Writing.Writes64 (w : Writing) (q : ℚ) : Prop := JsonGrammar.Number w.f64 (w.textOf q) (.float q)

/-- A 32-bit number has a text that denotes a number which becomes it again when it is rounded to 32 bits. -/
def Writing.Writes32 (w : Writing) (q : ℚ) : Prop :=
  JsonGrammar.Number w.f64 (w.textOf (w.widen q)) (.float (w.widen q)) ∧ w.rd.rnd (w.widen q) = q

/-- An integer of 64 bits. -/
def I64 (n : Int) : Prop := -2 ^ 63 ≤ n ∧ n < 2 ^ 63

/-- The numbers in a value are numbers of the machine. -/
def Writing.WritesValue (w : Writing) : OValue → Prop
  | .number x | .percentage x => w.Writes64 x
  | .ordinal n => I64 n
  | .amountOfMoney x _ _ | .temperature x _ => w.Writes32 x
  | .duration d _ => I64 d.years ∧ I64 d.quarters ∧ I64 d.months ∧ I64 d.weeks ∧ I64 d.days ∧ I64 d.hours ∧
      I64 d.minutes ∧ I64 d.seconds
  | _ => True

/-- The numbers in a slot are numbers of the machine. -/
def Writing.WritesSlot (w : Writing) (meaning : Nat → OValue) (s : Slot) : Prop :=
  w.WritesValue (s.value.meant meaning) ∧ (∀ v ∈ s.alternatives, w.WritesValue (v.meant meaning)) ∧
  s.range.start < 2 ^ 64 ∧ s.range.stop < 2 ^ 64

/-- The numbers in a result are numbers of the machine. -/
def Writing.WritesResult (w : Writing) (meaning : Nat → OValue) (r : ParseResult) : Prop :=
  w.Writes32 r.intent.score ∧ (∀ s ∈ r.slots, w.WritesSlot meaning s) ∧
  ∀ a ∈ r.alternatives, w.Writes32 a.intent.score ∧ ∀ s ∈ a.slots, w.WritesSlot meaning s

end Shown

/-- These bytes are a JSON text which denotes a document with the property `P`, whoever reads it. -/
def ReadAs (f64 : ℚ → Option ℚ) (b : List Nat) (P : Json → Prop) : Prop :=
  ∃ t, b = encodeUtf8 t ∧ ∃ j, JsonGrammar.Document f64 127 t j ∧ P j

end Snips
