import Verif.Model.Bindings

/-! # Model of the answers as C structures and of their conversion to Swift

Floats are rationals here; pointers with a size are lists. -/

namespace Snips

/-- `Grain` (snips_nlu_ontology, external; platforms/c/libsnips_nlu.h:14-47). -/
inductive TimeGrain where
  | year | quarter | month | week | day | hour | minute | second
deriving DecidableEq, Repr

/-- `Precision` (snips_nlu_ontology, external; platforms/c/libsnips_nlu.h:52-61). -/
inductive ValuePrecision where
  | approximate | exact
deriving DecidableEq, Repr

/-- `DurationValue` without its precision (snips_nlu_ontology, external; platforms/c/libsnips_nlu.h:401-433). -/
structure DurationParts where
  years : Int
  quarters : Int
  months : Int
  weeks : Int
  days : Int
  hours : Int
  minutes : Int
  seconds : Int
deriving DecidableEq, Repr

/-- `SlotValue` (snips_nlu_ontology, external): what `SlotValue` of `Verif/Model/Prog.lean` stands for. -/
inductive OValue where
  | custom (t : Text)
  | number (x : ℚ)
  | ordinal (n : Int)
  | instantTime (value : Text) (grain : TimeGrain) (precision : ValuePrecision)
  | timeInterval (start stop : Option Text)
  | amountOfMoney (value : ℚ) (precision : ValuePrecision) (unit : Option Text)
  | temperature (value : ℚ) (unit : Option Text)
  | duration (d : DurationParts) (precision : ValuePrecision)
  | percentage (x : ℚ)
  | musicAlbum (t : Text)
  | musicArtist (t : Text)
  | musicTrack (t : Text)
  | city (t : Text)
  | country (t : Text)
  | region (t : Text)
deriving DecidableEq, Repr

/-- `CSlotValue` (platforms/c/libsnips_nlu.h:176-187): one constructor for each `SNIPS_SLOT_VALUE_TYPE`
(platforms/c/libsnips_nlu.h:80-141), with what the value then points to (platforms/c/libsnips_nlu.h:319-438). -/
inductive CSlotValue where
  | custom (p : List Nat)
  | number (x : ℚ)
  | ordinal (n : Int)
  | instantTime (value : List Nat) (grain precision : Int)
  | timeInterval (start stop : Option (List Nat))
  | amountOfMoney (unit : Option (List Nat)) (value : ℚ) (precision : Int)
  | temperature (unit : Option (List Nat)) (value : ℚ)
  | duration (d : DurationParts) (precision : Int)
  | percentage (x : ℚ)
  | musicAlbum (p : List Nat)
  | musicArtist (p : List Nat)
  | musicTrack (p : List Nat)
  | city (p : List Nat)
  | country (p : List Nat)
  | region (p : List Nat)
deriving DecidableEq, Repr

/-- `CIntentClassifierResult` (platforms/c/libsnips_nlu.h:148-157). -/
structure CIntentResult where
  name : Option (List Nat)
  score : ℚ
deriving DecidableEq, Repr

/-- `CSlot` (platforms/c/libsnips_nlu.h:206-239). -/
structure CSlot where
  value : CSlotValue
  alternatives : List CSlotValue
  rawValue : List Nat
  entity : List Nat
  slotName : List Nat
  rangeStart : Int
  rangeEnd : Int
  score : ℚ
deriving DecidableEq, Repr

/-- `CIntentParserAlternative` (platforms/c/libsnips_nlu.h:258-267). -/
structure CAlternative where
  intent : CIntentResult
  slots : List CSlot
deriving DecidableEq, Repr

/-- `CIntentParserResult`, `CSlotList`, `CIntentClassifierResultArray` (platforms/c/libsnips_nlu.h:286-303, :244-253,
:162-171). -/
inductive CAnswer where
  | result (input : List Nat) (intent : CIntentResult) (slots : List CSlot) (alternatives : List CAlternative)
  | slots (l : List CSlot)
  | intents (l : List CIntentResult)
deriving DecidableEq, Repr

/-! ## From the library to C (crate `snips-nlu-ontology-ffi-macros`, transcribed) -/

/-- `CString::new(..)`: a null byte is an error. -/
def cString (t : Text) : Outcome (List Nat) := if 0 ∈ encodeUtf8 t then .err (.external 242) else .ok (encodeUtf8 t)

/-- An optional string, else the null pointer. -/
def cOptString : Option Text → Outcome (Option (List Nat))
  | none => .ok none
  | some t => cString t >>= fun p => .ok (some p)

/-- `SNIPS_GRAIN::from`. -/
def cGrain : TimeGrain → Int
  | .year => 0
  | .quarter => 1
  | .month => 2
  | .week => 3
  | .day => 4
  | .hour => 5
  | .minute => 6
  | .second => 7

/-- `SNIPS_PRECISION::from`. -/
def cPrecision : ValuePrecision → Int
  | .approximate => 0
  | .exact => 1

/-- `CSlotValue::from`. -/
def cSlotValue : OValue → Outcome CSlotValue
  | .custom t => cString t >>= fun p => .ok (.custom p)
  | .number x => .ok (.number x)
  | .ordinal n => .ok (.ordinal n)
  | .instantTime value grain precision => cString value >>= fun p => .ok (.instantTime p (cGrain grain) (cPrecision precision))
  | .timeInterval start stop => cOptString start >>= fun a => cOptString stop >>= fun b => .ok (.timeInterval a b)
  | .amountOfMoney value precision unit => cOptString unit >>= fun u => .ok (.amountOfMoney u value (cPrecision precision))
  | .temperature value unit => cOptString unit >>= fun u => .ok (.temperature u value)
  | .duration d precision => .ok (.duration d (cPrecision precision))
  | .percentage x => .ok (.percentage x)
  | .musicAlbum t => cString t >>= fun p => .ok (.musicAlbum p)
  | .musicArtist t => cString t >>= fun p => .ok (.musicArtist p)
  | .musicTrack t => cString t >>= fun p => .ok (.musicTrack p)
  | .city t => cString t >>= fun p => .ok (.city p)
  | .country t => cString t >>= fun p => .ok (.country p)
  | .region t => cString t >>= fun p => .ok (.region p)

/-- `CIntentClassifierResult::from`. -/
def cIntent (r : IntentResult) : Outcome CIntentResult := cOptString r.name >>= fun n => .ok (⟨n, r.score⟩)

/-- The value that is meant by `SlotValue`: `meaning` says which builtin value a number stands for. -/
def SlotValue.meant (meaning : Nat → OValue) : SlotValue → OValue
  | .custom t => .custom t
  | .builtin v => meaning v

/-- `as i32`. -/
def asI32 (n : Nat) : Int := Int.bmod n 4294967296

/-- `CSlot::from`; there is no confidence score (src/slot_utils.rs:106), which is -1 in C. -/
def cSlot (meaning : Nat → OValue) (s : Slot) : Outcome CSlot := do
  let value ← cSlotValue (s.value.meant meaning)
  let alternatives ← mapOutcome (fun v => cSlotValue (v.meant meaning)) s.alternatives
  let rawValue ← cString s.rawValue
  let entity ← cString s.entity
  let slotName ← cString s.slotName
  .ok ⟨value, alternatives, rawValue, entity, slotName, asI32 s.range.start, asI32 s.range.stop, -1⟩

/-- `CIntentParserAlternative::from`. -/
def cAlternative (meaning : Nat → OValue) (a : Alternative) : Outcome CAlternative := do
  let intent ← cIntent a.intent
  let slots ← mapOutcome (cSlot meaning) a.slots
  .ok ⟨intent, slots⟩

/-- `CIntentParserResult::from`. -/
def cParseResult (meaning : Nat → OValue) (r : ParseResult) : Outcome CAnswer := do
  let input ← cString r.input
  let intent ← cIntent r.intent
  let slots ← mapOutcome (cSlot meaning) r.slots
  let alternatives ← mapOutcome (cAlternative meaning) r.alternatives
  .ok (.result input intent slots alternatives)

/-- `CSlotList::from`. -/
def cSlotList (meaning : Nat → OValue) (l : List Slot) : Outcome CAnswer := mapOutcome (cSlot meaning) l >>= fun l => .ok (.slots l)

/-- `CIntentClassifierResultArray::from`. -/
def cIntentArray (l : List IntentResult) : Outcome CAnswer := mapOutcome cIntent l >>= fun l => .ok (.intents l)

/-! ## From C to Swift -/

/-- `SlotValue` of Swift (platforms/swift/SnipsNlu/SnipsNlu/NluEngine.swift:88-100, :159-163, :165-168, :185-187, :210-213,
:234-236, :255-264). -/
inductive SwValue where
  | custom (t : Text)
  | number (x : ℚ)
  | ordinal (n : Int)
  | instantTime (value : Text) (grain : TimeGrain) (precision : ValuePrecision)
  | timeInterval (start stop : Option Text)
  | amountOfMoney (value : ℚ) (precision : ValuePrecision) (unit : Option Text)
  | temperature (value : ℚ) (unit : Option Text)
  | duration (d : DurationParts) (precision : ValuePrecision)
  | percentage (x : ℚ)
  | musicAlbum (t : Text)
  | musicArtist (t : Text)
  | musicTrack (t : Text)
deriving DecidableEq, Repr

/-- `IntentClassifierResult` (platforms/swift/SnipsNlu/SnipsNlu/NluEngine.swift:49-51). -/
structure SwIntent where
  intentName : Option Text
  confidenceScore : ℚ
deriving DecidableEq, Repr

/-- `Slot` (platforms/swift/SnipsNlu/SnipsNlu/NluEngine.swift:331-338). -/
structure SwSlot where
  rawValue : Text
  value : SwValue
  alternatives : List SwValue
  range : Int × Int
  entity : Text
  slotName : Text
  confidenceScore : Option ℚ
deriving DecidableEq, Repr

/-- `IntentParserAlternative` (platforms/swift/SnipsNlu/SnipsNlu/NluEngine.swift:70-72). -/
structure SwAlternative where
  intent : SwIntent
  slots : List SwSlot
deriving DecidableEq, Repr

/-- What the methods return: `IntentParserResult` (platforms/swift/SnipsNlu/SnipsNlu/NluEngine.swift:22-26), slots, or
intents. -/
inductive SwResult where
  | result (input : Text) (intent : SwIntent) (slots : List SwSlot) (alternatives : List SwAlternative)
  | slots (l : List SwSlot)
  | intents (l : List SwIntent)
deriving DecidableEq, Repr

/-- `String(cString:)`: what is no UTF-8 is repaired (external). -/
def swString (repair : List Nat → Text) (b : List Nat) : Text :=
  match decodeUtf8 b with
  | some t => t
  | none => repair b

/-- `throw NluEngineError(message: "Internal error: ..")`; numbers stand for the messages. -/
def swInvalid {α : Type} (n : Nat) : Except HostError α := .error (.conversion n)

/-- `Grain.init` (platforms/swift/SnipsNlu/SnipsNlu/NluEngine.swift:303-315). -/
def swGrain (n : Int) : Except HostError TimeGrain :=
  if n = 0 then .ok .year
  else if n = 1 then .ok .quarter
  else if n = 2 then .ok .month
  else if n = 3 then .ok .week
  else if n = 4 then .ok .day
  else if n = 5 then .ok .hour
  else if n = 6 then .ok .minute
  else if n = 7 then .ok .second
  else swInvalid 1

/-- `Precision.init` (platforms/swift/SnipsNlu/SnipsNlu/NluEngine.swift:322-328). -/
def swPrecision (n : Int) : Except HostError ValuePrecision :=
  if n = 0 then .ok .approximate
  else if n = 1 then .ok .exact
  else swInvalid 2

/-- Reading of a `CInt` where there is an `int64_t`: its lower 32 bits, on the machines of Apple. -/
def lowInt32 (n : Int) : Int := Int.bmod n 4294967296

/-- `SlotValue.init` (platforms/swift/SnipsNlu/SnipsNlu/NluEngine.swift:102-154) with `InstantTimeValue.init`,
`TimeIntervalValue.init`, `AmountOfMoneyValue.init`, `TemperatureValue.init` and `DurationValue.init` (:170-174,
:189-200, :215-223, :238-245, :266-276).  Swift's `Int` has 64 bits. -/
def swValue (repair : List Nat → Text) : CSlotValue → Except HostError SwValue
  | .custom p => .ok (.custom (swString repair p))
  | .number x => .ok (.number x)
  | .ordinal n => .ok (.ordinal (lowInt32 n))
  | .instantTime value grain precision => do
    let grain ← swGrain grain
    let precision ← swPrecision precision
    .ok (.instantTime (swString repair value) grain precision)
  | .timeInterval start _ => .ok (.timeInterval (start.map (swString repair)) (start.map (swString repair)))
  | .amountOfMoney unit value precision => do
    let precision ← swPrecision precision
    .ok (.amountOfMoney value precision (unit.map (swString repair)))
  | .temperature unit value => .ok (.temperature value (unit.map (swString repair)))
  | .duration d precision => do
    let precision ← swPrecision precision
    .ok (.duration d precision)
  | .percentage x => .ok (.percentage x)
  | .musicAlbum p => .ok (.musicAlbum (swString repair p))
  | .musicArtist p => .ok (.musicArtist (swString repair p))
  | .musicTrack p => .ok (.musicTrack (swString repair p))
  | .city _ => swInvalid 3
  | .country _ => swInvalid 3
  | .region _ => swInvalid 3

/-- `map` with a function that can throw. -/
def swMap {α β : Type} (f : α → Except HostError β) : List α → Except HostError (List β)
  | [] => .ok []
  | a :: l => do
    let b ← f a
    let bs ← swMap f l
    .ok (b :: bs)

/-- `IntentClassifierResult.init` (platforms/swift/SnipsNlu/SnipsNlu/NluEngine.swift:53-60). -/
def swIntent (repair : List Nat → Text) (r : CIntentResult) : SwIntent := ⟨r.name.map (swString repair), r.score⟩

/-- `Slot.init` (platforms/swift/SnipsNlu/SnipsNlu/NluEngine.swift:340-349). -/
def swSlot (repair : List Nat → Text) (s : CSlot) : Except HostError SwSlot := do
  let value ← swValue repair s.value
  let alternatives ← swMap (swValue repair) s.alternatives
  .ok ⟨swString repair s.rawValue, value, alternatives, (s.rangeStart, s.rangeEnd), swString repair s.entity,
    swString repair s.slotName, if s.score ≥ 0 then some s.score else none⟩

/-- `IntentParserAlternative.init` (platforms/swift/SnipsNlu/SnipsNlu/NluEngine.swift:74-78). -/
def swAlternative (repair : List Nat → Text) (a : CAlternative) : Except HostError SwAlternative := do
  let slots ← swMap (swSlot repair) a.slots
  .ok ⟨swIntent repair a.intent, slots⟩

/-- `IntentParserResult.init` (platforms/swift/SnipsNlu/SnipsNlu/NluEngine.swift:28-37). -/
def swParseResult (repair : List Nat → Text) (input : List Nat) (intent : CIntentResult) (slots : List CSlot)
    (alternatives : List CAlternative) : Except HostError SwResult := do
  let slots ← swMap (swSlot repair) slots
  let alternatives ← swMap (swAlternative repair) alternatives
  .ok (.result (swString repair input) (swIntent repair intent) slots alternatives)

/-- The three conversions (platforms/swift/SnipsNlu/SnipsNlu/NluEngine.swift:451, :472, :489); structures of another kind do
not occur. -/
def swConv (repair : List Nat → Text) : KtConv CAnswer SwResult where
  result x := match x with
    | .result input intent slots alternatives => swParseResult repair input intent slots alternatives
    | _ => swInvalid 4
  slots x := match x with
    | .slots l => (swMap (swSlot repair) l).map .slots
    | _ => swInvalid 4
  intents x := match x with
    | .intents l => .ok (.intents (l.map (swIntent repair)))
    | _ => swInvalid 4

end Snips
