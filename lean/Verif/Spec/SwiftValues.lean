import Verif.Model.SwiftValues
import Mathlib.Data.List.Forall2

/-! What an answer looks like in Swift when nothing of it is lost. -/

namespace Snips

/-- The value of Swift that says the same; there is none for cities, countries and regions. -/
def OValue.inSwift : OValue → Option SwValue
  | .custom t => some (.custom t)
  | .number x => some (.number x)
  | .ordinal n => some (.ordinal n)
  | .instantTime value grain precision => some (.instantTime value grain precision)
  | .timeInterval start stop => some (.timeInterval start stop)
  | .amountOfMoney value precision unit => some (.amountOfMoney value precision unit)
  | .temperature value unit => some (.temperature value unit)
  | .duration d precision => some (.duration d precision)
  | .percentage x => some (.percentage x)
  | .musicAlbum t => some (.musicAlbum t)
  | .musicArtist t => some (.musicArtist t)
  | .musicTrack t => some (.musicTrack t)
  | .city _ => none
  | .country _ => none
  | .region _ => none

/-- The values that can be shown: not a place; an interval only if it ends when it starts; an ordinal only if it has 32
bits. -/
def OValue.Shown : OValue → Prop
  | .ordinal n => -2147483648 ≤ n ∧ n < 2147483648
  | .timeInterval start stop => stop = start
  | .city _ => False
  | .country _ => False
  | .region _ => False
  | _ => True

/-- Places. -/
def OValue.IsPlace (v : OValue) : Prop := ∃ t, v = .city t ∨ v = .country t ∨ v = .region t

/-- The intent of Swift says the same. -/
def ShowsIntent (r : IntentResult) (w : SwIntent) : Prop := w.intentName = r.name ∧ w.confidenceScore = r.score

/-- The slot of Swift says the same. -/
def ShowsSlot (meaning : Nat → OValue) (s : Slot) (w : SwSlot) : Prop :=
  w.rawValue = s.rawValue ∧ (s.value.meant meaning).inSwift = some w.value ∧
  List.Forall₂ (fun v u => (SlotValue.meant meaning v).inSwift = some u) s.alternatives w.alternatives ∧
  w.range = ((s.range.start : Int), (s.range.stop : Int)) ∧ w.entity = s.entity ∧ w.slotName = s.slotName ∧
  w.confidenceScore = none

/-- The alternative of Swift says the same. -/
def ShowsAlternative (meaning : Nat → OValue) (a : Alternative) (w : SwAlternative) : Prop :=
  ShowsIntent a.intent w.intent ∧ List.Forall₂ (ShowsSlot meaning) a.slots w.slots

/-- The result of Swift says the same. -/
def ShowsResult (meaning : Nat → OValue) (r : ParseResult) (w : SwResult) : Prop :=
  ∃ intent slots alternatives, w = .result r.input intent slots alternatives ∧ ShowsIntent r.intent intent ∧
    List.Forall₂ (ShowsSlot meaning) r.slots slots ∧ List.Forall₂ (ShowsAlternative meaning) r.alternatives alternatives

/-- A slot that can be shown: its values can, and its range has 32 bits. -/
def Slot.Shown (meaning : Nat → OValue) (s : Slot) : Prop :=
  (s.value.meant meaning).Shown ∧ (∀ v ∈ s.alternatives, (SlotValue.meant meaning v).Shown) ∧
  s.range.start < 2147483648 ∧ s.range.stop < 2147483648

/-- A result that can be shown. -/
def ParseResult.Shown (meaning : Nat → OValue) (r : ParseResult) : Prop :=
  (∀ s ∈ r.slots, s.Shown meaning) ∧ ∀ a ∈ r.alternatives, ∀ s ∈ a.slots, Slot.Shown meaning s

/-- The library converts its answers to the structures of the C header. -/
structure UsesHeader (env : CEnv CAnswer) (meaning : Nat → OValue) : Prop where
  result : env.cResult = cParseResult meaning
  slots : env.cSlots = cSlotList meaning
  intents : env.cIntents = cIntentArray

end Snips
