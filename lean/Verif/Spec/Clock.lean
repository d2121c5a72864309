import Verif.Spec.EngineShared

/-! # Answers that differ in resolved builtin values only -/

namespace Snips

/-- Two slots with the same text, range, entity and name; the same slot altogether if the entity is one of the dataset. -/
structure ClockSlot (d : DatasetMetadata) (a b : Slot) : Prop where
  rawValue : a.rawValue = b.rawValue
  range : a.range = b.range
  entity : a.entity = b.entity
  slotName : a.slotName = b.slotName
  custom : (∃ extensible, d.entities.get a.entity = some extensible) → a = b

/-- Two alternatives with the same intent and score, and the same slots up to builtin values. -/
def SameAlternative (d : DatasetMetadata) (a b : Alternative) : Prop :=
  a.intent = b.intent ∧ List.Forall₂ (ClockSlot d) a.slots b.slots

/-- Two answers that differ in the values of builtin slots only. -/
inductive SameAnswer (d : DatasetMetadata) : EngineAnswer → EngineAnswer → Prop where
  | parse {a b : ParseResult} : a.input = b.input → a.intent = b.intent → List.Forall₂ (ClockSlot d) a.slots b.slots →
      List.Forall₂ (SameAlternative d) a.alternatives b.alternatives → SameAnswer d (.parse a) (.parse b)
  | intents (l : List IntentResult) : SameAnswer d (.intents l) (.intents l)
  | slots {a b : List Slot} : List.Forall₂ (ClockSlot d) a b → SameAnswer d (.slots a) (.slots b)
  | noSlot : SameAnswer d (.extract none) (.extract none)
  | extract {a b : Slot} : ClockSlot d a b → SameAnswer d (.extract (some a)) (.extract (some b))

/-- Both succeed, with related values; or both give the same error; or both panic. -/
inductive SameOutcome {α β : Type} (R : α → β → Prop) : Outcome α → Outcome β → Prop where
  | ok {a b} : R a b → SameOutcome R (.ok a) (.ok b)
  | err (e : Err) : SameOutcome R (.err e) (.err e)
  | panic : SameOutcome R .panic .panic

end Snips
