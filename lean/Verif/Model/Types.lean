import Verif.Model.EntityParser
import Mathlib.Data.Nat.Pairing

/-! # Results, slots and the `IntentParser` trait -/

namespace Snips

/-- `IntentClassifierResult` (snips_nlu_ontology, external): intent name and confidence score. -/
structure IntentResult where
  name : Option Text
  score : ℚ
deriving DecidableEq, Repr

/-- `InternalSlot` (src/slot_utils.rs:11-17). -/
structure InternalSlot where
  value : Text
  charRange : Rng
  entity : Text
  slotName : Text
deriving DecidableEq, Repr

/-- `InternalParsingResult` (src/intent_parser/mod.rs:21-24). -/
structure InternalResult where
  intent : IntentResult
  slots : List InternalSlot
deriving DecidableEq, Repr

/-- `Slot` (snips_nlu_ontology, external).  Simplification: the field `confidence_score`, always `None`
in this crate (src/slot_utils.rs:106,118, src/nlu_engine.rs:467,478,509), is left out. -/
structure Slot where
  rawValue : Text
  value : SlotValue
  alternatives : List SlotValue
  range : Rng
  entity : Text
  slotName : Text
deriving DecidableEq, Repr

/-- `IntentParserAlternative` (snips_nlu_ontology, external). -/
structure Alternative where
  intent : IntentResult
  slots : List Slot
deriving DecidableEq, Repr

/-- `IntentParserResult` (snips_nlu_ontology, external). -/
structure ParseResult where
  input : Text
  intent : IntentResult
  slots : List Slot
  alternatives : List Alternative
deriving DecidableEq, Repr

/-- The hash orders seen by the `i`-th nested call of a call: an arbitrary `HashOrd` again.  The sites of a
call itself are numbered below 3, so its orders and those of its nested calls are independent. -/
def HashOrd.sub (o : HashOrd) (i : Nat) : HashOrd :=
  ⟨fun site _ l => o.order (Nat.pair i site + 3) l, fun site _ l => o.perm (Nat.pair i site + 3) l⟩

/-- `trait IntentParser` (src/intent_parser/mod.rs:52-62). -/
structure ParserImpl where
  parse : HashOrd → Text → Option (List Text) → Prog InternalResult
  getIntents : HashOrd → Text → Prog (List IntentResult)
  getSlots : HashOrd → Text → Text → Prog (List InternalSlot)

/-- `BuiltinEntityKind` conversions (snips_nlu_ontology, external): `from_str`, `from_identifier` (kept
apart because they are different functions there) and `identifier`. -/
structure KindNames where
  fromStr : Text → Option Kind
  fromIdentifier : Text → Option Kind
  identifier : Kind → Text

/-- `BuiltinEntityKind::from_identifier(name)?` -/
def KindNames.fromIdentifierOrErr (n : KindNames) (name : Text) : Outcome Kind :=
  Outcome.ofOption (.unknownBuiltinEntity name) (n.fromIdentifier name)

/-- `itertools::unique`: first occurrence of each element. -/
def unique {α : Type} [DecidableEq α] : List α → List α
  | [] => []
  | a :: l => a :: (unique l).filter (fun b => b ≠ a)

end Snips
