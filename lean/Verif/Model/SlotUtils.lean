import Verif.Model.Types

/-! # Model of src/slot_utils.rs -/

namespace Snips

/-- `convert_to_custom_slot` (src/slot_utils.rs:89-108). -/
def convertToCustomSlot (slot : InternalSlot) (resolved : Text) (alternatives : List Text) : Slot where
  rawValue := slot.value
  value := .custom resolved
  alternatives := alternatives.map .custom
  range := slot.charRange
  entity := slot.entity
  slotName := slot.slotName

/-- `convert_to_builtin_slot` (src/slot_utils.rs:110-120). -/
def convertToBuiltinSlot (slot : InternalSlot) (e : BuiltinEntity) : Slot where
  rawValue := slot.value
  value := e.entity
  alternatives := e.alternatives
  range := slot.charRange
  entity := slot.entity
  slotName := slot.slotName

/-- `resolve_builtin_slot` (src/slot_utils.rs:19-40). -/
def resolveBuiltinSlot (names : KindNames) (slot : InternalSlot) (builtinEntities : List BuiltinEntity)
    (slotsAlternatives : Nat) : Prog (Option Slot) := do
  let kind ← Prog.ofOutcome (names.fromIdentifierOrErr slot.entity)
  match builtinEntities.find? (fun e => e.kind = kind ∧ e.range = slot.charRange) with
  | some e => .ret (some (convertToBuiltinSlot slot e))
  | none =>
    .builtinFresh slot.value (some [kind]) slotsAlternatives fun es =>
      .ret (es.getLast?.map (convertToBuiltinSlot slot))

/-- Second half of `resolve_custom_slot` (src/slot_utils.rs:69-86): turn an optional match in a slot. -/
def finishCustomSlot (slot : InternalSlot) (extensible : Bool) : Option CustomEntity → Option Slot
  | some e => some (convertToCustomSlot slot e.resolved e.alternatives)
  | none => if extensible then some (convertToCustomSlot slot slot.value []) else none

/-- `resolve_custom_slot` (src/slot_utils.rs:42-87). -/
def resolveCustomSlot (slot : InternalSlot) (extensible : Bool) (customEntities : List CustomEntity)
    (slotsAlternatives : Nat) : Prog (Option Slot) :=
  match customEntities.find? (fun e => e.identifier = slot.entity ∧ e.range = slot.charRange) with
  | some e => .ret (finishCustomSlot slot extensible (some e))
  | none =>
    .custom slot.value (some [slot.entity]) slotsAlternatives fun es =>
      .ret (finishCustomSlot slot extensible
        (es.getLast?.bind fun e => if e.value.length = slot.value.length then some e else none))

end Snips
