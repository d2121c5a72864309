import Verif.Model.Engine
import Verif.Model.EntityParser

/-! # Asking for more alternatives -/

namespace Snips

/-- The same entity with more alternatives, listed after those of the first. -/
structure BuiltinEntity.More (b b' : BuiltinEntity) : Prop where
  value : b.value = b'.value
  range : b.range = b'.range
  entity : b.entity = b'.entity
  kind : b.kind = b'.kind
  alternatives : b.alternatives <+: b'.alternatives

/-- The same entity with more alternatives, listed after those of the first. -/
structure CustomEntity.More (c c' : CustomEntity) : Prop where
  value : c.value = c'.value
  resolved : c.resolved = c'.resolved
  range : c.range = c'.range
  identifier : c.identifier = c'.identifier
  alternatives : c.alternatives <+: c'.alternatives

/-- The libraries, asked for `n'` instead of `n` alternatives, find the same entities with more alternatives, and do not fail
when asked for `n` unless they do when asked for `n'`. -/
structure Ext.MoreAdds (x : Ext) (n n' : Nat) : Prop where
  builtin : ∀ time s kinds es', x.builtinRaw time s kinds n' = .ok es' →
    ∃ es, x.builtinRaw time s kinds n = .ok es ∧ List.Forall₂ BuiltinEntity.More es es'
  custom : ∀ s kinds es', x.gazetteer s kinds n' = .ok es' →
    ∃ es, x.gazetteer s kinds n = .ok es ∧ List.Forall₂ CustomEntity.More es es'

/-- The same slot with more alternatives, listed after those of the first. -/
structure Slot.More (s s' : Slot) : Prop where
  rawValue : s.rawValue = s'.rawValue
  value : s.value = s'.value
  range : s.range = s'.range
  entity : s.entity = s'.entity
  slotName : s.slotName = s'.slotName
  alternatives : s.alternatives <+: s'.alternatives

/-- The same alternative reading with more alternatives of its slots. -/
def Alternative.More (a a' : Alternative) : Prop := a.intent = a'.intent ∧ List.Forall₂ Slot.More a.slots a'.slots

end Snips
