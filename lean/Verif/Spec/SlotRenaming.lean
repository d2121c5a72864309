import Verif.Spec.Clock
import Verif.Spec.Renaming

/-! # Giving other names to the slots of an engine -/

namespace Snips

/-- The tags of a word before and after the renaming of the slots.  A tag other than `O` is two characters, which say
which part of the slot the word is, and the name of the slot. -/
def TagRenamed (f : Text → Text) (tag tag' : Text) : Prop :=
  tag'.take 2 = tag.take 2 ∧ (tag ≠ ['O'] → tag'.drop 2 = f (tag.drop 2))

/-- The lookup parser with renamed slots: its table has numbers of slots and does not change. -/
def Lookup.renameSlots (f : Text → Text) (p : Lookup) : Lookup := { p with slotsNames := p.slotsNames.map f }

/-- The deterministic parser with renamed slots: the groups of its patterns keep their names, which are numbers. -/
def Det.renameSlots (f : Text → Text) (p : Det) : Det :=
  { p with groupNames := p.groupNames.map fun e => (e.1, f e.2),
           slotEntities := p.slotEntities.map fun e => (e.1, e.2.renameKeys f) }

/-- A slot filler and one that was trained with other names: its tagger says the same about every sentence, with the
other names, which belong to the same entities. -/
structure SlotFiller.SlotsRenamed (codec : TagCodec) (f : Text → Text) (a b : SlotFiller) : Prop where
  fns : b.fns = a.fns
  scheme : b.scheme = a.scheme
  processor : b.processor = a.processor
  mapping : b.mapping = a.mapping.renameKeys f
  tagger : ∀ features, Option.Rel
    (fun s t : Tagger => SameOutcome (List.Forall₂ (TagRenamed f))
      ((s.tag features).bind (mapOutcome codec.decode)) ((t.tag features).bind (mapOutcome codec.decode)))
    a.tagger b.tagger

/-- A parser and the parser with renamed slots. -/
inductive ParserModel.SlotsRenamed (f : Text → Text) : ParserModel → ParserModel → Prop where
  | lookup (env : RuleEnv) (p : Lookup) : SlotsRenamed f (.lookup env p) (.lookup env (p.renameSlots f))
  | deterministic (env : RuleEnv) (p : Det) : SlotsRenamed f (.deterministic env p) (.deterministic env (p.renameSlots f))
  | probabilistic (env : ProbEnv) (p q : Prob) : q.classifier = p.classifier →
      List.Forall₂ (fun a b : Text × SlotFiller => b.1 = a.1 ∧ a.2.SlotsRenamed env.codec f b.2) p.slotFillers q.slotFillers →
      SlotsRenamed f (.probabilistic env p) (.probabilistic env q)

/-- The description of the training set with renamed slots. -/
def DatasetMetadata.renameSlots (f : Text → Text) (d : DatasetMetadata) : DatasetMetadata :=
  { d with slotNameMappings := d.slotNameMappings.map fun e => (e.1, e.2.renameKeys f) }

/-- A slot of a parser, renamed. -/
def InternalSlot.renameSlot (f : Text → Text) (s : InternalSlot) : InternalSlot := { s with slotName := f s.slotName }

/-- An answer of a parser with renamed slots. -/
def InternalResult.renameSlots (f : Text → Text) (r : InternalResult) : InternalResult :=
  { r with slots := r.slots.map (·.renameSlot f) }

/-- A slot, renamed. -/
def Slot.renameSlot (f : Text → Text) (s : Slot) : Slot := { s with slotName := f s.slotName }

/-- An alternative with renamed slots. -/
def Alternative.renameSlots (f : Text → Text) (a : Alternative) : Alternative :=
  { a with slots := a.slots.map (·.renameSlot f) }

/-- An answer with renamed slots. -/
def ParseResult.renameSlots (f : Text → Text) (r : ParseResult) : ParseResult :=
  { r with slots := r.slots.map (·.renameSlot f), alternatives := r.alternatives.map (·.renameSlots f) }

/-- A question with renamed slots. -/
def EngineCall.renameSlots (f : Text → Text) : EngineCall → EngineCall
  | .parse o input whitelist blacklist ni ns => .parse o input whitelist blacklist ni ns
  | .intents o input => .intents o input
  | .slots o input intent ns => .slots o input intent ns
  | .extract input intent slot ns => .extract input intent (f slot) ns

/-- An answer of the engine with renamed slots. -/
def EngineAnswer.renameSlots (f : Text → Text) : EngineAnswer → EngineAnswer
  | .parse r => .parse (r.renameSlots f)
  | .intents l => .intents l
  | .slots l => .slots (l.map (·.renameSlot f))
  | .extract s => .extract (s.map (·.renameSlot f))

/-- The same end of a call up to the renaming; the error on an unknown slot names the slot asked for. -/
inductive Outcome.SlotsRenamed (f : Text → Text) : Outcome EngineAnswer → Outcome EngineAnswer → Prop where
  | ok (a : EngineAnswer) : SlotsRenamed f (.ok a) (.ok (a.renameSlots f))
  | err (e : Err) : SlotsRenamed f (.err e) (.err e)
  | unknown (s : Text) : SlotsRenamed f (.err (.extractUnknownSlot s)) (.err (.extractUnknownSlot (f s)))
  | panic : SlotsRenamed f .panic .panic

end Snips
