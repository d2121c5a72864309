import Verif.Spec.Keys
import Verif.Spec.Safety
import Verif.Spec.Demo
import Verif.Model.Parsers

/-! What it means that slots have the entities which the dataset declares for them. -/

namespace Snips

/-- The dataset declares a slot of an intent with an entity. -/
def DatasetMetadata.Declares (d : DatasetMetadata) (intent slot entity : Text) : Prop :=
  ∃ slots, d.slotNameMappings.get intent = some slots ∧ slots.get slot = some entity

/-- A training sentence with the names of the entities in the places of its slots. -/
structure AnnotatedSentence extends TrainingSentence where
  entities : List Text

/-- The sentences of a look-up table are annotated as the dataset declares. -/
def Lookup.Annotated (p : Lookup) (d : DatasetMetadata) (sentences : List AnnotatedSentence) : Prop :=
  ∀ u ∈ sentences, ∀ intent, p.intentsNames[u.intent]? = some intent →
    List.Forall₂ (fun id entity => ∀ slot, p.slotsNames[id]? = some slot → d.Declares intent slot entity) u.slots u.entities

/-- A query can be told from its readings: if one of them has the key of a sentence, it has the entities of the sentence, in
the same order. -/
def Lookup.Legible (env : RuleEnv) (p : Lookup) (w : World) (input : Text) (sentences : List AnnotatedSentence) : Prop :=
  ∀ u ∈ sentences, ∀ filter key es, p.Reading env w input filter key es →
    env.fns.hashStr key = env.fns.hashStr u.text → es.map (·.name) = u.entities

/-- The files of a parser agree with the dataset about the entities of slots: the mapping of the patterns, those of the slot
fillers, the sentences behind a look-up table (whose placeholders must be legible in the query). -/
def ParserModel.AgreesWith (d : DatasetMetadata) (w : World) (input : Text) : ParserModel → Prop
  | .lookup env p => p.Sound ∧ p.GoodMatches env w input ∧ ∃ sentences : List AnnotatedSentence,
      p.TrainedOn env (sentences.map AnnotatedSentence.toTrainingSentence) ∧ p.Annotated d sentences ∧
      p.Legible env w input sentences
  | .deterministic env p => p.Built env.names ∧ ∀ intent slots slot entity, p.slotEntities.get intent = some slots →
      slots.get slot = some entity → d.Declares intent slot entity
  | .probabilistic _ p => ∀ intent filler slot entity, p.slotFillers.get intent = some filler →
      filler.mapping.get slot = some entity → d.Declares intent slot entity

end Snips
