import Verif.Spec.Safety
import Verif.Model.Messages

/-! Models whose tables are complete, so that queries are answered. -/

namespace Snips

/-- The libraries answer every request for entities without an error. -/
def World.NoError (w : World) : Prop :=
  (∀ s kinds n e, w.builtin s kinds n ≠ .err e) ∧ (∀ s kinds n e, w.custom s kinds n ≠ .err e)

/-- Asked for some custom entities, the library reports no others. -/
def World.Scoped (w : World) : Prop :=
  ∀ s asked n es, w.custom s (some asked) n = .ok es → ∀ e ∈ es, e.identifier ∈ asked

/-- The entity is a custom entity of the dataset or the name of a builtin entity. -/
def Resolvable (dataset : DatasetMetadata) (names : KindNames) (entity : Text) : Prop :=
  (∃ extensible, dataset.entities.get entity = some extensible) ∨ ∃ kind, names.fromIdentifier entity = some kind

/-- The parser looks for existing builtin entities, and all entities it may find can be resolved. -/
structure Lookup.Complete (dataset : DatasetMetadata) (names : KindNames) (env : RuleEnv) (p : Lookup) : Prop where
  builtin : ∀ s ∈ p.scopes, ∀ b ∈ s.builtin, ∃ kind, env.names.fromIdentifier b = some kind
  kinds : ∀ kind, Resolvable dataset names (env.names.identifier kind)
  custom : ∀ s ∈ p.scopes, ∀ c ∈ s.custom, Resolvable dataset names c

/-- Every intent with slots has patterns (maybe none), and all entities of slots can be resolved. -/
structure Det.Complete (dataset : DatasetMetadata) (names : KindNames) (p : Det) : Prop where
  patterns : ∀ s ∈ p.scopes, ∃ patterns, p.regexes.get s.1 = some patterns
  entities : ∀ intent declared, p.slotEntities.get intent = some declared →
    ∀ slot entity, Map.get declared slot = some entity → Resolvable dataset names entity

/-- The regression has a weight for every feature: one per number up to the largest one of the vocabulary, and one per pair
of words. -/
def Classifier.Complete (c : Classifier) : Prop :=
  ∀ f l, c.featurizer = some f → c.logreg = some l → ∀ m, (f.tfidf.vocabulary.map Prod.snd).max? = some m →
    l.nbFeatures = m + 1 + (match f.cooc with
      | some v => v.wordPairs.length
      | none => 0)

/-- The tagger answers with tags that can be decoded, and every tag other than `O` names, after its first two characters, a slot
of the filler, whose entity can be resolved. -/
def SlotFiller.Complete (dataset : DatasetMetadata) (names : KindNames) (codec : TagCodec) (f : SlotFiller) : Prop :=
  ∀ tagger, f.tagger = some tagger → ∀ features, (∀ e, tagger.tag features ≠ .err e) ∧
    ∀ encoded, tagger.tag features = .ok encoded → ∀ x ∈ encoded, ∃ tag, codec.decode x = .ok tag ∧
      (tag = "O".toList ∨ ∃ entity, f.mapping.get (tag.drop 2) = some entity ∧ Resolvable dataset names entity)

/-- The regression fits the features, every intent of the classifier has a slot filler, and the fillers are complete. -/
structure Prob.Complete (dataset : DatasetMetadata) (names : KindNames) (env : ProbEnv) (p : Prob) : Prop where
  features : p.classifier.Complete
  intents : ∀ intent, some intent ∈ p.classifier.intentList → ∃ filler, p.slotFillers.get intent = some filler
  fillers : ∀ intent filler, p.slotFillers.get intent = some filler → filler.Complete dataset names env.codec

/-- A parser whose tables are complete. -/
def ParserModel.Complete (dataset : DatasetMetadata) (names : KindNames) : ParserModel → Prop
  | .lookup env p => p.Complete dataset names env
  | .deterministic _ p => p.Complete dataset names
  | .probabilistic env p => p.Complete dataset names env

/-- The intents a parser may rank. -/
def ParserModel.Ranks : ParserModel → Text → Prop
  | .lookup _ p, intent => intent ∈ p.intentsNames
  | .deterministic _ p, intent => intent ∈ p.regexes.keys
  | .probabilistic _ p, intent => some intent ∈ p.classifier.intentList

/-- The intents of which a parser can give the slots. -/
def ParserModel.Knows : ParserModel → Text → Prop
  | .lookup _ p, intent => intent ∈ p.intentsNames
  | .deterministic _ p, intent => intent ∈ p.regexes.keys
  | .probabilistic _ p, intent => ∃ filler, p.slotFillers.get intent = some filler

/-- What the parser says of an intent it does not know. -/
def ParserModel.unknown : ParserModel → Text → Text
  | .lookup _ _, intent => "Unknown intent: '".toList ++ intent ++ "'".toList
  | .deterministic _ _, intent => "Unknown intent: '".toList ++ intent ++ "'".toList
  | .probabilistic _ _, intent => "Unknown intent: ".toList ++ intent

end Snips
