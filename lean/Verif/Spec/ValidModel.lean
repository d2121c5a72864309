import Verif.Spec.Layout
import Verif.Spec.Answering
import Verif.Spec.Extraction
import Verif.Spec.EngineShared

/-! Model directories whose files agree with each other, and libraries that do what is expected of them. -/

namespace Snips

/-- The libraries: tokenizers report the tokens of the text in order, decoding a tag does not panic, every builtin entity is
found again by its own name; the parsers of entities answer every request, at any time with the same ranges, the custom
one with non-empty ranges of the text and, if some entities are asked for, with these only. -/
structure LoadEnv.Sensible (env : LoadEnv) : Prop where
  tokenizers : ∀ code name fns, env.language code = .ok (name, fns) → TokenizerOk fns
  tags : ∀ t, env.codec.decode t ≠ .panic
  kinds : ∀ kind, ∃ kind', env.names.fromIdentifier (env.names.identifier kind) = some kind'
  builtin : ∀ files parse, env.builtinParser files = .ok parse → ∀ time s kinds n, ∃ es, parse time s kinds n = .ok es ∧
    ∀ time' es', parse time' s kinds n = .ok es' → es'.map BuiltinEntity.kindMatch = es.map BuiltinEntity.kindMatch
  custom : ∀ files parse, env.gazetteerParser files = .ok parse → ∀ s kinds n, ∃ es, parse s kinds n = .ok es ∧
    ∀ e ∈ es, e.range.start < e.range.stop ∧ e.range.stop ≤ s.length ∧ ∀ asked, kinds = some asked → e.identifier ∈ asked

/-- `intent_parser.json` of a lookup parser: the entries of the table refer to the lists of intents and slots, and the
entities to look for exist. -/
structure LookupJson.Valid (env : LoadEnv) (dataset : DatasetMetadata) (m : LookupJson) : Prop where
  intents : ∀ e ∈ m.map, 0 ≤ e.2.1 ∧ e.2.1 < m.intentsNames.length
  slots : ∀ e ∈ m.map, ∀ id ∈ e.2.2, 0 ≤ id ∧ id < m.slotsNames.length
  builtin : ∀ s ∈ m.entityScopes, ∀ b ∈ s.builtin, ∃ kind, env.names.fromIdentifier b = some kind
  custom : ∀ s ∈ m.entityScopes, ∀ c ∈ s.custom, Resolvable dataset env.names c

/-- `intent_parser.json` of a deterministic parser: the groups of the patterns of an intent denote slots of the intent, every
intent with slots is listed with its patterns, and the entities of slots exist. -/
structure DetJson.Valid (env : LoadEnv) (dataset : DatasetMetadata) (m : DetJson) : Prop where
  groups : ∀ intent patterns, m.patterns.get intent = some patterns → ∀ pattern ∈ patterns, ∀ regex,
    env.regex pattern = .ok regex → ∀ group, some group ∈ regex.captureNames →
      ∃ slot declared entity, m.groupNamesToSlotNames.get (group.takeWhile (· ≠ '_')) = some slot ∧
        m.slotNamesToEntities.get intent = some declared ∧ Map.get declared slot = some entity
  patterns : ∀ e ∈ m.slotNamesToEntities, ∃ patterns, m.patterns.get e.1 = some patterns
  entities : ∀ intent declared, m.slotNamesToEntities.get intent = some declared →
    ∀ slot entity, Map.get declared slot = some entity → Resolvable dataset env.names entity

/-- `vectorizer.json` of a tf-idf vectorizer: there are words, and each has a weight. -/
structure TfidfJson.Valid (m : TfidfJson) : Prop where
  vocabulary : m.vocab ≠ []
  weights : ∀ e ∈ m.vocab, e.2 < m.idfDiag.length

/-- `vectorizer.json` of a co-occurrence vectorizer: no pair of words is listed twice, and the pairs are numbered below their
number. -/
structure CoocJson.Valid (m : CoocJson) : Prop where
  distinct : (m.wordPairs.map Prod.snd).Nodup
  numbers : ∀ e ∈ m.wordPairs, e.1 < m.wordPairs.length

/-- The directory of a featurizer. -/
def FeaturizerFiles (env : LoadEnv) (fs : Fs) (dir : Path) : Prop :=
  ∀ m, FileHas fs (dir ++ ["featurizer.json".toList]) env.featurizer m →
    (∀ v, FileHas fs (joinPath dir m.tfidfVectorizer ++ ["vectorizer.json".toList]) env.tfidf v → v.Valid) ∧
    ∀ name, m.cooccurrenceVectorizer = some name →
      ∀ v, FileHas fs (joinPath dir name ++ ["vectorizer.json".toList]) env.cooc v → v.Valid

/-- The features that the directory of a featurizer describes: one for each number up to the largest one of the vocabulary, and
one for each pair of words. -/
def FeatureCount (env : LoadEnv) (fs : Fs) (dir : Path) (count : Nat) : Prop :=
  ∀ m, FileHas fs (dir ++ ["featurizer.json".toList]) env.featurizer m →
    ∀ v, FileHas fs (joinPath dir m.tfidfVectorizer ++ ["vectorizer.json".toList]) env.tfidf v →
      ∀ largest, (v.vocab.map Prod.snd).max? = some largest →
        (m.cooccurrenceVectorizer = none → count = largest + 1) ∧
        ∀ name, m.cooccurrenceVectorizer = some name →
          ∀ c, FileHas fs (joinPath dir name ++ ["vectorizer.json".toList]) env.cooc c →
            count = largest + 1 + c.wordPairs.length

/-- The directory of a classifier: the first row of coefficients has one for each feature. -/
def ClassifierFiles (env : LoadEnv) (fs : Fs) (dir : Path) : Prop :=
  ∀ m, FileHas fs (dir ++ ["intent_classifier.json".toList]) env.classifier m → ∀ name, m.featurizer = some name →
    FeaturizerFiles env fs (joinPath dir name) ∧
    ∀ coeffs first, m.coeffs = some coeffs → coeffs[0]? = some first → FeatureCount env fs (joinPath dir name) first.length

/-- The directory of a slot filler: its tagger does not fail and answers with at most one tag per token, and the tags can be
decoded and name slots of the filler, whose entities exist. -/
def SlotFillerFiles (env : LoadEnv) (dataset : DatasetMetadata) (fs : Fs) (dir : Path) : Prop :=
  ∀ m, FileHas fs (dir ++ ["slot_filler.json".toList]) env.slotFiller m → ∀ name, m.crfModelFile = some name →
    ∀ tagger, FileHas fs (joinPath dir name) env.tagger tagger → ∀ features, ∃ encoded, tagger.tag features = .ok encoded ∧
      encoded.length ≤ features.length ∧ ∀ x ∈ encoded, ∃ tag, env.codec.decode x = .ok tag ∧
        (tag = "O".toList ∨ ∃ entity, m.slotNameMapping.get (tag.drop 2) = some entity ∧ Resolvable dataset env.names entity)

/-- The directory of a parser, according to the kind announced by its metadata; a probabilistic parser lists a slot filler for
every intent of its classifier. -/
structure ParserFiles (env : LoadEnv) (dataset : DatasetMetadata) (fs : Fs) (dir : Path) : Prop where
  lookup : UnitAt env fs dir .lookupIntentParser →
    ∀ m, FileHas fs (dir ++ ["intent_parser.json".toList]) env.lookup m → m.Valid env dataset
  deterministic : UnitAt env fs dir .deterministicIntentParser →
    ∀ m, FileHas fs (dir ++ ["intent_parser.json".toList]) env.deterministic m → m.Valid env dataset
  probabilistic : UnitAt env fs dir .probabilisticIntentParser →
    ∀ m, FileHas fs (dir ++ ["intent_parser.json".toList]) env.probabilistic m →
      ClassifierFiles env fs (dir ++ ["intent_classifier".toList]) ∧
      (∀ e ∈ m, SlotFillerFiles env dataset fs (joinPath dir e.2)) ∧
      ∀ c, FileHas fs (dir ++ ["intent_classifier".toList] ++ ["intent_classifier.json".toList]) env.classifier c →
        ∀ intent, some intent ∈ c.intentList → ∃ e ∈ m, e.1 = intent

/-- The directory of an engine: so are all its parsers. -/
def ValidFiles (env : LoadEnv) (fs : Fs) (dir : Path) : Prop :=
  ∀ m, FileHas fs (dir ++ ["nlu_engine.json".toList]) env.engine m → ∀ parser ∈ m.intentParsers,
    ParserFiles env m.dataset fs (joinPath dir parser)

/-- What may be asked of an engine at a time: the windows and n-grams of its parsers are small enough for the text; the lists
of intents name trained ones; all parsers know the intent whose slots are asked for, and the intents of alternatives; the slot
asked for is one of the dataset, with an entity that exists. -/
def LoadedEngine.Fair (e : LoadedEngine) (names : KindNames) (time : Nat) : EngineCall → Prop
  | .parse _ input whitelist blacklist intents _ => (∀ p ∈ e.parsers, p.Small (e.ext.world time) input) ∧
      (e.engine names).FilterKnown whitelist blacklist ∧
      (intents = 0 ∨ ∀ p ∈ e.parsers, ∀ intent, p.Ranks intent → ∀ q ∈ e.parsers, q.Knows intent)
  | .intents _ input => ∀ p ∈ e.parsers, p.Small (e.ext.world time) input
  | .slots _ input intent _ => (∀ p ∈ e.parsers, p.Small (e.ext.world time) input) ∧ ∀ p ∈ e.parsers, p.Knows intent
  | .extract _ intent slot _ =>
      ∃ mapping entity, e.dataset.slotNameMappings.get intent = some mapping ∧ Map.get mapping slot = some entity ∧
        Resolvable e.dataset names entity

end Snips
