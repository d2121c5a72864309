import Verif.Model.FeatureFactory
import Verif.Model.Lookup
import Verif.Model.Engine

/-! # Contents of the model files

The structures of src/models, src/resources/loading.rs and src/entity_parser/custom_entity_parser.rs and their decoding
from JSON (`#[derive(Deserialize)]`), as `Json` describes it. -/

namespace Snips


/-- `ProcessingUnitMetadata` (src/models/processing_unit_metadata.rs:3-12). -/
inductive UnitKind where
  | deterministicIntentParser
  | lookupIntentParser
  | probabilisticIntentParser
  | crfSlotFiller
  | logRegIntentClassifier
deriving DecidableEq, Repr

/-- `ProcessingUnitMetadata::deserialize` (src/models/processing_unit_metadata.rs:3-12): the attributes `tag` and
`rename_all` of the enumeration. -/
def decodeUnit (j : Json) : Outcome UnitKind := do
  let name ← j.tag "unit_name".toList
  let name ← name.text
  if name = "deterministic_intent_parser".toList then .ok .deterministicIntentParser
  else if name = "lookup_intent_parser".toList then .ok .lookupIntentParser
  else if name = "probabilistic_intent_parser".toList then .ok .probabilisticIntentParser
  else if name = "crf_slot_filler".toList then .ok .crfSlotFiller
  else if name = "log_reg_intent_classifier".toList then .ok .logRegIntentClassifier
  else jsonError

/-- `ModelVersion` (src/models/nlu_engine.rs:7-10). -/
def decodeVersion (j : Json) : Outcome Text := do
  let s ← j.fields (["model_version"].map String.toList)
  s.required "model_version" Json.text

/-- `Entity` (src/models/nlu_engine.rs:29-32). -/
def decodeEntity (j : Json) : Outcome Bool := do
  let s ← j.fields (["automatically_extensible"].map String.toList)
  s.required "automatically_extensible" Json.boolean

/-- Text of a key. -/
def textKey (t : Text) : Outcome Text := .ok t

/-- `HashMap<String, HashMap<String, String>>`. -/
def decodeSlotMappings (j : Json) : Outcome (Map Text (Map Text Text)) :=
  j.hashMap textKey fun v => v.hashMap textKey Json.text

/-- `DatasetMetadata` (src/models/nlu_engine.rs:22-27), with the language code. -/
def decodeDataset (j : Json) : Outcome (Text × DatasetMetadata) := do
  let s ← j.fields (["language_code", "entities", "slot_name_mappings"].map String.toList)
  let language ← s.required "language_code" Json.text
  let entities ← s.required "entities" fun v => v.hashMap textKey decodeEntity
  let mappings ← s.required "slot_name_mappings" decodeSlotMappings
  .ok (language, ⟨entities, mappings⟩)

/-- `NluEngineModel` (src/models/nlu_engine.rs:12-20); the training package version is not used. -/
structure EngineJson where
  languageCode : Text
  dataset : DatasetMetadata
  intentParsers : List Text
  builtinEntityParser : Text
  customEntityParser : Text

/-- `NluEngineModel` (src/models/nlu_engine.rs:12-20). -/
def decodeEngine (j : Json) : Outcome EngineJson := do
  let s ← j.fields (["dataset_metadata", "intent_parsers", "model_version", "training_package_version",
    "builtin_entity_parser", "custom_entity_parser"].map String.toList)
  let dataset ← s.required "dataset_metadata" decodeDataset
  let parsers ← s.required "intent_parsers" fun v => v.vec Json.text
  let _ ← s.required "model_version" Json.text
  let _ ← s.required "training_package_version" Json.text
  let builtin ← s.required "builtin_entity_parser" Json.text
  let custom ← s.required "custom_entity_parser" Json.text
  .ok ⟨dataset.1, dataset.2, parsers, builtin, custom⟩

/-- `ResourcesMetadata` (src/resources/loading.rs:21-28); the language is not used. -/
structure ResourcesJson where
  gazetteers : Option (List Text)
  wordClusters : Option (List Text)
  stems : Option Text
  stopWords : Option Text

/-- `ResourcesMetadata` (src/resources/loading.rs:21-28). -/
def decodeResources (j : Json) : Outcome ResourcesJson := do
  let s ← j.fields (["language", "gazetteers", "word_clusters", "stems", "stop_words"].map String.toList)
  let _ ← s.required "language" Json.text
  let gazetteers ← s.optional "gazetteers" fun v => v.vec Json.text
  let clusters ← s.optional "word_clusters" fun v => v.vec Json.text
  let stems ← s.optional "stems" Json.text
  let stopWords ← s.optional "stop_words" Json.text
  .ok ⟨gazetteers, clusters, stems, stopWords⟩

/-- `CustomEntityParserUsage` (src/entity_parser/custom_entity_parser.rs:33-38). -/
inductive StemUsage where
  | withStems
  | withoutStems
  | withAndWithoutStems
deriving DecidableEq, Repr

/-- `CustomEntityParserUsage::deserialize` (src/entity_parser/custom_entity_parser.rs:40-53). -/
def decodeUsage (j : Json) : Outcome StemUsage := do
  let code ← j.natBelow 256
  match code with
  | 0 => .ok .withStems
  | 1 => .ok .withoutStems
  | 2 => .ok .withAndWithoutStems
  | _ => jsonError

/-- `CustomEntityParserMetadata` (src/entity_parser/custom_entity_parser.rs:155-160). -/
structure CustomParserJson where
  language : Text
  parserDirectory : Text
  usage : StemUsage

/-- `CustomEntityParserMetadata` (src/entity_parser/custom_entity_parser.rs:155-160). -/
def decodeCustomParser (j : Json) : Outcome CustomParserJson := do
  let s ← j.fields (["language", "parser_directory", "parser_usage"].map String.toList)
  let language ← s.required "language" Json.text
  let directory ← s.required "parser_directory" Json.text
  let usage ← s.required "parser_usage" decodeUsage
  .ok ⟨language, directory, usage⟩

/-- `LookupParserModel` (src/models/intent_parser.rs:22-31). -/
structure LookupJson where
  languageCode : Text
  slotsNames : List Text
  intentsNames : List Text
  map : Map Int (Int × List Int)
  entityScopes : List GroupedScope
  stopWordsWhitelist : Map Text (List Text)
  ignoreStopWords : Bool

/-- `EntityScope` (src/models/intent_parser.rs:39-43). -/
def decodeEntityScope (j : Json) : Outcome (List Text × List Text) := do
  let s ← j.fields (["builtin", "custom"].map String.toList)
  let builtin ← s.required "builtin" fun v => v.vec Json.text
  let custom ← s.required "custom" fun v => v.vec Json.text
  .ok (builtin, custom)

/-- `GroupedEntityScope` (src/models/intent_parser.rs:33-37). -/
def decodeScope (j : Json) : Outcome GroupedScope := do
  let s ← j.fields (["intent_group", "entity_scope"].map String.toList)
  let group ← s.required "intent_group" fun v => v.vec Json.text
  let scope ← s.required "entity_scope" decodeEntityScope
  .ok ⟨group, scope.1, scope.2⟩

/-- `LookupParserConfig` and `DeterministicParserConfig` (src/models/intent_parser.rs:45-55). -/
def decodeIgnoreStopWords (j : Json) : Outcome Bool := do
  let s ← j.fields (["ignore_stop_words"].map String.toList)
  s.orDefault "ignore_stop_words" Json.boolean false

/-- `HashMap<IntentName, Vec<String>>`. -/
def decodeWordLists (j : Json) : Outcome (Map Text (List Text)) := j.hashMap textKey fun v => v.vec Json.text

/-- `LookupParserModel` (src/models/intent_parser.rs:22-31). -/
def decodeLookup (j : Json) : Outcome LookupJson := do
  let s ← j.fields (["language_code", "slots_names", "intents_names", "map", "entity_scopes", "stop_words_whitelist",
    "config"].map String.toList)
  let language ← s.required "language_code" Json.text
  let slots ← s.required "slots_names" fun v => v.vec Json.text
  let intents ← s.required "intents_names" fun v => v.vec Json.text
  let map ← s.required "map" fun v => v.hashMap Json.i32Key fun x => x.pair Json.i32 fun y => y.vec Json.i32
  let scopes ← s.required "entity_scopes" fun v => v.vec decodeScope
  let whitelist ← s.required "stop_words_whitelist" decodeWordLists
  let ignore ← s.required "config" decodeIgnoreStopWords
  .ok ⟨language, slots, intents, map, scopes, whitelist, ignore⟩

/-- `DeterministicParserModel` (src/models/intent_parser.rs:11-20). -/
structure DetJson where
  languageCode : Text
  patterns : Map Text (List Text)
  groupNamesToSlotNames : Map Text Text
  slotNamesToEntities : Map Text (Map Text Text)
  stopWordsWhitelist : Map Text (List Text)
  ignoreStopWords : Bool

/-- `DeterministicParserModel` (src/models/intent_parser.rs:11-20). -/
def decodeDeterministic (j : Json) : Outcome DetJson := do
  let s ← j.fields (["language_code", "patterns", "group_names_to_slot_names", "slot_names_to_entities",
    "stop_words_whitelist", "config"].map String.toList)
  let language ← s.required "language_code" Json.text
  let patterns ← s.required "patterns" decodeWordLists
  let groups ← s.required "group_names_to_slot_names" fun v => v.hashMap textKey Json.text
  let slots ← s.required "slot_names_to_entities" decodeSlotMappings
  let whitelist ← s.orDefault "stop_words_whitelist" decodeWordLists []
  let ignore ← s.required "config" decodeIgnoreStopWords
  .ok ⟨language, patterns, groups, slots, whitelist, ignore⟩

/-- `SlotFillerMetadata` (src/models/intent_parser.rs:62-66): the intent and the name of the slot filler. -/
def decodeSlotFillerName (j : Json) : Outcome (Text × Text) := do
  let s ← j.fields (["intent", "slot_filler_name"].map String.toList)
  let intent ← s.required "intent" Json.text
  let name ← s.required "slot_filler_name" Json.text
  .ok (intent, name)

/-- `ProbabilisticParserModel` (src/models/intent_parser.rs:57-60). -/
def decodeProbabilistic (j : Json) : Outcome (List (Text × Text)) := do
  let s ← j.fields (["slot_fillers"].map String.toList)
  s.required "slot_fillers" fun v => v.vec decodeSlotFillerName

/-- `IntentClassifierModel` (src/models/intent_classifier.rs:7-13). -/
structure ClassifierJson where
  featurizer : Option Text
  intercept : Option (List ℚ)
  coeffs : Option (List (List ℚ))
  intentList : List (Option Text)

/-- `IntentClassifierModel` (src/models/intent_classifier.rs:7-13). -/
def decodeClassifier (rd : Rounding) (j : Json) : Outcome ClassifierJson := do
  let s ← j.fields (["featurizer", "intercept", "coeffs", "intent_list"].map String.toList)
  let featurizer ← s.optional "featurizer" Json.text
  let intercept ← s.optional "intercept" fun v => v.vec (Json.f32 rd)
  let coeffs ← s.optional "coeffs" fun v => v.vec fun x => x.vec (Json.f32 rd)
  let intents ← s.required "intent_list" fun v => v.vec fun x => x.option Json.text
  .ok ⟨featurizer, intercept, coeffs, intents⟩

/-- `FeaturizerModel` (src/models/intent_classifier.rs:15-20); the language is not used. -/
structure FeaturizerJson where
  tfidfVectorizer : Text
  cooccurrenceVectorizer : Option Text

/-- `FeaturizerModel` (src/models/intent_classifier.rs:15-20). -/
def decodeFeaturizer (j : Json) : Outcome FeaturizerJson := do
  let s ← j.fields (["language_code", "tfidf_vectorizer", "cooccurrence_vectorizer"].map String.toList)
  let _ ← s.required "language_code" Json.text
  let tfidf ← s.required "tfidf_vectorizer" Json.text
  let cooc ← s.optional "cooccurrence_vectorizer" Json.text
  .ok ⟨tfidf, cooc⟩

/-- `TfidfVectorizerModel` (src/models/intent_classifier.rs:22-40). -/
structure TfidfJson where
  languageCode : Text
  builtinEntityScope : List Text
  idfDiag : List ℚ
  vocab : Map Text Nat
  useStemming : Bool
  wordClustersName : Option Text

/-- `SklearnVectorizerModel` (src/models/intent_classifier.rs:36-40). -/
def decodeVectorizer (rd : Rounding) (j : Json) : Outcome (List ℚ × Map Text Nat) := do
  let s ← j.fields (["idf_diag", "vocab"].map String.toList)
  let idf ← s.required "idf_diag" fun v => v.vec (Json.f32 rd)
  let vocab ← s.required "vocab" fun v => v.hashMap textKey (Json.natBelow usizeCount)
  .ok (idf, vocab)

/-- `TfidfVectorizerConfiguration` (src/models/intent_classifier.rs:30-34). -/
def decodeTfidfConfig (j : Json) : Outcome (Bool × Option Text) := do
  let s ← j.fields (["use_stemming", "word_clusters_name"].map String.toList)
  let stemming ← s.required "use_stemming" Json.boolean
  let clusters ← s.optional "word_clusters_name" Json.text
  .ok (stemming, clusters)

/-- `TfidfVectorizerModel` (src/models/intent_classifier.rs:22-28). -/
def decodeTfidf (rd : Rounding) (j : Json) : Outcome TfidfJson := do
  let s ← j.fields (["language_code", "builtin_entity_scope", "vectorizer", "config"].map String.toList)
  let language ← s.required "language_code" Json.text
  let scope ← s.required "builtin_entity_scope" fun v => v.vec Json.text
  let vectorizer ← s.required "vectorizer" (decodeVectorizer rd)
  let config ← s.required "config" decodeTfidfConfig
  .ok ⟨language, scope, vectorizer.1, vectorizer.2, config.1, config.2⟩

/-- `CooccurrenceVectorizerModel` (src/models/intent_classifier.rs:42-56). -/
structure CoocJson where
  languageCode : Text
  builtinEntityScope : List Text
  wordPairs : Map Nat (Text × Text)
  windowSize : Option Nat
  filterStopWords : Bool
  keepOrder : Bool
  unknownWord : Option Text

/-- `CooccurrenceVectorizerConfiguration` (src/models/intent_classifier.rs:50-56): window size, whether stop words are
left out, whether the order matters, replacement of unknown words. -/
def decodeCoocConfig (j : Json) : Outcome (Option Nat × Bool × Bool × Option Text) := do
  let s ← j.fields (["window_size", "filter_stop_words", "keep_order", "unknown_words_replacement_string"].map
    String.toList)
  let window ← s.optional "window_size" (Json.natBelow usizeCount)
  let stopWords ← s.required "filter_stop_words" Json.boolean
  let order ← s.required "keep_order" Json.boolean
  let unknown ← s.optional "unknown_words_replacement_string" Json.text
  .ok (window, stopWords, order, unknown)

/-- `CooccurrenceVectorizerModel` (src/models/intent_classifier.rs:42-48). -/
def decodeCooc (j : Json) : Outcome CoocJson := do
  let s ← j.fields (["language_code", "builtin_entity_scope", "word_pairs", "config"].map String.toList)
  let language ← s.required "language_code" Json.text
  let scope ← s.required "builtin_entity_scope" fun v => v.vec Json.text
  let pairs ← s.required "word_pairs" fun v => v.hashMap Json.usizeKey fun x => x.pair Json.text Json.text
  let config ← s.required "config" decodeCoocConfig
  .ok ⟨language, scope, pairs, config.1, config.2.1, config.2.2.1, config.2.2.2⟩

/-- `SlotFillerModel` (src/models/slot_filler.rs:7-20); the intent is not used. -/
structure SlotFillerJson where
  languageCode : Text
  slotNameMapping : Map Text Text
  crfModelFile : Option Text
  taggingScheme : Nat
  featureFactoryConfigs : List FactoryConfig

/-- `serde_json::Value`: any document. -/
def anyValue (j : Json) : Outcome Json := .ok j

/-- `FeatureFactory` (src/models/slot_filler.rs:22-27). -/
def decodeFactory (j : Json) : Outcome FactoryConfig := do
  let s ← j.fields (["factory_name", "offsets", "args"].map String.toList)
  let name ← s.required "factory_name" Json.text
  let offsets ← s.required "offsets" fun v => v.vec Json.i32
  let args ← s.required "args" fun v => v.hashMap textKey anyValue
  .ok ⟨name, offsets, args⟩

/-- `SlotFillerConfiguration` (src/models/slot_filler.rs:16-20). -/
def decodeSlotFillerConfig (j : Json) : Outcome (Nat × List FactoryConfig) := do
  let s ← j.fields (["tagging_scheme", "feature_factory_configs"].map String.toList)
  let scheme ← s.required "tagging_scheme" (Json.natBelow 256)
  let factories ← s.required "feature_factory_configs" fun v => v.vec decodeFactory
  .ok (scheme, factories)

/-- `SlotFillerModel` (src/models/slot_filler.rs:7-14). -/
def decodeSlotFiller (j : Json) : Outcome SlotFillerJson := do
  let s ← j.fields (["language_code", "intent", "slot_name_mapping", "crf_model_file", "config"].map String.toList)
  let language ← s.required "language_code" Json.text
  let _ ← s.required "intent" Json.text
  let mapping ← s.required "slot_name_mapping" fun v => v.hashMap textKey Json.text
  let file ← s.optional "crf_model_file" Json.text
  let config ← s.required "config" decodeSlotFillerConfig
  .ok ⟨language, mapping, file, config.1, config.2⟩

end Snips
