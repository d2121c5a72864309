import Mathlib.Data.List.Forall2
import Mathlib.Data.Nat.Digits.Defs
import Verif.Spec.Resources
import Verif.Model.Decode

/-! What a JSON document must look like to describe a part of a model.

Relations between documents and the values they describe, in terms of the constructors of documents only. -/

namespace Snips

/-! ### Kinds of documents -/

/-- A text. -/
def TextDoc (j : Json) (t : Text) : Prop := j = .str t

/-- A Boolean. -/
def BoolDoc (j : Json) (b : Bool) : Prop := j = .bool b

/-- A natural number below a bound. -/
def NatDoc (bound : Nat) (j : Json) (n : Nat) : Prop := j = .int n ∧ n < bound

/-- An integer of 32 bits. -/
def IntDoc (j : Json) (n : Int) : Prop := j = .int n ∧ -2 ^ 31 ≤ n ∧ n < 2 ^ 31

/-- A number, rounded to single precision. -/
def FloatDoc (rd : Rounding) (j : Json) (q : ℚ) : Prop :=
  (∃ n : Int, j = .int n ∧ q = rd.rnd n) ∨ ∃ x : ℚ, j = .float x ∧ q = rd.rnd x

/-- Any document. -/
def AnyDoc (j v : Json) : Prop := v = j

/-- `null`, or something else. -/
def OptionDoc {α : Type} (P : Json → α → Prop) (j : Json) (o : Option α) : Prop :=
  (j = .null ∧ o = none) ∨ (j ≠ .null ∧ ∃ a, P j a ∧ o = some a)

/-- An array. -/
def ListDoc {α : Type} (P : Json → α → Prop) (j : Json) (l : List α) : Prop :=
  ∃ items, j = .arr items ∧ List.Forall₂ P items l

/-- An array of two elements. -/
def PairDoc {α β : Type} (P : Json → α → Prop) (Q : Json → β → Prop) (j : Json) (p : α × β) : Prop :=
  ∃ x y, j = .arr [x, y] ∧ P x p.1 ∧ Q y p.2

/-- An object used as a table: each of its names is a key, and a key that is repeated has its last value. -/
def MapDoc {κ ν : Type} [DecidableEq κ] (K : Text → κ → Prop) (P : Json → ν → Prop) (j : Json) (m : Map κ ν) : Prop :=
  ∃ entries pairs, j = .obj entries ∧
    List.Forall₂ (fun (e : Text × Json) (p : κ × ν) => K e.1 p.1 ∧ P e.2 p.2) entries pairs ∧
    m.keys.Nodup ∧
    ∀ k v, m.get k = some v ↔ ∃ before after, pairs = before ++ (k, v) :: after ∧ ∀ p ∈ after, p.1 ≠ k

/-- A key that is a text. -/
def TextKey (t k : Text) : Prop := k = t

/-- The text is a numeral in base ten. -/
def Numeral (t : Text) (n : Nat) : Prop :=
  t ≠ [] ∧ (∀ c ∈ t, '0' ≤ c ∧ c ≤ '9') ∧ Nat.ofDigits 10 (t.reverse.map digitOf) = n

/-- A key that is a natural number of 64 bits. -/
def NatKey (t : Text) (n : Nat) : Prop := n < 2 ^ 64 ∧ (Numeral t n ∨ ∃ d, t = '+' :: d ∧ Numeral d n)

/-- A key that is an integer of 32 bits. -/
def IntKey (t : Text) (i : Int) : Prop :=
  -2 ^ 31 ≤ i ∧ i < 2 ^ 31 ∧ ∃ n : Nat,
    (i = n ∧ (Numeral t n ∨ ∃ d, t = '+' :: d ∧ Numeral d n)) ∨ (i = -n ∧ ∃ d, t = '-' :: d ∧ Numeral d n)

/-! ### Records -/

/-- A record with these fields: an object in which none of them is repeated, or an array with at most as many elements. -/
def RecordDoc (names : List String) (j : Json) : Prop :=
  (∃ entries, j = .obj entries ∧ entries.Pairwise fun e e' => e.1 = e'.1 → e.1 ∉ names.map String.toList) ∨
  ∃ items, j = .arr items ∧ items.length ≤ names.length

/-- The value of a field of a record: the entry of that name, or the element in the place of the field. -/
def FieldIs (names : List String) (j : Json) (name : String) (v : Json) : Prop :=
  (∃ entries, j = .obj entries ∧ (name.toList, v) ∈ entries) ∨
  ∃ (items : List Json) (i : Nat), j = .arr items ∧ names[i]? = some name ∧ items[i]? = some v

/-- A field that must be there. -/
def Required {α : Type} (names : List String) (j : Json) (name : String) (P : Json → α → Prop) (a : α) : Prop :=
  ∃ v, FieldIs names j name v ∧ P v a

/-- A field that may be `null`, or absent if the record is an object. -/
def Optional {α : Type} (names : List String) (j : Json) (name : String) (P : Json → α → Prop) (o : Option α) : Prop :=
  (∃ v, FieldIs names j name v ∧ OptionDoc P v o) ∨
  ((∀ v, ¬ FieldIs names j name v) ∧ (∃ entries, j = .obj entries) ∧ o = none)

/-- A field that has a default value when it is absent. -/
def Defaulted {α : Type} (names : List String) (j : Json) (name : String)
    (P : Json → α → Prop) (default a : α) : Prop :=
  (∃ v, FieldIs names j name v ∧ P v a) ∨ ((∀ v, ¬ FieldIs names j name v) ∧ a = default)

/-! ### The documents of a model -/

/-- The name of a processing unit. -/
inductive UnitName : String → UnitKind → Prop
  | deterministic : UnitName "deterministic_intent_parser" .deterministicIntentParser
  | lookup : UnitName "lookup_intent_parser" .lookupIntentParser
  | probabilistic : UnitName "probabilistic_intent_parser" .probabilisticIntentParser
  | slotFiller : UnitName "crf_slot_filler" .crfSlotFiller
  | classifier : UnitName "log_reg_intent_classifier" .logRegIntentClassifier

/-- `metadata.json` of a processing unit: an object with the name of the unit once, or an array that begins with it. -/
def UnitDoc (j : Json) (u : UnitKind) : Prop :=
  ∃ name, UnitName name u ∧
    ((∃ before after, j = .obj (before ++ ("unit_name".toList, .str name.toList) :: after) ∧
        ∀ e ∈ before ++ after, e.1 ≠ "unit_name".toList) ∨
      ∃ rest, j = .arr (.str name.toList :: rest))

/-- Fields of `VersionDoc`, in the order of their declaration. -/
def versionFields : List String :=
  ["model_version"]

/-- `nlu_engine.json`, read for the version of the model only. -/
structure VersionDoc (j : Json) (m : Text) : Prop where
  record : RecordDoc versionFields j
  modelVersion : Required versionFields j "model_version" TextDoc m

/-- Fields of `EntityDoc`, in the order of their declaration. -/
def entityFields : List String :=
  ["automatically_extensible"]

/-- What the dataset says of an entity. -/
structure EntityDoc (j : Json) (m : Bool) : Prop where
  record : RecordDoc entityFields j
  automaticallyExtensible : Required entityFields j "automatically_extensible" BoolDoc m

/-- Fields of `DatasetDoc`, in the order of their declaration. -/
def datasetFields : List String :=
  ["language_code", "entities", "slot_name_mappings"]

/-- `dataset_metadata`. -/
structure DatasetDoc (j : Json) (m : Text × DatasetMetadata) : Prop where
  record : RecordDoc datasetFields j
  languageCode : Required datasetFields j "language_code" TextDoc m.1
  entities : Required datasetFields j "entities" (MapDoc TextKey EntityDoc) m.2.entities
  slotNameMappings :
    Required datasetFields j "slot_name_mappings" (MapDoc TextKey (MapDoc TextKey TextDoc)) m.2.slotNameMappings

/-- Fields of `EngineDoc`, in the order of their declaration. -/
def engineFields : List String :=
  ["dataset_metadata", "intent_parsers", "model_version", "training_package_version",
    "builtin_entity_parser", "custom_entity_parser"]

/-- `nlu_engine.json`. -/
structure EngineDoc (j : Json) (m : EngineJson) : Prop where
  record : RecordDoc engineFields j
  datasetMetadata : Required engineFields j "dataset_metadata" DatasetDoc (m.languageCode, m.dataset)
  intentParsers : Required engineFields j "intent_parsers" (ListDoc TextDoc) m.intentParsers
  modelVersion : ∃ a, Required engineFields j "model_version" TextDoc a
  trainingPackageVersion : ∃ a, Required engineFields j "training_package_version" TextDoc a
  builtinEntityParser : Required engineFields j "builtin_entity_parser" TextDoc m.builtinEntityParser
  customEntityParser : Required engineFields j "custom_entity_parser" TextDoc m.customEntityParser

/-- Fields of `ResourcesDoc`, in the order of their declaration. -/
def resourcesFields : List String :=
  ["language", "gazetteers", "word_clusters", "stems", "stop_words"]

/-- `metadata.json` of the resources. -/
structure ResourcesDoc (j : Json) (m : ResourcesJson) : Prop where
  record : RecordDoc resourcesFields j
  language : ∃ a, Required resourcesFields j "language" TextDoc a
  gazetteers : Optional resourcesFields j "gazetteers" (ListDoc TextDoc) m.gazetteers
  wordClusters : Optional resourcesFields j "word_clusters" (ListDoc TextDoc) m.wordClusters
  stems : Optional resourcesFields j "stems" TextDoc m.stems
  stopWords : Optional resourcesFields j "stop_words" TextDoc m.stopWords

/-- How the parser of custom entities uses stems: 0, 1 or 2. -/
def UsageDoc (j : Json) (u : StemUsage) : Prop :=
  (j = .int 0 ∧ u = .withStems) ∨ (j = .int 1 ∧ u = .withoutStems) ∨ (j = .int 2 ∧ u = .withAndWithoutStems)

/-- Fields of `CustomParserDoc`, in the order of their declaration. -/
def customParserFields : List String :=
  ["language", "parser_directory", "parser_usage"]

/-- `metadata.json` of the parser of custom entities. -/
structure CustomParserDoc (j : Json) (m : CustomParserJson) : Prop where
  record : RecordDoc customParserFields j
  language : Required customParserFields j "language" TextDoc m.language
  parserDirectory : Required customParserFields j "parser_directory" TextDoc m.parserDirectory
  parserUsage : Required customParserFields j "parser_usage" UsageDoc m.usage

/-- Fields of `EntityScopeDoc`, in the order of their declaration. -/
def entityScopeFields : List String :=
  ["builtin", "custom"]

/-- `entity_scope`: builtin and custom entities. -/
structure EntityScopeDoc (j : Json) (m : List Text × List Text) : Prop where
  record : RecordDoc entityScopeFields j
  builtin : Required entityScopeFields j "builtin" (ListDoc TextDoc) m.1
  custom : Required entityScopeFields j "custom" (ListDoc TextDoc) m.2

/-- Fields of `ScopeDoc`, in the order of their declaration. -/
def scopeFields : List String :=
  ["intent_group", "entity_scope"]

/-- The entities of a group of intents. -/
structure ScopeDoc (j : Json) (m : GroupedScope) : Prop where
  record : RecordDoc scopeFields j
  intentGroup : Required scopeFields j "intent_group" (ListDoc TextDoc) m.intentGroup
  entityScope : Required scopeFields j "entity_scope" EntityScopeDoc (m.builtin, m.custom)

/-- Fields of `IgnoreStopWordsDoc`, in the order of their declaration. -/
def ignoreStopWordsFields : List String :=
  ["ignore_stop_words"]

/-- `config` of a rule-based parser. -/
structure IgnoreStopWordsDoc (j : Json) (m : Bool) : Prop where
  record : RecordDoc ignoreStopWordsFields j
  ignoreStopWords : Defaulted ignoreStopWordsFields j "ignore_stop_words" BoolDoc false m

/-- Fields of `LookupDoc`, in the order of their declaration. -/
def lookupFields : List String :=
  ["language_code", "slots_names", "intents_names", "map", "entity_scopes", "stop_words_whitelist", "config"]

/-- `intent_parser.json` of a lookup parser. -/
structure LookupDoc (j : Json) (m : LookupJson) : Prop where
  record : RecordDoc lookupFields j
  languageCode : Required lookupFields j "language_code" TextDoc m.languageCode
  slotsNames : Required lookupFields j "slots_names" (ListDoc TextDoc) m.slotsNames
  intentsNames : Required lookupFields j "intents_names" (ListDoc TextDoc) m.intentsNames
  map : Required lookupFields j "map" (MapDoc IntKey (PairDoc IntDoc (ListDoc IntDoc))) m.map
  entityScopes : Required lookupFields j "entity_scopes" (ListDoc ScopeDoc) m.entityScopes
  stopWordsWhitelist :
    Required lookupFields j "stop_words_whitelist" (MapDoc TextKey (ListDoc TextDoc)) m.stopWordsWhitelist
  config : Required lookupFields j "config" IgnoreStopWordsDoc m.ignoreStopWords

/-- Fields of `DeterministicDoc`, in the order of their declaration. -/
def deterministicFields : List String :=
  ["language_code", "patterns", "group_names_to_slot_names", "slot_names_to_entities", "stop_words_whitelist", "config"]

/-- `intent_parser.json` of a deterministic parser. -/
structure DeterministicDoc (j : Json) (m : DetJson) : Prop where
  record : RecordDoc deterministicFields j
  languageCode : Required deterministicFields j "language_code" TextDoc m.languageCode
  patterns : Required deterministicFields j "patterns" (MapDoc TextKey (ListDoc TextDoc)) m.patterns
  groupNamesToSlotNames :
    Required deterministicFields j "group_names_to_slot_names" (MapDoc TextKey TextDoc) m.groupNamesToSlotNames
  slotNamesToEntities :
    Required deterministicFields j "slot_names_to_entities" (MapDoc TextKey (MapDoc TextKey TextDoc)) m.slotNamesToEntities
  stopWordsWhitelist :
    Defaulted deterministicFields j "stop_words_whitelist" (MapDoc TextKey (ListDoc TextDoc)) [] m.stopWordsWhitelist
  config : Required deterministicFields j "config" IgnoreStopWordsDoc m.ignoreStopWords

/-- Fields of `SlotFillerNameDoc`, in the order of their declaration. -/
def slotFillerNameFields : List String :=
  ["intent", "slot_filler_name"]

/-- An intent and the name of its slot filler. -/
structure SlotFillerNameDoc (j : Json) (m : Text × Text) : Prop where
  record : RecordDoc slotFillerNameFields j
  intent : Required slotFillerNameFields j "intent" TextDoc m.1
  slotFillerName : Required slotFillerNameFields j "slot_filler_name" TextDoc m.2

/-- Fields of `ProbabilisticDoc`, in the order of their declaration. -/
def probabilisticFields : List String :=
  ["slot_fillers"]

/-- `intent_parser.json` of a probabilistic parser. -/
structure ProbabilisticDoc (j : Json) (m : List (Text × Text)) : Prop where
  record : RecordDoc probabilisticFields j
  slotFillers : Required probabilisticFields j "slot_fillers" (ListDoc SlotFillerNameDoc) m

/-- Fields of `ClassifierDoc`, in the order of their declaration. -/
def classifierFields : List String :=
  ["featurizer", "intercept", "coeffs", "intent_list"]

/-- `intent_classifier.json`. -/
structure ClassifierDoc (rd : Rounding) (j : Json) (m : ClassifierJson) : Prop where
  record : RecordDoc classifierFields j
  featurizer : Optional classifierFields j "featurizer" TextDoc m.featurizer
  intercept : Optional classifierFields j "intercept" (ListDoc (FloatDoc rd)) m.intercept
  coeffs : Optional classifierFields j "coeffs" (ListDoc (ListDoc (FloatDoc rd))) m.coeffs
  intentList : Required classifierFields j "intent_list" (ListDoc (OptionDoc TextDoc)) m.intentList

/-- Fields of `FeaturizerDoc`, in the order of their declaration. -/
def featurizerFields : List String :=
  ["language_code", "tfidf_vectorizer", "cooccurrence_vectorizer"]

/-- `featurizer.json`. -/
structure FeaturizerDoc (j : Json) (m : FeaturizerJson) : Prop where
  record : RecordDoc featurizerFields j
  languageCode : ∃ a, Required featurizerFields j "language_code" TextDoc a
  tfidfVectorizer : Required featurizerFields j "tfidf_vectorizer" TextDoc m.tfidfVectorizer
  cooccurrenceVectorizer : Optional featurizerFields j "cooccurrence_vectorizer" TextDoc m.cooccurrenceVectorizer

/-- Fields of `VectorizerDoc`, in the order of their declaration. -/
def vectorizerFields : List String :=
  ["idf_diag", "vocab"]

/-- `vectorizer`: weights, and the place of each word. -/
structure VectorizerDoc (rd : Rounding) (j : Json) (m : List ℚ × Map Text Nat) : Prop where
  record : RecordDoc vectorizerFields j
  idfDiag : Required vectorizerFields j "idf_diag" (ListDoc (FloatDoc rd)) m.1
  vocab : Required vectorizerFields j "vocab" (MapDoc TextKey (NatDoc (2 ^ 64))) m.2

/-- Fields of `TfidfConfigDoc`, in the order of their declaration. -/
def tfidfConfigFields : List String :=
  ["use_stemming", "word_clusters_name"]

/-- `config` of a tf-idf vectorizer. -/
structure TfidfConfigDoc (j : Json) (m : Bool × Option Text) : Prop where
  record : RecordDoc tfidfConfigFields j
  useStemming : Required tfidfConfigFields j "use_stemming" BoolDoc m.1
  wordClustersName : Optional tfidfConfigFields j "word_clusters_name" TextDoc m.2

/-- Fields of `TfidfDoc`, in the order of their declaration. -/
def tfidfFields : List String :=
  ["language_code", "builtin_entity_scope", "vectorizer", "config"]

/-- `vectorizer.json` of a tf-idf vectorizer. -/
structure TfidfDoc (rd : Rounding) (j : Json) (m : TfidfJson) : Prop where
  record : RecordDoc tfidfFields j
  languageCode : Required tfidfFields j "language_code" TextDoc m.languageCode
  builtinEntityScope : Required tfidfFields j "builtin_entity_scope" (ListDoc TextDoc) m.builtinEntityScope
  vectorizer : Required tfidfFields j "vectorizer" (VectorizerDoc rd) (m.idfDiag, m.vocab)
  config : Required tfidfFields j "config" TfidfConfigDoc (m.useStemming, m.wordClustersName)

/-- Fields of `CoocConfigDoc`, in the order of their declaration. -/
def coocConfigFields : List String :=
  ["window_size", "filter_stop_words", "keep_order", "unknown_words_replacement_string"]

/-- `config` of a co-occurrence vectorizer. -/
structure CoocConfigDoc (j : Json) (m : Option Nat × Bool × Bool × Option Text) : Prop where
  record : RecordDoc coocConfigFields j
  windowSize : Optional coocConfigFields j "window_size" (NatDoc (2 ^ 64)) m.1
  filterStopWords : Required coocConfigFields j "filter_stop_words" BoolDoc m.2.1
  keepOrder : Required coocConfigFields j "keep_order" BoolDoc m.2.2.1
  unknownWordsReplacementString : Optional coocConfigFields j "unknown_words_replacement_string" TextDoc m.2.2.2

/-- Fields of `CoocDoc`, in the order of their declaration. -/
def coocFields : List String :=
  ["language_code", "builtin_entity_scope", "word_pairs", "config"]

/-- `vectorizer.json` of a co-occurrence vectorizer. -/
structure CoocDoc (j : Json) (m : CoocJson) : Prop where
  record : RecordDoc coocFields j
  languageCode : Required coocFields j "language_code" TextDoc m.languageCode
  builtinEntityScope : Required coocFields j "builtin_entity_scope" (ListDoc TextDoc) m.builtinEntityScope
  wordPairs : Required coocFields j "word_pairs" (MapDoc NatKey (PairDoc TextDoc TextDoc)) m.wordPairs
  config : Required coocFields j "config" CoocConfigDoc (m.windowSize, m.filterStopWords, m.keepOrder, m.unknownWord)

/-- Fields of `FactoryDoc`, in the order of their declaration. -/
def factoryFields : List String :=
  ["factory_name", "offsets", "args"]

/-- The configuration of a feature factory. -/
structure FactoryDoc (j : Json) (m : FactoryConfig) : Prop where
  record : RecordDoc factoryFields j
  factoryName : Required factoryFields j "factory_name" TextDoc m.factoryName
  offsets : Required factoryFields j "offsets" (ListDoc IntDoc) m.offsets
  args : Required factoryFields j "args" (MapDoc TextKey AnyDoc) m.args

/-- Fields of `SlotFillerConfigDoc`, in the order of their declaration. -/
def slotFillerConfigFields : List String :=
  ["tagging_scheme", "feature_factory_configs"]

/-- `config` of a slot filler. -/
structure SlotFillerConfigDoc (j : Json) (m : Nat × List FactoryConfig) : Prop where
  record : RecordDoc slotFillerConfigFields j
  taggingScheme : Required slotFillerConfigFields j "tagging_scheme" (NatDoc (2 ^ 8)) m.1
  featureFactoryConfigs : Required slotFillerConfigFields j "feature_factory_configs" (ListDoc FactoryDoc) m.2

/-- Fields of `SlotFillerDoc`, in the order of their declaration. -/
def slotFillerFields : List String :=
  ["language_code", "intent", "slot_name_mapping", "crf_model_file", "config"]

/-- `slot_filler.json`. -/
structure SlotFillerDoc (j : Json) (m : SlotFillerJson) : Prop where
  record : RecordDoc slotFillerFields j
  languageCode : Required slotFillerFields j "language_code" TextDoc m.languageCode
  intent : ∃ a, Required slotFillerFields j "intent" TextDoc a
  slotNameMapping : Required slotFillerFields j "slot_name_mapping" (MapDoc TextKey TextDoc) m.slotNameMapping
  crfModelFile : Optional slotFillerFields j "crf_model_file" TextDoc m.crfModelFile
  config : Required slotFillerFields j "config" SlotFillerConfigDoc (m.taggingScheme, m.featureFactoryConfigs)

/-! ### Reading -/

/-- The decoder accepts exactly the inputs that describe something, and then answers something they describe; it never
panics. -/
structure Reads {ι α : Type} (decode : ι → Outcome α) (P : ι → α → Prop) : Prop where
  sound : ∀ j a, decode j = .ok a → P j a
  complete : ∀ j a, P j a → ∃ a', decode j = .ok a'
  safe : ∀ j, decode j ≠ .panic

end Snips
