import Verif.Model.Decode
import Verif.Model.Files
import Verif.Model.Parsers
import Verif.Model.Readers

/-! # Loading of an engine from a directory

src/nlu_engine.rs:34-104, src/resources/loading.rs, and the `from_path` of the parsers, the classifier, the
featurizers and the slot filler. -/

namespace Snips

/-! ### Reading files -/

/-- A computation that reads files: its outcome and the paths it read, in order. -/
def Load (α : Type) := Fs → Outcome α × List Path

namespace Load

/-- A value. -/
def pure {α : Type} (a : α) : Load α := fun _ => (.ok a, [])

/-- The `?` operator. -/
def bind {α β : Type} (m : Load α) (f : α → Load β) : Load β := fun fs =>
  match m fs with
  | (.ok a, t) => ((f a fs).1, t ++ (f a fs).2)
  | (.err e, t) => (.err e, t)
  | (.panic, t) => (.panic, t)

instance : Monad Load where
  pure := pure
  bind := bind

/-- A computation that reads nothing. -/
def lift {α : Type} (o : Outcome α) : Load α := fun _ => (o, [])

/-- `File::open(path)?` and reading of the file by a decoder (`serde_json::from_reader`, `csv`, `lines`;
external). -/
def file {α : Type} (p : Path) (decode : List Nat → Outcome α) : Load α := fun fs =>
  match fs (resolve p) with
  | some (.file bytes) => (decode bytes, [p])
  | _ => (.err (.external 210), [p])

/-- Loading of a directory by a dependency, which sees only what is in it. -/
def directory {α : Type} (p : Path) (decode : Fs → Outcome α) : Load α := fun fs =>
  (decode (fun q => fs (resolve p ++ q)), [p])

/-- `iter.map(f).collect::<Result<Vec<_>>>()`. -/
def mapM {α β : Type} (f : α → Load β) : List α → Load (List β)
  | [] => pure []
  | a :: l => do
    let b ← f a
    let bs ← mapM f l
    pure (b :: bs)

end Load

/-- `path.with_extension("txt")` on a file name (standard library, transcribed): what follows the last dot
is replaced, unless the dot comes first; `..` has no file name and is unchanged. -/
def withTxt (name : Text) : Text :=
  if name = dotDot then name
  else
    let reversed := name.reverse
    let ext := reversed.takeWhile fun c => c ≠ '.'
    let stem := (reversed.drop (ext.length + 1)).reverse
    (if stem = [] then name else stem) ++ ".txt".toList

/-- `path.with_extension("txt")` on a path. -/
def pathWithTxt (p : Path) : Path :=
  match p.getLast? with
  | none => p
  | some name => p.dropLast ++ [withTxt name]

/-- What the loading code takes from its dependencies: parsing of JSON and of CRF models, supported languages with their
text functions, builtin kinds, compilation of regular expressions, and the entity parsers.  All external. -/
structure LoadEnv where
  /-- `serde_json`: the document in a file, if it is one -/
  json : List Nat → Option Json
  tagger : List Nat → Outcome Tagger
  /-- `Language::from_str` with the directory name (`to_string`) and the text functions of the language -/
  language : Text → Outcome (Text × TextFns)
  names : KindNames
  regex : Text → Outcome Regex
  builtinParser : Fs → Outcome ((time : Nat) → Text → Option (List Kind) → Nat → Outcome (List BuiltinEntity))
  gazetteerParser : Fs → Outcome (Text → Option (List Text) → Nat → Outcome (List CustomEntity))
  rd : Rounding
  debugAssertions : Bool
  ops : FloatOps ℚ
  allNgrams : List Text → Nat → List Text
  codec : TagCodec

namespace LoadEnv

/-- `serde_json::from_reader(file)`. -/
def decode {α : Type} (env : LoadEnv) (d : Json → Outcome α) (bytes : List Nat) : Outcome α :=
  match env.json bytes with
  | some j => d j
  | none => jsonError

/-- `serde_json::from_reader::<_, ModelVersion>(file)`. -/
def version (env : LoadEnv) : List Nat → Outcome Text := env.decode decodeVersion

/-- `serde_json::from_reader::<_, NluEngineModel>(file)`. -/
def engine (env : LoadEnv) : List Nat → Outcome EngineJson := env.decode decodeEngine

/-- `serde_json::from_reader::<_, ProcessingUnitMetadata>(file)`. -/
def unit (env : LoadEnv) : List Nat → Outcome UnitKind := env.decode decodeUnit

/-- `serde_json::from_reader::<_, ResourcesMetadata>(file)`. -/
def resources (env : LoadEnv) : List Nat → Outcome ResourcesJson := env.decode decodeResources

/-- `serde_json::from_reader::<_, CustomEntityParserMetadata>(file)`. -/
def customParser (env : LoadEnv) : List Nat → Outcome CustomParserJson := env.decode decodeCustomParser

/-- `serde_json::from_reader::<_, LookupParserModel>(file)`. -/
def lookup (env : LoadEnv) : List Nat → Outcome LookupJson := env.decode decodeLookup

/-- `serde_json::from_reader::<_, DeterministicParserModel>(file)`. -/
def deterministic (env : LoadEnv) : List Nat → Outcome DetJson := env.decode decodeDeterministic

/-- `serde_json::from_reader::<_, ProbabilisticParserModel>(file)`. -/
def probabilistic (env : LoadEnv) : List Nat → Outcome (List (Text × Text)) := env.decode decodeProbabilistic

/-- `serde_json::from_reader::<_, IntentClassifierModel>(file)`. -/
def classifier (env : LoadEnv) : List Nat → Outcome ClassifierJson := env.decode (decodeClassifier env.rd)

/-- `serde_json::from_reader::<_, FeaturizerModel>(file)`. -/
def featurizer (env : LoadEnv) : List Nat → Outcome FeaturizerJson := env.decode decodeFeaturizer

/-- `serde_json::from_reader::<_, TfidfVectorizerModel>(file)`. -/
def tfidf (env : LoadEnv) : List Nat → Outcome TfidfJson := env.decode (decodeTfidf env.rd)

/-- `serde_json::from_reader::<_, CooccurrenceVectorizerModel>(file)`. -/
def cooc (env : LoadEnv) : List Nat → Outcome CoocJson := env.decode decodeCooc

/-- `serde_json::from_reader::<_, SlotFillerModel>(file)`. -/
def slotFiller (env : LoadEnv) : List Nat → Outcome SlotFillerJson := env.decode decodeSlotFiller

end LoadEnv

/-! ### src/resources/loading.rs -/

/-- `load_stemmer` (src/resources/loading.rs:79-96). -/
def loadStemmer (fns : TextFns) (dir : Path) (m : ResourcesJson) : Load (Option Stemmer) :=
  match m.stems with
  | some stems => do
    let s ← Load.file (pathWithTxt (joinPath (dir ++ ["stemming".toList]) stems))
      fun b => Stemmer.fromReader fns.hashStr (csvRecords 44 true b)
    pure (some s)
  | none => pure none

/-- Loop of `load_gazetteers` (src/resources/loading.rs:105-120). -/
def loadGazetteersFrom (fns : TextFns) (dir : Path) :
    List Text → Map Text Gazetteer → Load (Map Text Gazetteer)
  | [], m => pure m
  | name :: rest, m => do
    let g ← Load.file (pathWithTxt (joinPath (dir ++ ["gazetteers".toList]) name))
      fun b => Gazetteer.fromReader fns.hashStr (readLines b)
    loadGazetteersFrom fns dir rest (m.insert name g)

/-- `load_gazetteers` (src/resources/loading.rs:98-122). -/
def loadGazetteers (fns : TextFns) (dir : Path) (m : ResourcesJson) : Load (Map Text Gazetteer) :=
  loadGazetteersFrom fns dir (m.gazetteers.getD []) []

/-- Loop of `load_word_clusterers` (src/resources/loading.rs:131-147). -/
def loadClusterersFrom (fns : TextFns) (o : HashOrd) (dir : Path) :
    List Text → Map Text WordClusterer → Load (Map Text WordClusterer)
  | [], m => pure m
  | name :: rest, m => do
    let c ← Load.file (pathWithTxt (joinPath (dir ++ ["word_clusters".toList]) name))
      fun b => WordClusterer.fromReader fns.hashStr o (csvRecords 9 false b)
    loadClusterersFrom fns o dir rest (m.insert name c)

/-- `load_word_clusterers` (src/resources/loading.rs:124-149). -/
def loadClusterers (fns : TextFns) (o : HashOrd) (dir : Path) (m : ResourcesJson) :
    Load (Map Text WordClusterer) :=
  loadClusterersFrom fns o dir (m.wordClusters.getD []) []

/-- Loop of `load_stop_words` (src/resources/loading.rs:165-170). -/
def collectStopWords : List (Outcome Text) → List Text → Outcome (List Text)
  | [], acc => .ok acc
  | line :: lines, acc => do
    let w ← line
    collectStopWords lines (if w = [] ∨ acc.contains w then acc else acc ++ [w])

/-- `load_stop_words` (src/resources/loading.rs:151-176). -/
def loadStopWords (dir : Path) (m : ResourcesJson) : Load (List Text) :=
  match m.stopWords with
  | some name => Load.file (pathWithTxt (joinPath dir name)) fun b => collectStopWords (readLines b) []
  | none => pure []

/-- `CachingCustomEntityParser::from_path` (src/entity_parser/custom_entity_parser.rs:163-184), without the
cache (empty at first): the tokenizer and the gazetteer parser it uses. -/
def loadCustomParser (env : LoadEnv) (path : Path) :
    Load ((Text → List Token) × (Text → Option (List Text) → Nat → Outcome (List CustomEntity))) := do
  let m ← Load.file (path ++ ["metadata.json".toList]) env.customParser
  let lang ← Load.lift (env.language m.language)
  let parser ← Load.directory (joinPath path m.parserDirectory) env.gazetteerParser
  pure (lang.2.tokenize, parser)

/-- `load_shared_resources` (src/resources/loading.rs:30-61): the resources and the extraction engines. -/
def loadSharedResources (env : LoadEnv) (fns : TextFns) (o : HashOrd) (dir builtinPath customPath : Path) :
    Load (Resources × Ext) := do
  let m ← Load.file (dir ++ ["metadata.json".toList]) env.resources
  let stemmer ← loadStemmer fns dir m
  let gazetteers ← loadGazetteers fns dir m
  let clusterers ← loadClusterers fns o dir m
  let stopWords ← loadStopWords dir m
  let builtin ← Load.directory builtinPath env.builtinParser
  let custom ← loadCustomParser env customPath
  pure (⟨gazetteers, stemmer, clusterers, stopWords⟩, ⟨fns.lower, custom.1, builtin, custom.2⟩)

/-- Shared resources of the engine in a directory, from its model (src/resources/loading.rs:69-76,
src/nlu_engine.rs:37-45). -/
def loadResourcesOf (env : LoadEnv) (o : HashOrd) (dir : Path) (m : EngineJson) : Load (TextFns × Resources × Ext) := do
  let lang ← Load.lift (env.language m.languageCode)
  let r ← loadSharedResources env lang.2 o (joinPath (dir ++ ["resources".toList]) lang.1)
    (joinPath dir m.builtinEntityParser) (joinPath dir m.customEntityParser)
  pure (lang.2, r)

/-- `load_engine_shared_resources` (src/resources/loading.rs:63-77). -/
def loadEngineSharedResources (env : LoadEnv) (o : HashOrd) (dir : Path) : Load (TextFns × Resources × Ext) := do
  let m ← Load.file (dir ++ ["nlu_engine.json".toList]) env.engine
  loadResourcesOf env o dir m

/-! ### Parsers -/

/-- `LookupIntentParser::new` (src/intent_parser/lookup_intent_parser.rs:62-93). -/
def Lookup.new (env : LoadEnv) (r : Resources) (m : LookupJson) : Outcome ParserModel := do
  let lang ← env.language m.languageCode
  .ok (.lookup ⟨lang.2, env.names, env.rd, env.debugAssertions⟩
    ⟨m.slotsNames, m.intentsNames, m.map, StopWords.new m.ignoreStopWords r.stopWords m.stopWordsWhitelist,
      m.entityScopes⟩)

/-- `compile_regexes_per_intent` (src/intent_parser/deterministic_intent_parser.rs:370-383). -/
def compileRegexes (env : LoadEnv) (patterns : Map Text (List Text)) : Outcome (Map Text (List Regex)) :=
  mapOutcome (fun ip : Text × List Text => do
    let regexes ← mapOutcome env.regex ip.2
    .ok (ip.1, regexes)) patterns

/-- `DeterministicIntentParser::new` (src/intent_parser/deterministic_intent_parser.rs:66-122). -/
def Det.new (env : LoadEnv) (r : Resources) (m : DetJson) : Outcome ParserModel := do
  let lang ← env.language m.languageCode
  let regexes ← compileRegexes env m.patterns
  .ok (.deterministic ⟨lang.2, env.names, env.rd, env.debugAssertions⟩
    ⟨regexes, m.groupNamesToSlotNames, m.slotNamesToEntities,
      StopWords.new m.ignoreStopWords r.stopWords m.stopWordsWhitelist, detScopes env.names m.slotNamesToEntities⟩)

/-- The scope of a vectorizer (src/intent_classifier/featurizer.rs:146-153, :278-285). -/
def vectorizerScope (env : LoadEnv) (labels : List Text) : Outcome (List Kind) :=
  mapOutcome env.names.fromIdentifierOrErr labels

/-- The word clusters of the vectorizer (src/intent_classifier/featurizer.rs:129-144). -/
def vectorizerClusters (fns : TextFns) (r : Resources) : Option Text → Outcome (Option (Text → Option Text))
  | none => .ok none
  | some name => do
    let c ← pickClusterer fns r name
    .ok (some c)

/-- `TfidfVectorizer::new` (src/intent_classifier/featurizer.rs:119-176); `fns` are the functions of the shared
resources, those of the vectorizer are those of its own language. -/
def Tfidf.new (env : LoadEnv) (fns : TextFns) (r : Resources) (m : TfidfJson) : Outcome (Tfidf ℚ) := do
  let lang ← env.language m.languageCode
  let clusterer ← vectorizerClusters fns r m.wordClustersName
  let scope ← vectorizerScope env m.builtinEntityScope
  let stemmer ← pickStemmer fns r m.useStemming
  .ok ⟨lang.2, scope, m.vocab, m.idfDiag, clusterer, stemmer⟩

/-- `CooccurrenceVectorizer::new` (src/intent_classifier/featurizer.rs:274-311). -/
def Cooc.new (env : LoadEnv) (o : HashOrd) (m : CoocJson) : Outcome Cooc := do
  let scope ← vectorizerScope env m.builtinEntityScope
  let lang ← env.language m.languageCode
  .ok ⟨lang.2, scope, invertPairs o m.wordPairs, m.filterStopWords, m.windowSize, m.keepOrder, m.unknownWord⟩

/-- The optional second vectorizer (src/intent_classifier/featurizer.rs:49-60). -/
def loadCooc (env : LoadEnv) (o : HashOrd) (path : Path) : Option Text → Load (Option Cooc)
  | none => pure none
  | some name => do
    let c ← Load.file (joinPath path name ++ ["vectorizer.json".toList]) env.cooc
    let v ← Load.lift (Cooc.new env o c)
    pure (some v)

/-- `Featurizer::from_path` (src/intent_classifier/featurizer.rs:32-65). -/
def loadFeaturizer (env : LoadEnv) (fns : TextFns) (o : HashOrd) (r : Resources) (path : Path) :
    Load (Featurizer ℚ) := do
  let m ← Load.file (path ++ ["featurizer.json".toList]) env.featurizer
  let t ← Load.file (joinPath path m.tfidfVectorizer ++ ["vectorizer.json".toList]) env.tfidf
  let tfidf ← Load.lift (Tfidf.new env fns r t)
  let cooc ← loadCooc env o path m.cooccurrenceVectorizer
  pure ⟨tfidf, cooc⟩

/-- The optional featurizer (src/intent_classifier/log_reg_intent_classifier.rs:46-51). -/
def loadOptFeaturizer (env : LoadEnv) (fns : TextFns) (o : HashOrd) (r : Resources) (path : Path) :
    Option Text → Load (Option (Featurizer ℚ))
  | none => pure none
  | some name => do
    let f ← loadFeaturizer env fns o r (joinPath path name)
    pure (some f)

/-- The optional regression (src/intent_classifier/log_reg_intent_classifier.rs:53-63). -/
def optLogReg (m : ClassifierJson) : Outcome (Option (LogReg ℚ)) :=
  match m.intercept, m.coeffs with
  | some intercept, some coeffs => do
    let l ← LogReg.new intercept coeffs
    .ok (some l)
  | _, _ => .ok none

/-- `LogRegIntentClassifier::from_path` (src/intent_classifier/log_reg_intent_classifier.rs:28-72). -/
def loadLogRegClassifier (env : LoadEnv) (fns : TextFns) (o : HashOrd) (r : Resources) (path : Path) :
    Load Classifier := do
  let m ← Load.file (path ++ ["intent_classifier.json".toList]) env.classifier
  let featurizer ← loadOptFeaturizer env fns o r path m.featurizer
  let logreg ← Load.lift (optLogReg m)
  pure ⟨m.intentList, featurizer, logreg⟩

/-- `build_intent_classifier` (src/intent_classifier/mod.rs:28-47). -/
def buildIntentClassifier (env : LoadEnv) (fns : TextFns) (o : HashOrd) (r : Resources) (path : Path) :
    Load Classifier := do
  let kind ← Load.file (path ++ ["metadata.json".toList]) env.unit
  match kind with
  | .logRegIntentClassifier => loadLogRegClassifier env fns o r path
  | _ => Load.lift (.err (.site 40))

/-- Tagger and features (src/slot_filler/crf_slot_filler.rs:51-64). -/
def loadTagger (env : LoadEnv) (fns : TextFns) (r : Resources) (path : Path) (m : SlotFillerJson) :
    Load (Option Tagger × Option (List Offsetter)) :=
  match m.crfModelFile with
  | none => pure (none, none)
  | some name => do
    let tagger ← Load.file (joinPath path name) env.tagger
    let processor ← Load.lift (buildProcessor fns env.names r m.featureFactoryConfigs)
    pure (some tagger, some processor)

/-- `CRFSlotFiller::from_path` (src/slot_filler/crf_slot_filler.rs:34-76); `fns` are the functions of the shared
resources. -/
def loadCrfSlotFiller (env : LoadEnv) (fns : TextFns) (r : Resources) (path : Path) : Load SlotFiller := do
  let m ← Load.file (path ++ ["slot_filler.json".toList]) env.slotFiller
  let scheme ← Load.lift (Scheme.fromU8 m.taggingScheme)
  let tp ← loadTagger env fns r path m
  let lang ← Load.lift (env.language m.languageCode)
  pure ⟨lang.2, scheme, tp.1, tp.2, m.slotNameMapping⟩

/-- `build_slot_filler` (src/slot_filler/mod.rs:30-49). -/
def buildSlotFiller (env : LoadEnv) (fns : TextFns) (r : Resources) (path : Path) : Load SlotFiller := do
  let kind ← Load.file (path ++ ["metadata.json".toList]) env.unit
  match kind with
  | .crfSlotFiller => loadCrfSlotFiller env fns r path
  | _ => Load.lift (.err (.site 41))

/-- `ProbabilisticIntentParser::from_path` (src/intent_parser/probabilistic_intent_parser.rs:25-57). -/
def loadProbabilistic (env : LoadEnv) (fns : TextFns) (o : HashOrd) (r : Resources) (path : Path) :
    Load ParserModel := do
  let m ← Load.file (path ++ ["intent_parser.json".toList]) env.probabilistic
  let classifier ← buildIntentClassifier env fns o r (path ++ ["intent_classifier".toList])
  let fillers ← Load.mapM (fun nf : Text × Text => do
    let filler ← buildSlotFiller env fns r (joinPath path nf.2)
    pure (nf.1, filler)) m
  pure (.probabilistic ⟨env.ops, ⟨env.names, env.allNgrams, r.stopWords, env.debugAssertions⟩, env.codec⟩
    ⟨classifier, fillers.foldl (fun acc nf => acc.insert nf.1 nf.2) []⟩)

/-- `build_intent_parser` (src/intent_parser/mod.rs:64-81), with `LookupIntentParser::from_path`
(src/intent_parser/lookup_intent_parser.rs:43-57) and `DeterministicIntentParser::from_path`
(src/intent_parser/deterministic_intent_parser.rs:42-62). -/
def buildIntentParser (env : LoadEnv) (fns : TextFns) (o : HashOrd) (r : Resources) (kind : UnitKind)
    (path : Path) : Load ParserModel :=
  match kind with
  | .lookupIntentParser => do
    let m ← Load.file (path ++ ["intent_parser.json".toList]) env.lookup
    Load.lift (Lookup.new env r m)
  | .deterministicIntentParser => do
    let m ← Load.file (path ++ ["intent_parser.json".toList]) env.deterministic
    Load.lift (Det.new env r m)
  | .probabilisticIntentParser => loadProbabilistic env fns o r path
  | _ => Load.lift (.err (.site 42))

/-! ### src/nlu_engine.rs -/

/-- `MODEL_VERSION` (src/lib.rs:22). -/
def modelVersion : Text := "0.20.0".toList

/-- `check_model_version` (src/nlu_engine.rs:55-66). -/
def checkModelVersion (env : LoadEnv) (path : Path) : Load Unit := do
  let v ← Load.file path env.version
  if v ≠ modelVersion then Load.lift (.err (.wrongModelVersion v modelVersion)) else pure ()

/-- `load_model` (src/nlu_engine.rs:68-78). -/
def loadModel (env : LoadEnv) (dir : Path) : Load EngineJson := do
  checkModelVersion env (dir ++ ["nlu_engine.json".toList])
  Load.file (dir ++ ["nlu_engine.json".toList]) env.engine

/-- The closure of `load_intent_parsers` (src/nlu_engine.rs:88-102). -/
def loadIntentParser (env : LoadEnv) (fns : TextFns) (o : HashOrd) (r : Resources) (dir : Path) (name : Text) :
    Load ParserModel := do
  let kind ← Load.file (joinPath dir name ++ ["metadata.json".toList]) env.unit
  buildIntentParser env fns o r kind (joinPath dir name)

/-- A loaded engine: dataset, parsers and extraction engines (src/nlu_engine.rs:27-31). -/
structure LoadedEngine where
  dataset : DatasetMetadata
  parsers : List ParserModel
  ext : Ext

/-- `SnipsNluEngine::from_path` (src/nlu_engine.rs:34-53). -/
def loadEngine (env : LoadEnv) (o : HashOrd) (dir : Path) : Load LoadedEngine := do
  let m ← loadModel env dir
  let res ← loadResourcesOf env o dir m
  let parsers ← Load.mapM (loadIntentParser env res.1 o res.2.1 dir) m.intentParsers
  pure ⟨m.dataset, parsers, res.2.2⟩

/-- The engine as used at inference (`Verif.Model.Engine`). -/
def LoadedEngine.engine (e : LoadedEngine) (names : KindNames) : Engine :=
  Engine.ofParsers e.dataset names e.parsers

end Snips
