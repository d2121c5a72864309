import Verif.Model.Loading

/-!
# What errors say

The rest of the model keeps only the error at the root of a `failure::Error`.  Here loading is modelled with the messages
that `with_context` puts in front of it.  `format!("{:?}", path)` and the texts of errors of dependencies and of the
operating system are parameters.
-/

namespace Snips

/-- Outcome of a call returning `Result<α>` with the messages of the error: those added by `with_context`, the outermost
(last added) first, and the error at the root. -/
inductive Report (α : Type) where
  | ok (a : α)
  | err (contexts : List Text) (root : Err)
  | panic

/-- `result.with_context(|_| text)`. -/
def Report.context {α : Type} (text : Text) : Report α → Report α
  | .ok a => .ok a
  | .err contexts root => .err (text :: contexts) root
  | .panic => .panic

/-- `result.with_context(..)`, or no context. -/
def Report.contextOpt {α : Type} (text : Option Text) (r : Report α) : Report α :=
  match text with
  | some t => r.context t
  | none => r

/-- An outcome without contexts. -/
def Report.of {α : Type} : Outcome α → Report α
  | .ok a => .ok a
  | .err e => .err [] e
  | .panic => .panic

/-- A computation that reads files (as `Load`), with the messages of its error. -/
def TLoad (α : Type) := Fs → Report α × List Path

namespace TLoad

/-- A value. -/
def pure {α : Type} (a : α) : TLoad α := fun _ => (.ok a, [])

/-- The `?` operator. -/
def bind {α β : Type} (m : TLoad α) (f : α → TLoad β) : TLoad β := fun fs =>
  match m fs with
  | (.ok a, t) => ((f a fs).1, t ++ (f a fs).2)
  | (.err cs e, t) => (.err cs e, t)
  | (.panic, t) => (.panic, t)

instance : Monad TLoad where
  pure := pure
  bind := bind

/-- A computation that reads nothing. -/
def lift {α : Type} (o : Outcome α) : TLoad α := fun _ => (Report.of o, [])

/-- `File::open(path).with_context(opening)?` and reading of the file by a decoder, `.with_context(decoding)?`. -/
def file {α : Type} (p : Path) (opening decoding : Option Text) (decode : List Nat → Outcome α) : TLoad α := fun fs =>
  match fs (resolve p) with
  | some (.file bytes) => ((Report.of (decode bytes)).contextOpt decoding, [p])
  | _ => ((Report.of (.err (.external 210))).contextOpt opening, [p])

/-- Loading of a directory by a dependency. -/
def directory {α : Type} (p : Path) (decode : Fs → Outcome α) : TLoad α := fun fs =>
  (Report.of (decode (fun q => fs (resolve p ++ q))), [p])

/-- `with_context` on a whole computation. -/
def context {α : Type} (text : Text) (m : TLoad α) : TLoad α := fun fs => ((m fs).1.context text, (m fs).2)

/-- `iter.map(f).collect::<Result<Vec<_>>>()`. -/
def mapM {α β : Type} (f : α → TLoad β) : List α → TLoad (List β)
  | [] => pure []
  | a :: l => do
    let b ← f a
    let bs ← mapM f l
    pure (b :: bs)

end TLoad

/-- The text of a path. -/
def pathText (p : Path) : Text := p.flatMap fun c => '/' :: c

/-- A text around another one, as in `format!("..{}..", x)`. -/
def around (before : String) (x : Text) (after : String) : Text := before.toList ++ x ++ after.toList

/-- The texts of messages that come from elsewhere. -/
structure MessageEnv where
  /-- `format!("{:?}", text)` for a path (standard library): quoted, with escapes -/
  quote : Text → Text
  /-- errors of dependencies, of the operating system, and those of this crate whose text is not modelled -/
  other : Err → Text

/-- `Display` of the error at the root (src/errors.rs:5-13, src/nlu_engine.rs:259-262, :416, :418,
src/injection/errors.rs:12-13).  Simplification: only errors with parameters that the model keeps. -/
def MessageEnv.root (env : MessageEnv) : Err → Text
  | .unknownIntent intent => around "Unknown intent: '" intent "'"
  | .wrongModelVersion model runner =>
    around "Mismatched model version: model is " model "" ++ around " but runner is " runner ""
  | .unknownFilterIntent intent => around "Cannot use unknown intent '" intent "' in intents filter"
  | .extractUnknownIntent intent => around "Unknown intent: " intent ""
  | .extractUnknownSlot slot => around "Unknown slot: " slot ""
  | e => env.other e

/-- The messages of an error, the outermost first (`failure::Error::iter_chain`, external). -/
def MessageEnv.messages (env : MessageEnv) (contexts : List Text) (root : Err) : List Text := contexts ++ [env.root root]

section Loading

variable (msg : MessageEnv) (env : LoadEnv)

/-- `load_stemmer` (src/resources/loading.rs:79-96). -/
def tloadStemmer (fns : TextFns) (dir : Path) (m : ResourcesJson) : TLoad (Option Stemmer) :=
  match m.stems with
  | some stems => do
    let path := pathWithTxt (joinPath (dir ++ ["stemming".toList]) stems)
    let s ← TLoad.file path (some (around "Cannot open stems file " (msg.quote (pathText path)) ""))
      (some (around "Cannot read stems file " (msg.quote (pathText path)) ""))
      fun b => Stemmer.fromReader fns.hashStr (csvRecords 44 true b)
    pure (some s)
  | none => pure none

/-- Loop of `load_gazetteers` (src/resources/loading.rs:105-120). -/
def tloadGazetteersFrom (fns : TextFns) (dir : Path) :
    List Text → Map Text Gazetteer → TLoad (Map Text Gazetteer)
  | [], m => pure m
  | name :: rest, m => do
    let path := pathWithTxt (joinPath (dir ++ ["gazetteers".toList]) name)
    let g ← TLoad.file path (some (around "Cannot open gazetteer file " (msg.quote (pathText path)) ""))
      (some (around "Cannot read gazetteer file " (msg.quote (pathText path)) ""))
      fun b => Gazetteer.fromReader fns.hashStr (readLines b)
    tloadGazetteersFrom fns dir rest (m.insert name g)

/-- Loop of `load_word_clusterers` (src/resources/loading.rs:131-147). -/
def tloadClusterersFrom (fns : TextFns) (o : HashOrd) (dir : Path) :
    List Text → Map Text WordClusterer → TLoad (Map Text WordClusterer)
  | [], m => pure m
  | name :: rest, m => do
    let path := pathWithTxt (joinPath (dir ++ ["word_clusters".toList]) name)
    let c ← TLoad.file path (some (around "Cannot open word clusters file " (msg.quote (pathText path)) ""))
      (some (around "Cannot read word clusters file " (msg.quote (pathText path)) ""))
      fun b => WordClusterer.fromReader fns.hashStr o (csvRecords 9 false b)
    tloadClusterersFrom fns o dir rest (m.insert name c)

/-- `load_stop_words` (src/resources/loading.rs:151-176). -/
def tloadStopWords (dir : Path) (m : ResourcesJson) : TLoad (List Text) :=
  match m.stopWords with
  | some name =>
    let path := pathWithTxt (joinPath dir name)
    TLoad.file path (some (around "Cannot open word stop words file " (msg.quote (pathText path)) "")) none
      fun b => collectStopWords (readLines b) []
  | none => pure []

/-- `CachingCustomEntityParser::from_path` (src/entity_parser/custom_entity_parser.rs:163-184). -/
def tloadCustomParser (path : Path) :
    TLoad ((Text → List Token) × (Text → Option (List Text) → Nat → Outcome (List CustomEntity))) := do
  let metadata := path ++ ["metadata.json".toList]
  let m ← TLoad.file metadata
    (some (around "Cannot open metadata file for custom entity parser at path: " (msg.quote (pathText metadata)) ""))
    (some "Cannot deserialize custom entity parser metadata".toList) env.customParser
  let lang ← TLoad.lift (env.language m.language)
  let parser ← TLoad.directory (joinPath path m.parserDirectory) env.gazetteerParser
  pure (lang.2.tokenize, parser)

/-- `load_shared_resources` (src/resources/loading.rs:30-61): opening of the metadata has no context. -/
def tloadSharedResources (fns : TextFns) (o : HashOrd) (dir builtinPath customPath : Path) : TLoad (Resources × Ext) := do
  let metadata := dir ++ ["metadata.json".toList]
  let m ← TLoad.file metadata none
    (some (around "Cannot deserialize resources metadata file '" (msg.quote (pathText metadata)) "'")) env.resources
  let stemmer ← tloadStemmer msg fns dir m
  let gazetteers ← tloadGazetteersFrom msg fns dir (m.gazetteers.getD []) []
  let clusterers ← tloadClusterersFrom msg fns o dir (m.wordClusters.getD []) []
  let stopWords ← tloadStopWords msg dir m
  let builtin ← TLoad.directory builtinPath env.builtinParser
  let custom ← tloadCustomParser msg env customPath
  pure (⟨gazetteers, stemmer, clusterers, stopWords⟩, ⟨fns.lower, custom.1, builtin, custom.2⟩)

/-- Shared resources of the engine in a directory, from its model (src/nlu_engine.rs:37-45). -/
def tloadResourcesOf (o : HashOrd) (dir : Path) (m : EngineJson) : TLoad (TextFns × Resources × Ext) := do
  let lang ← TLoad.lift (env.language m.languageCode)
  let r ← tloadSharedResources msg env lang.2 o (joinPath (dir ++ ["resources".toList]) lang.1)
    (joinPath dir m.builtinEntityParser) (joinPath dir m.customEntityParser)
  pure (lang.2, r)

/-- The optional second vectorizer (src/intent_classifier/featurizer.rs:49-60, :255-270). -/
def tloadCooc (o : HashOrd) (path : Path) : Option Text → TLoad (Option Cooc)
  | none => pure none
  | some name => do
    let file := joinPath path name ++ ["vectorizer.json".toList]
    let c ← TLoad.file file (some (around "Cannot open CooccurrenceVectorizer file '" (msg.quote (pathText file)) "'"))
      (some "Cannot deserialize CooccurrenceVectorizer json data".toList) env.cooc
    let v ← TLoad.lift (Cooc.new env o c)
    pure (some v)

/-- `Featurizer::from_path` (src/intent_classifier/featurizer.rs:32-65) with `TfidfVectorizer::from_path` (:100-115). -/
def tloadFeaturizer (fns : TextFns) (o : HashOrd) (r : Resources) (path : Path) : TLoad (Featurizer ℚ) := do
  let file := path ++ ["featurizer.json".toList]
  let m ← TLoad.file file (some (around "Cannot open Featurizer file '" (msg.quote (pathText file)) "'"))
    (some "Cannot deserialize FeaturizerModel json data".toList) env.featurizer
  let file := joinPath path m.tfidfVectorizer ++ ["vectorizer.json".toList]
  let t ← TLoad.file file (some (around "Cannot open TfidfVectorizer file '" (msg.quote (pathText file)) "'"))
    (some "Cannot deserialize TfidfVectorizer json data".toList) env.tfidf
  let tfidf ← TLoad.lift (Tfidf.new env fns r t)
  let cooc ← tloadCooc msg env o path m.cooccurrenceVectorizer
  pure ⟨tfidf, cooc⟩

/-- The optional featurizer (src/intent_classifier/log_reg_intent_classifier.rs:46-51). -/
def tloadOptFeaturizer (fns : TextFns) (o : HashOrd) (r : Resources) (path : Path) :
    Option Text → TLoad (Option (Featurizer ℚ))
  | none => pure none
  | some name => do
    let f ← tloadFeaturizer msg env fns o r (joinPath path name)
    pure (some f)

/-- `LogRegIntentClassifier::from_path` (src/intent_classifier/log_reg_intent_classifier.rs:28-72). -/
def tloadLogRegClassifier (fns : TextFns) (o : HashOrd) (r : Resources) (path : Path) : TLoad Classifier := do
  let file := path ++ ["intent_classifier.json".toList]
  let m ← TLoad.file file (some (around "Cannot open LogRegIntentClassifier file '" (msg.quote (pathText file)) "'"))
    (some "Cannot deserialize LogRegIntentClassifier json data".toList) env.classifier
  let featurizer ← tloadOptFeaturizer msg env fns o r path m.featurizer
  let logreg ← TLoad.lift (optLogReg m)
  pure ⟨m.intentList, featurizer, logreg⟩

/-- `build_intent_classifier` (src/intent_classifier/mod.rs:28-47). -/
def tbuildIntentClassifier (fns : TextFns) (o : HashOrd) (r : Resources) (path : Path) : TLoad Classifier := do
  let file := path ++ ["metadata.json".toList]
  let kind ← TLoad.file file (some (around "Cannot open intent classifier metadata file '" (msg.quote (pathText file)) "'"))
    (some "Cannot deserialize intent classifier json data".toList) env.unit
  match kind with
  | .logRegIntentClassifier => tloadLogRegClassifier msg env fns o r path
  | _ => TLoad.lift (.err (.site 40))

/-- Tagger and features (src/slot_filler/crf_slot_filler.rs:51-64). -/
def tloadTagger (fns : TextFns) (r : Resources) (path : Path) (m : SlotFillerJson) :
    TLoad (Option Tagger × Option (List Offsetter)) :=
  match m.crfModelFile with
  | none => pure (none, none)
  | some name => do
    let file := joinPath path name
    let context := around "Cannot create CRFSuiteTagger from file '" (msg.quote (pathText file)) "'"
    let tagger ← TLoad.file file (some context) (some context) env.tagger
    let processor ← TLoad.lift (buildProcessor fns env.names r m.featureFactoryConfigs)
    pure (some tagger, some processor)

/-- `CRFSlotFiller::from_path` (src/slot_filler/crf_slot_filler.rs:34-76). -/
def tloadCrfSlotFiller (fns : TextFns) (r : Resources) (path : Path) : TLoad SlotFiller := do
  let file := path ++ ["slot_filler.json".toList]
  let m ← TLoad.file file (some (around "Cannot open CRFSlotFiller file '" (msg.quote (pathText file)) "'"))
    (some "Cannot deserialize CRFSlotFiller json data".toList) env.slotFiller
  let scheme ← TLoad.lift (Scheme.fromU8 m.taggingScheme)
  let tp ← tloadTagger msg env fns r path m
  let lang ← TLoad.lift (env.language m.languageCode)
  pure ⟨lang.2, scheme, tp.1, tp.2, m.slotNameMapping⟩

/-- `build_slot_filler` (src/slot_filler/mod.rs:30-49). -/
def tbuildSlotFiller (fns : TextFns) (r : Resources) (path : Path) : TLoad SlotFiller := do
  let file := path ++ ["metadata.json".toList]
  let kind ← TLoad.file file (some (around "Cannot open slot filler metadata file '" (msg.quote (pathText file)) "'"))
    (some "Cannot deserialize slot filler json data".toList) env.unit
  match kind with
  | .crfSlotFiller => tloadCrfSlotFiller msg env fns r path
  | _ => TLoad.lift (.err (.site 41))

/-- `ProbabilisticIntentParser::from_path` (src/intent_parser/probabilistic_intent_parser.rs:25-57). -/
def tloadProbabilistic (fns : TextFns) (o : HashOrd) (r : Resources) (path : Path) : TLoad ParserModel := do
  let file := path ++ ["intent_parser.json".toList]
  let m ← TLoad.file file (some (around "Cannot open ProbabilisticIntentParser file '" (msg.quote (pathText file)) "'"))
    (some "Cannot deserialize ProbabilisticIntentParser json data".toList) env.probabilistic
  let classifier ← tbuildIntentClassifier msg env fns o r (path ++ ["intent_classifier".toList])
  let fillers ← TLoad.mapM (fun nf : Text × Text => do
    let filler ← tbuildSlotFiller msg env fns r (joinPath path nf.2)
    pure (nf.1, filler)) m
  pure (.probabilistic ⟨env.ops, ⟨env.names, env.allNgrams, r.stopWords, env.debugAssertions⟩, env.codec⟩
    ⟨classifier, fillers.foldl (fun acc nf => acc.insert nf.1 nf.2) []⟩)

/-- `build_intent_parser` (src/intent_parser/mod.rs:64-81), with `LookupIntentParser::from_path`
(src/intent_parser/lookup_intent_parser.rs:43-57) and `DeterministicIntentParser::from_path`
(src/intent_parser/deterministic_intent_parser.rs:42-62). -/
def tbuildIntentParser (fns : TextFns) (o : HashOrd) (r : Resources) (kind : UnitKind) (path : Path) :
    TLoad ParserModel :=
  let file := path ++ ["intent_parser.json".toList]
  match kind with
  | .lookupIntentParser => do
    let m ← TLoad.file file (some (around "Cannot open LookupIntentParser file '" (msg.quote (pathText file)) "'"))
      (some "Cannot deserialize LookupIntentParser json data".toList) env.lookup
    TLoad.lift (Lookup.new env r m)
  | .deterministicIntentParser => do
    let m ← TLoad.file file (some (around "Cannot open DeterministicIntentParser file '" (msg.quote (pathText file)) "'"))
      (some "Cannot deserialize DeterministicIntentParser json data".toList) env.deterministic
    TLoad.lift (Det.new env r m)
  | .probabilisticIntentParser => tloadProbabilistic msg env fns o r path
  | _ => TLoad.lift (.err (.site 42))

/-- `check_model_version` (src/nlu_engine.rs:55-66), which adds no context. -/
def tcheckModelVersion (path : Path) : TLoad Unit := do
  let v ← TLoad.file path none none env.version
  if v ≠ modelVersion then TLoad.lift (.err (.wrongModelVersion v modelVersion)) else pure ()

/-- `load_model` (src/nlu_engine.rs:68-78).  The first context is `SnipsNluError::ModelLoad` (src/errors.rs:5-6); its
`to_str().unwrap()` does not panic because paths are texts here. -/
def tloadModel (dir : Path) : TLoad EngineJson := do
  let file := dir ++ ["nlu_engine.json".toList]
  (tcheckModelVersion env file).context (around "Unable to read file '" (pathText file) "'")
  TLoad.file file (some (around "Could not open nlu engine file " (msg.quote (pathText file)) ""))
    (some (around "Invalid nlu engine file " (msg.quote (pathText file)) "")) env.engine

/-- The closure of `load_intent_parsers` (src/nlu_engine.rs:88-102). -/
def tloadIntentParser (fns : TextFns) (o : HashOrd) (r : Resources) (dir : Path) (name : Text) : TLoad ParserModel := do
  let kind ← TLoad.file (joinPath dir name ++ ["metadata.json".toList])
    (some (around "Could not open metadata file of parser '" name "'"))
    (some (around "Could not deserialize json metadata of parser '" name "'")) env.unit
  tbuildIntentParser msg env fns o r kind (joinPath dir name)

/-- `SnipsNluEngine::from_path` (src/nlu_engine.rs:34-53). -/
def tloadEngine (o : HashOrd) (dir : Path) : TLoad LoadedEngine := do
  let m ← tloadModel msg env dir
  let res ← tloadResourcesOf msg env o dir m
  let parsers ← TLoad.mapM (tloadIntentParser msg env res.1 o res.2.1 dir) m.intentParsers
  pure ⟨m.dataset, parsers, res.2.2⟩

end Loading

end Snips
