import Verif.Spec.Loading
import Verif.Spec.Factories

/-! What the files of an engine directory say of the engine. -/

namespace Snips

/-- The file at a path is decoded to the given value. -/
def FileHas {α : Type} (fs : Fs) (p : Path) (decode : List Nat → Outcome α) (a : α) : Prop :=
  ∃ bytes, FileAt fs p bytes ∧ decode bytes = .ok a

/-- An optional component: absent when not named, otherwise described by its name. -/
def Named {α : Type} (name : Option Text) (R : Text → α → Prop) (x : Option α) : Prop :=
  (name = none ∧ x = none) ∨ ∃ n a, name = some n ∧ x = some a ∧ R n a

/-- A table with exactly the listed names as keys, each with a value described by its name. -/
def Table {α : Type} (names : List Text) (R : Text → α → Prop) (m : Map Text α) : Prop :=
  ∀ name, (name ∈ names → ∃ a, m.get name = some a ∧ R name a) ∧ (name ∉ names → m.get name = none)

/-- The text of a line, when it can be read and is not empty. -/
def IsLine (lines : List (Outcome Text)) (w : Text) : Prop := .ok w ∈ lines ∧ w ≠ []

/-- The resources described by the directory of a language: `metadata.json` lists them, and each has its own
file. -/
structure ResourcesAt (env : LoadEnv) (fns : TextFns) (o : HashOrd) (fs : Fs) (dir : Path) (r : Resources) : Prop where
  described : ∃ m, FileHas fs (dir ++ ["metadata.json".toList]) env.resources m ∧
    Named m.stems (fun name s => FileHas fs (pathWithTxt (joinPath (dir ++ ["stemming".toList]) name))
      (fun b => Stemmer.fromReader fns.hashStr (csvRecords 44 true b)) s) r.stemmer ∧
    Table (m.gazetteers.getD []) (fun name g => FileHas fs (pathWithTxt (joinPath (dir ++ ["gazetteers".toList]) name))
      (fun b => Gazetteer.fromReader fns.hashStr (readLines b)) g) r.gazetteers ∧
    Table (m.wordClusters.getD [])
      (fun name c => FileHas fs (pathWithTxt (joinPath (dir ++ ["word_clusters".toList]) name))
        (fun b => WordClusterer.fromReader fns.hashStr o (csvRecords 9 false b)) c) r.wordClusterers ∧
    ((m.stopWords = none ∧ r.stopWords = []) ∨ ∃ name bytes, m.stopWords = some name ∧
      FileAt fs (pathWithTxt (joinPath dir name)) bytes ∧ (∀ l ∈ readLines bytes, ∃ w, l = .ok w) ∧
      ∀ w, w ∈ r.stopWords ↔ IsLine (readLines bytes) w)

/-- The extraction engines described by the directories of the entity parsers. -/
structure ExtAt (env : LoadEnv) (fns : TextFns) (fs : Fs) (builtinDir customDir : Path) (x : Ext) : Prop where
  lower : x.lower = fns.lower
  builtin : env.builtinParser (fun q => fs (resolve builtinDir ++ q)) = .ok x.builtinRaw
  custom : ∃ m name fns', FileHas fs (customDir ++ ["metadata.json".toList]) env.customParser m ∧
    env.language m.language = .ok (name, fns') ∧ x.tokenize = fns'.tokenize ∧
    env.gazetteerParser (fun q => fs (resolve (joinPath customDir m.parserDirectory) ++ q)) = .ok x.gazetteer

/-- The lookup parser described by its file. -/
structure LookupAt (env : LoadEnv) (r : Resources) (fs : Fs) (dir : Path) (penv : RuleEnv) (p : Lookup) : Prop where
  described : ∃ m name, FileHas fs (dir ++ ["intent_parser.json".toList]) env.lookup m ∧
    env.language m.languageCode = .ok (name, penv.fns) ∧
    p.slotsNames = m.slotsNames ∧ p.intentsNames = m.intentsNames ∧ p.map = m.map ∧ p.scopes = m.entityScopes ∧
    p.stopWords = StopWords.new m.ignoreStopWords r.stopWords m.stopWordsWhitelist
  names : penv.names = env.names
  rounding : penv.rd = env.rd
  assertions : penv.debugAssertions = env.debugAssertions

/-- The deterministic parser described by its file: for each intent its patterns, compiled, in the same
order. -/
structure DetAt (env : LoadEnv) (r : Resources) (fs : Fs) (dir : Path) (penv : RuleEnv) (p : Det) : Prop where
  described : ∃ m name, FileHas fs (dir ++ ["intent_parser.json".toList]) env.deterministic m ∧
    env.language m.languageCode = .ok (name, penv.fns) ∧
    List.Forall₂ (fun (ip : Text × List Text) (ir : Text × List Regex) => ir.1 = ip.1 ∧
      List.Forall₂ (fun pattern regex => env.regex pattern = .ok regex) ip.2 ir.2) m.patterns p.regexes ∧
    p.groupNames = m.groupNamesToSlotNames ∧ p.slotEntities = m.slotNamesToEntities ∧
    p.stopWords = StopWords.new m.ignoreStopWords r.stopWords m.stopWordsWhitelist ∧
    p.scopes = detScopes env.names m.slotNamesToEntities
  names : penv.names = env.names
  rounding : penv.rd = env.rd
  assertions : penv.debugAssertions = env.debugAssertions

/-- A language code is known, and these are the text functions of the language. -/
def SpeaksLanguage (env : LoadEnv) (code : Text) (fns : TextFns) : Prop := ∃ name, env.language code = .ok (name, fns)

/-- The entities a vectorizer looks for. -/
def ScopeOf (env : LoadEnv) (labels : List Text) (kinds : List Kind) : Prop :=
  List.Forall₂ (fun label kind => env.names.fromIdentifier label = some kind) labels kinds

/-- The tf-idf vectorizer described by its file. -/
def TfidfAt (env : LoadEnv) (fns : TextFns) (r : Resources) (fs : Fs) (dir : Path) (v : Tfidf ℚ) : Prop :=
  ∃ m, FileHas fs (dir ++ ["vectorizer.json".toList]) env.tfidf m ∧ SpeaksLanguage env m.languageCode v.fns ∧
    v.vocabulary = m.vocab ∧ v.idf = m.idfDiag ∧
    ScopeOf env m.builtinEntityScope v.scope ∧
    Named m.wordClustersName (fun name f => ∃ c, r.wordClusterers.get name = some c ∧ f = c.getCluster fns.hashStr)
      v.clusterer ∧
    ((m.useStemming = false ∧ v.stemmer = none) ∨
      (m.useStemming = true ∧ ∃ s, r.stemmer = some s ∧ v.stemmer = some (s.stem fns)))

/-- The co-occurrence vectorizer described by its file. -/
def CoocAt (env : LoadEnv) (o : HashOrd) (fs : Fs) (dir : Path) (v : Cooc) : Prop :=
  ∃ m, FileHas fs (dir ++ ["vectorizer.json".toList]) env.cooc m ∧ SpeaksLanguage env m.languageCode v.fns ∧
    v.wordPairs = invertPairs o m.wordPairs ∧
    ScopeOf env m.builtinEntityScope v.scope ∧ v.filterStopWords = m.filterStopWords ∧ v.windowSize = m.windowSize ∧
    v.keepOrder = m.keepOrder ∧ v.unknownWord = m.unknownWord

/-- The featurizer described by its directory. -/
def FeaturizerAt (env : LoadEnv) (fns : TextFns) (o : HashOrd) (r : Resources) (fs : Fs) (dir : Path)
    (f : Featurizer ℚ) : Prop :=
  ∃ m, FileHas fs (dir ++ ["featurizer.json".toList]) env.featurizer m ∧
    TfidfAt env fns r fs (joinPath dir m.tfidfVectorizer) f.tfidf ∧
    Named m.cooccurrenceVectorizer (fun name v => CoocAt env o fs (joinPath dir name) v) f.cooc

/-- The regression described by an intercept and coefficients: for each class its intercept followed by its row
of coefficients, cut to the length of the first row. -/
def RegressionOf (intercept : List ℚ) (coeffs : List (List ℚ)) (l : LogReg ℚ) : Prop :=
  (∃ first, coeffs[0]? = some first ∧ l.nbFeatures = first.length) ∧ l.columns.length = intercept.length ∧
  ∀ (j : Nat) (b : ℚ), intercept[j]? = some b → ∃ weights, l.columns[j]? = some (b :: weights) ∧
    weights.length = l.nbFeatures ∧
    ∀ (i : Nat) (x : ℚ), weights[i]? = some x → ∃ row, coeffs[j]? = some row ∧ row[i]? = some x

/-- The classifier described by its directory. -/
def ClassifierAt (env : LoadEnv) (fns : TextFns) (o : HashOrd) (r : Resources) (fs : Fs) (dir : Path)
    (c : Classifier) : Prop :=
  UnitAt env fs dir .logRegIntentClassifier ∧
  ∃ m, FileHas fs (dir ++ ["intent_classifier.json".toList]) env.classifier m ∧ c.intentList = m.intentList ∧
    Named m.featurizer (fun name f => FeaturizerAt env fns o r fs (joinPath dir name) f) c.featurizer ∧
    (((m.intercept = none ∨ m.coeffs = none) ∧ c.logreg = none) ∨
      ∃ intercept coeffs l, m.intercept = some intercept ∧ m.coeffs = some coeffs ∧ c.logreg = some l ∧
        RegressionOf intercept coeffs l)

/-- The features described by the configurations, in their order, each with the offsets of its configuration. -/
def ProcessorOf (env : LoadEnv) (fns : TextFns) (r : Resources) (configs : List FactoryConfig)
    (features : List Offsetter) : Prop :=
  ∃ built : List (List Feature),
    List.Forall₂ (fun c fs => Configured fns env.names r c.args (String.ofList c.factoryName) fs) configs built ∧
    features = (List.zipWith (fun c fs => fs.map fun f => ⟨f, c.offsets⟩) configs built).flatten

/-- The slot filler described by its directory: without a CRF file it has neither tagger nor features. -/
def SlotFillerAt (env : LoadEnv) (fns : TextFns) (r : Resources) (fs : Fs) (dir : Path) (f : SlotFiller) : Prop :=
  UnitAt env fs dir .crfSlotFiller ∧
  ∃ m, FileHas fs (dir ++ ["slot_filler.json".toList]) env.slotFiller m ∧ SpeaksLanguage env m.languageCode f.fns ∧
    f.mapping = m.slotNameMapping ∧
    SchemeCode m.taggingScheme f.scheme ∧
    ((m.crfModelFile = none ∧ f.tagger = none ∧ f.processor = none) ∨
      ∃ name t os, m.crfModelFile = some name ∧ FileHas fs (joinPath dir name) env.tagger t ∧ f.tagger = some t ∧
        f.processor = some os ∧ ProcessorOf env fns r m.featureFactoryConfigs os)

/-- The probabilistic parser described by its directory: its classifier is in `intent_classifier`, and the slot
filler of an intent is the last one listed for it; those listed before are read all the same. -/
def ProbAt (env : LoadEnv) (fns : TextFns) (o : HashOrd) (r : Resources) (fs : Fs) (dir : Path) (p : Prob) : Prop :=
  ∃ m, FileHas fs (dir ++ ["intent_parser.json".toList]) env.probabilistic m ∧
    ClassifierAt env fns o r fs (dir ++ ["intent_classifier".toList]) p.classifier ∧
    (∀ e ∈ m, ∃ f, SlotFillerAt env fns r fs (joinPath dir e.2) f) ∧
    ∀ intent, ((∀ e ∈ m, e.1 ≠ intent) → p.slotFillers.get intent = none) ∧
      ∀ before name after, m = before ++ (intent, name) :: after → (∀ e ∈ after, e.1 ≠ intent) →
        ∃ f, p.slotFillers.get intent = some f ∧ SlotFillerAt env fns r fs (joinPath dir name) f

/-- The parser described by a directory, of the kind announced by its metadata. -/
def ParserAt (env : LoadEnv) (fns : TextFns) (o : HashOrd) (r : Resources) (fs : Fs) (dir : Path) : ParserModel → Prop
  | .lookup penv p => UnitAt env fs dir .lookupIntentParser ∧ LookupAt env r fs dir penv p
  | .deterministic penv p => UnitAt env fs dir .deterministicIntentParser ∧ DetAt env r fs dir penv p
  | .probabilistic penv p => UnitAt env fs dir .probabilisticIntentParser ∧ ProbAt env fns o r fs dir p ∧
      penv = ⟨env.ops, ⟨env.names, env.allNgrams, r.stopWords, env.debugAssertions⟩, env.codec⟩

/-- The engine described by a directory. -/
def EngineAt (env : LoadEnv) (o : HashOrd) (fs : Fs) (dir : Path) (e : LoadedEngine) : Prop :=
  FileHas fs (dir ++ ["nlu_engine.json".toList]) env.version "0.20.0".toList ∧
  ∃ m name fns r, FileHas fs (dir ++ ["nlu_engine.json".toList]) env.engine m ∧
    env.language m.languageCode = .ok (name, fns) ∧
    ResourcesAt env fns o fs (joinPath (dir ++ ["resources".toList]) name) r ∧
    ExtAt env fns fs (joinPath dir m.builtinEntityParser) (joinPath dir m.customEntityParser) e.ext ∧
    e.dataset = m.dataset ∧
    List.Forall₂ (fun parser p => ParserAt env fns o r fs (joinPath dir parser) p) m.intentParsers e.parsers

end Snips
