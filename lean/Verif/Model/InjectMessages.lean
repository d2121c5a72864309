import Verif.Model.Injection
import Verif.Model.Messages

/-!
# What the errors of an injection say

Model of src/injection/injection.rs and src/injection/errors.rs with messages.  In this file the list of texts of a `Report` is
the list of all messages of the error, the outermost first: the text of `NluInjectionErrorKind`, followed by the messages of
its cause if there is one.
-/

namespace Snips

/-- `Display` of `InternalInjectionError { msg }` (src/injection/errors.rs:14-15). -/
def internalError (text : Text) : Text := "Internal injection error: ".toList ++ text

/-- `Display` of `EntityNotInjectable { msg }` (src/injection/errors.rs:12-13). -/
def notInjectable (text : Text) : Text := "Entity is not injectable: ".toList ++ text

/-- An error made without cause (`ok_or_else`, `map_err`): its only message is the text given. -/
def Report.created {α : Type} (text : Text) : Outcome α → Report α
  | .ok a => .ok a
  | .err e => .err [text] e
  | .panic => .panic

/-- The text of the error at the root, put behind the contexts: they are then all the messages. -/
def Report.withRoot {α : Type} (msg : MessageEnv) : Report α → Report α
  | .ok a => .ok a
  | .err contexts root => .err (msg.messages contexts root) root
  | .panic => .panic

/-- The same on a computation that reads files. -/
def TLoad.withRoot {α : Type} (msg : MessageEnv) (m : TLoad α) : TLoad α := fun fs => ((m fs).1.withRoot msg, (m fs).2)

/-- A report of a computation that reads nothing. -/
def TLoad.report {α : Type} (r : Report α) : TLoad α := fun _ => (r, [])

/-- `fs::File::open(path).with_context(opening)?` and `serde_json::from_reader(file).with_context(decoding)?`, both with an
`InternalInjectionError` that ends with the path. -/
def injectFile {α : Type} (msg : MessageEnv) (p : Path) (opening decoding : String) (decode : List Nat → Outcome α) :
    TLoad α :=
  (TLoad.file p (some (internalError (around opening (msg.quote (pathText p)) "")))
    (some (internalError (around decoding (msg.quote (pathText p)) ""))) decode).withRoot msg

/-- Derived `Debug` of `CustomEntityParserUsage` (src/entity_parser/custom_entity_parser.rs:33-38). -/
def StemUsage.debug : StemUsage → Text
  | .withStems => "WithStems".toList
  | .withoutStems => "WithoutStems".toList
  | .withAndWithoutStems => "WithAndWithoutStems".toList

section

variable {π : Type} (msg : MessageEnv) (env : InjectEnv π)

/-- `get_nlu_engine_info` (src/injection/injection.rs:328-369). -/
def tgetEngineInfo (dir : Path) : TLoad EngineInfo := do
  let m ← injectFile msg (dir ++ ["nlu_engine.json".toList]) "could not open nlu engine model file in "
    "invalid nlu engine model file in " env.load.engine
  let tok ← TLoad.report (Report.created (internalError "invalid nlu engine language".toList) (env.language m.languageCode))
  pure ⟨tok, joinPath dir m.builtinEntityParser, joinPath dir m.customEntityParser, m.dataset.entities.keys⟩

/-- `get_builtin_parser_info` (src/injection/injection.rs:230-279). -/
def tgetBuiltinInfo (dir : Path) : TLoad (Option GazetteerInfo) := do
  let m ← injectFile msg (dir ++ ["metadata.json".toList]) "could not open builtin entity parser metadata file in "
    "invalid builtin entity parser metadata format in " env.builtinMeta
  match m with
  | some name => do
    let g ← injectFile msg (joinPath dir name ++ ["metadata.json".toList])
      "could not open gazetteer parser metadata file in " "invalid gazetteer parser metadata format in " env.gazetteerMeta
    pure (some ⟨joinPath dir name, g.parsers⟩)
  | none => pure none

/-- `get_custom_parser_info` (src/injection/injection.rs:281-326). -/
def tgetCustomInfo (dir : Path) : TLoad CustomInfo := do
  let m ← injectFile msg (dir ++ ["metadata.json".toList]) "could not open custom entity parser metadata file in "
    "invalid custom entity parser metadata format in " env.load.customParser
  let g ← injectFile msg (joinPath dir m.parserDirectory ++ ["metadata.json".toList])
    "could not open gazetteer parser metadata file in " "invalid gazetteer parser metadata format in " env.gazetteerMeta
  pure ⟨⟨joinPath dir m.parserDirectory, g.parsers⟩, m.usage⟩

/-- `find(..).map(..).ok_or_else(..)` (src/injection/injection.rs:182-195, :203-213). -/
def GazetteerInfo.tdirOf (g : GazetteerInfo) (entity : Text) : Report Path :=
  Report.created (notInjectable (around "could not find entity '" entity "' in engine")) (g.dirOf entity)

/-- The closure of `get_entity_parsers_dirs` (src/injection/injection.rs:180-226). -/
def tentityParserDir (info : EngineInfo) (builtin : Option GazetteerInfo) (custom : CustomInfo) (entity : Text) :
    Report Path :=
  if info.customEntities.contains entity then custom.gazetteer.tdirOf entity
  else if env.isGazetteerKind entity then
    match builtin with
    | some g => g.tdirOf entity
    | none => Report.created (notInjectable (around "could not find gazetteer entity '" entity "' in engine"))
      (.err (.entityNotInjectable entity))
  else if env.isGrammarKind entity then
    Report.created (notInjectable (around "Entity injection is not allowed for grammar entities: '" entity "'"))
      (.err (.entityNotInjectable entity))
  else Report.created (notInjectable (around "Unknown entity: '" entity "'")) (.err (.entityNotInjectable entity))

/-- `get_entity_parsers_dirs` (src/injection/injection.rs:172-228). -/
def tgetEntityParsersDirs (o : HashOrd) (info : EngineInfo) (builtin : Option GazetteerInfo) (custom : CustomInfo)
    (values : Map Text (List Text)) : TLoad (Map Text Path) :=
  TLoad.mapM (fun entity => do
    let dir ← TLoad.report (tentityParserDir env info builtin custom entity)
    pure (entity, dir)) (o.order 0 values.keys)

/-- `load_engine_shared_resources` (src/resources/loading.rs:63-77). -/
def tloadEngineSharedResources (env : LoadEnv) (o : HashOrd) (dir : Path) : TLoad (TextFns × Resources × Ext) := do
  let path := dir ++ ["nlu_engine.json".toList]
  let m ← TLoad.file path (some (around "Could not open nlu engine file " (msg.quote (pathText path)) ""))
    (some "Could not deserialize nlu engine json file".toList) env.engine
  tloadResourcesOf msg env o dir m

/-- The stemmer of the shared resources, given or loaded (src/injection/injection.rs:103-116). -/
def tinjectStemmer (o : HashOrd) (i : Injector) : TLoad (Option (Text → Text)) :=
  match i.sharedStemmer with
  | some s => pure s
  | none => do
    let r ← ((tloadEngineSharedResources msg env.load o i.dir).context
      (internalError (around "Could not load shared resources from " (msg.quote (pathText i.dir)) ""))).withRoot msg
    pure (r.2.1.stemmer.map fun s => s.stem r.1)

/-- What is determined before anything is written (src/injection/injection.rs:93-137).  The only error of `injectedValues` is
that of the missing stemmer (src/injection/injection.rs:392-398). -/
def tprepareInjection (o : HashOrd) (i : Injector) : TLoad (Map Text Path × Map Text (List EntityValue)) := do
  let info ← tgetEngineInfo msg env i.dir
  let builtin ← tgetBuiltinInfo msg env info.builtinDir
  let custom ← tgetCustomInfo msg env info.customDir
  let dirs ← tgetEntityParsersDirs env o info builtin custom i.entityValues
  let stemmer ← tinjectStemmer msg env o i
  let values ← TLoad.mapM (fun ev : Text × List Text => do
    let vs ← TLoad.report (Report.created
      (internalError (around "found " custom.usage.debug " parser usage but no stemmer in NLU engine."))
      (injectedValues env info custom stemmer ev.1 ev.2))
    pure (ev.1, vs)) (o.order 1 i.entityValues)
  pure (dirs, values)

/-- Body of the loop (src/injection/injection.rs:140-164). -/
def tinjectEntity (interrupts : Interrupts) (fromVanilla : Bool) (dirs : Map Text Path) (entity : Text)
    (values : List EntityValue) (n : Nat) (fs : Fs) : Report Unit × Fs :=
  match dirs.get entity with
  | none => (.panic, fs)
  | some dir =>
    match env.fromFolder (subtree fs dir) with
    | .panic => (.panic, fs)
    | .err e => (.err [internalError (around "could not load gazetteer parser in " (msg.quote (pathText dir)) ""),
        msg.root e] e, fs)
    | .ok parser =>
      match env.injectNewValues parser values true fromVanilla with
      | .panic => (.panic, fs)
      | .err e => (.err [internalError (around "could not inject values for entity '" entity "'"), msg.root e] e, fs)
      | .ok parser =>
        match removeDirAll interrupts n dir fs with
        | (.panic, fs) => (.panic, fs)
        | (.err e, fs) => (.err [internalError (around "could not remove previous parser at " (msg.quote (pathText dir)) ""),
            msg.root e] e, fs)
        | (.ok (), fs) =>
          match dumpParser env interrupts (n + 1) dir parser fs with
          | (.panic, fs) => (.panic, fs)
          | (.err e, fs) => (.err [internalError (around "failed to dump gazetteer parser in " (msg.quote (pathText dir)) ""),
              msg.root e] e, fs)
          | (.ok (), fs) => (.ok (), fs)

/-- The loop (src/injection/injection.rs:139-165). -/
def tinjectAll (interrupts : Interrupts) (fromVanilla : Bool) (dirs : Map Text Path) :
    List (Text × List EntityValue) → (n : Nat) → Fs → Report Unit × Fs
  | [], _, fs => (.ok (), fs)
  | ev :: rest, n, fs =>
    match tinjectEntity msg env interrupts fromVanilla dirs ev.1 ev.2 n fs with
    | (.ok (), fs) => tinjectAll interrupts fromVanilla dirs rest (n + 2) fs
    | r => r

/-- `NluInjector::inject` (src/injection/injection.rs:89-169). -/
def tinject (o : HashOrd) (interrupts : Interrupts) (i : Injector) (fs : Fs) : Report Unit × Fs :=
  match (tprepareInjection msg env o i fs).1 with
  | .ok dv => tinjectAll msg env interrupts i.fromVanilla dv.1 (o.order 2 dv.2) 0 fs
  | .err contexts root => (.err contexts root, fs)
  | .panic => (.panic, fs)

end

end Snips
