import Verif.Model.Loading

/-! # Model of src/injection/injection.rs

The gazetteer entity parsers are kept on disk by a dependency (crate `gazetteer-entity-parser`, external):
`from_folder` sees the contents of a directory, `dump` determines the contents of a directory.

Writing operations can be interrupted, by a failure of the operating system or because the process is killed:
the directory being worked on is then left with arbitrary contents. -/

namespace Snips

/-- `EntityValue` of the crate `gazetteer-entity-parser`. -/
structure EntityValue where
  rawValue : Text
  resolvedValue : Text
deriving DecidableEq, Repr

/-- `BuiltinParserMetadata` and `GazetteerParserMetadata` of the crate `snips-nlu-parsers`: the directory of
the gazetteer parser, and the entities with their directories. -/
structure GazetteerJson where
  parsers : List (Text × Text)

/-- What the injector takes from its dependencies (all external), besides what the loader does. -/
structure InjectEnv (π : Type) where
  load : LoadEnv
  /-- `BuiltinParserMetadata`: its `gazetteer_parser` -/
  builtinMeta : List Nat → Outcome (Option Text)
  /-- `GazetteerParserMetadata` -/
  gazetteerMeta : List Nat → Outcome GazetteerJson
  /-- `NluUtilsLanguage::from_str` with `tokenize_light` in this language -/
  language : Text → Outcome (Text → List Text)
  /-- `BuiltinGazetteerEntityKind::from_identifier(..).is_ok()` -/
  isGazetteerKind : Text → Bool
  /-- `GrammarEntityKind::from_identifier(..).is_ok()` -/
  isGrammarKind : Text → Bool
  /-- `str::to_lowercase` -/
  lower : Text → Text
  /-- `GazetteerEntityParser::from_folder` -/
  fromFolder : Fs → Outcome π
  /-- `GazetteerEntityParser::inject_new_values(values, prepend, from_vanilla)` -/
  injectNewValues : π → List EntityValue → Bool → Bool → Outcome π
  /-- `GazetteerEntityParser::dump` -/
  dump : π → Fs

/-- `NluInjector` (src/injection/injection.rs:53-58); of the shared resources only the stemmer is used. -/
structure Injector where
  dir : Path
  entityValues : Map Text (List Text)
  fromVanilla : Bool
  sharedStemmer : Option (Option (Text → Text))

/-- `NluInjector::new` (src/injection/injection.rs:61-68). -/
def Injector.new (dir : Path) : Injector := ⟨dir, [], false, none⟩

/-- `NluInjector::add_value` (src/injection/injection.rs:70-76). -/
def Injector.addValue (i : Injector) (entity value : Text) : Injector :=
  { i with entityValues := i.entityValues.insert entity ((i.entityValues.get entity).getD [] ++ [value]) }

/-- `NluInjector::from_vanilla` (src/injection/injection.rs:78-82). -/
def Injector.withVanilla (i : Injector) (fromVanilla : Bool) : Injector := { i with fromVanilla := fromVanilla }

/-- `NluInjector::shared_resources` (src/injection/injection.rs:84-87). -/
def Injector.withResources (i : Injector) (stemmer : Option (Text → Text)) : Injector :=
  { i with sharedStemmer := some stemmer }

/-- `NluEngineInfo` (src/injection/injection.rs:35-40); the language by its `tokenize_light`. -/
structure EngineInfo where
  tokenizeLight : Text → List Text
  builtinDir : Path
  customDir : Path
  customEntities : List Text

/-- `BuiltinGazetteerParserInfo` (src/injection/injection.rs:42-45). -/
structure GazetteerInfo where
  dir : Path
  parsers : List (Text × Text)

/-- `CustomGazetteerParserInfo` (src/injection/injection.rs:47-51). -/
structure CustomInfo where
  gazetteer : GazetteerInfo
  usage : StemUsage

/-- `get_nlu_engine_info` (src/injection/injection.rs:328-369). -/
def getEngineInfo {π : Type} (env : InjectEnv π) (dir : Path) : Load EngineInfo := do
  let m ← Load.file (dir ++ ["nlu_engine.json".toList]) env.load.engine
  let tok ← Load.lift (env.language m.languageCode)
  pure ⟨tok, joinPath dir m.builtinEntityParser, joinPath dir m.customEntityParser, m.dataset.entities.keys⟩

/-- `get_builtin_parser_info` (src/injection/injection.rs:230-279). -/
def getBuiltinInfo {π : Type} (env : InjectEnv π) (dir : Path) : Load (Option GazetteerInfo) := do
  let m ← Load.file (dir ++ ["metadata.json".toList]) env.builtinMeta
  match m with
  | some name => do
    let g ← Load.file (joinPath dir name ++ ["metadata.json".toList]) env.gazetteerMeta
    pure (some ⟨joinPath dir name, g.parsers⟩)
  | none => pure none

/-- `get_custom_parser_info` (src/injection/injection.rs:281-326). -/
def getCustomInfo {π : Type} (env : InjectEnv π) (dir : Path) : Load CustomInfo := do
  let m ← Load.file (dir ++ ["metadata.json".toList]) env.load.customParser
  let g ← Load.file (joinPath dir m.parserDirectory ++ ["metadata.json".toList]) env.gazetteerMeta
  pure ⟨⟨joinPath dir m.parserDirectory, g.parsers⟩, m.usage⟩

/-- `parsers_metadata.iter().find(..).map(..).ok_or_else(..)` (src/injection/injection.rs:182-195, :203-213). -/
def GazetteerInfo.dirOf (g : GazetteerInfo) (entity : Text) : Outcome Path :=
  match g.parsers.find? fun p => p.1 = entity with
  | some p => .ok (joinPath g.dir p.2)
  | none => .err (.entityNotInjectable entity)

/-- The closure of `get_entity_parsers_dirs` (src/injection/injection.rs:180-226). -/
def entityParserDir {π : Type} (env : InjectEnv π) (info : EngineInfo) (builtin : Option GazetteerInfo)
    (custom : CustomInfo) (entity : Text) : Outcome Path :=
  if info.customEntities.contains entity then custom.gazetteer.dirOf entity
  else if env.isGazetteerKind entity then
    match builtin with
    | some g => g.dirOf entity
    | none => .err (.entityNotInjectable entity)
  else if env.isGrammarKind entity then .err (.entityNotInjectable entity)
  else .err (.entityNotInjectable entity)

/-- `get_entity_parsers_dirs` (src/injection/injection.rs:172-228); `o` is the iteration order of the
request. -/
def getEntityParsersDirs {π : Type} (env : InjectEnv π) (o : HashOrd) (info : EngineInfo)
    (builtin : Option GazetteerInfo) (custom : CustomInfo) (values : Map Text (List Text)) :
    Outcome (Map Text Path) :=
  mapOutcome (fun entity => do
    let dir ← entityParserDir env info builtin custom entity
    .ok (entity, dir)) (o.order 0 values.keys)

/-- `normalize_entity_value` (src/injection/injection.rs:371-379) with `normalize` (:31-33). -/
def normalizeEntityValue {π : Type} (env : InjectEnv π) (values : List Text) : List EntityValue :=
  values.map fun v => ⟨env.lower v, v⟩

/-- The closure of `stem_entity_value` (src/injection/injection.rs:391-407). -/
def stemOne (tokenizeLight : Text → List Text) (stemmer : Option (Text → Text)) (v : EntityValue) :
    Outcome EntityValue := do
  let stem ← Outcome.ofOption (.site 44) stemmer
  .ok ⟨joinWith [' '] ((tokenizeLight v.rawValue).map stem), v.resolvedValue⟩

/-- `stem_entity_value` (src/injection/injection.rs:381-420). -/
def stemEntityValue (info : EngineInfo) (custom : CustomInfo) (stemmer : Option (Text → Text))
    (values : List EntityValue) : Outcome (List EntityValue) :=
  match custom.usage with
  | .withStems => mapOutcome (stemOne info.tokenizeLight stemmer) values
  | .withoutStems => .ok (unique (values ++ []))
  | .withAndWithoutStems => do
    let stemmed ← mapOutcome (stemOne info.tokenizeLight stemmer) values
    .ok (unique (values ++ stemmed))

/-- The values injected for one entity (src/injection/injection.rs:123-136). -/
def injectedValues {π : Type} (env : InjectEnv π) (info : EngineInfo) (custom : CustomInfo)
    (stemmer : Option (Text → Text)) (entity : Text) (values : List Text) : Outcome (List EntityValue) :=
  if info.customEntities.contains entity then
    stemEntityValue info custom stemmer (normalizeEntityValue env values)
  else .ok (normalizeEntityValue env values)

/-- The contents of a directory. -/
def subtree (fs : Fs) (p : Path) : Fs := fun q => fs (resolve p ++ q)

/-- The disk with the contents of a directory (and the directory itself) replaced. -/
def graft (fs : Fs) (p : Path) (sub : Fs) : Fs := fun q =>
  if resolve p <+: q then sub (q.drop (resolve p).length) else fs q

/-- Which writing operations are interrupted: `some left` leaves the directory concerned as `left`. -/
abbrev Interrupts := Nat → Option Fs

/-- `fs::remove_dir_all` (operation number `n`). -/
def removeDirAll (interrupts : Interrupts) (n : Nat) (dir : Path) (fs : Fs) : Outcome Unit × Fs :=
  match interrupts n with
  | some left => (.err (.external 220), graft fs dir left)
  | none => (.ok (), graft fs dir fun _ => none)

/-- `gazetteer_parser.dump` (operation number `n`). -/
def dumpParser {π : Type} (env : InjectEnv π) (interrupts : Interrupts) (n : Nat) (dir : Path) (parser : π)
    (fs : Fs) : Outcome Unit × Fs :=
  match interrupts n with
  | some left => (.err (.external 221), graft fs dir left)
  | none => (.ok (), graft fs dir (env.dump parser))

/-- Replacing of a parser on disk (src/injection/injection.rs:154-164). -/
def replaceParser {π : Type} (env : InjectEnv π) (interrupts : Interrupts) (n : Nat) (dir : Path) (parser : π)
    (fs : Fs) : Outcome Unit × Fs :=
  match removeDirAll interrupts n dir fs with
  | (.ok (), fs) => dumpParser env interrupts (n + 1) dir parser fs
  | r => r

/-- Reading of a parser and injection in memory (src/injection/injection.rs:142-152). -/
def updatedParser {π : Type} (env : InjectEnv π) (fromVanilla : Bool) (values : List EntityValue) (dir : Path)
    (fs : Fs) : Outcome π := do
  let parser ← env.fromFolder (subtree fs dir)
  env.injectNewValues parser values true fromVanilla

/-- Body of the loop (src/injection/injection.rs:140-164); `parsers_dirs[&entity]` panics if absent. -/
def injectEntity {π : Type} (env : InjectEnv π) (interrupts : Interrupts) (fromVanilla : Bool)
    (dirs : Map Text Path) (entity : Text) (values : List EntityValue) (n : Nat) (fs : Fs) : Outcome Unit × Fs :=
  match dirs.get entity with
  | none => (.panic, fs)
  | some dir =>
    match updatedParser env fromVanilla values dir fs with
    | .ok parser => replaceParser env interrupts n dir parser fs
    | .err e => (.err e, fs)
    | .panic => (.panic, fs)

/-- The loop (src/injection/injection.rs:139-165). -/
def injectAll {π : Type} (env : InjectEnv π) (interrupts : Interrupts) (fromVanilla : Bool)
    (dirs : Map Text Path) : List (Text × List EntityValue) → (n : Nat) → Fs → Outcome Unit × Fs
  | [], _, fs => (.ok (), fs)
  | ev :: rest, n, fs =>
    match injectEntity env interrupts fromVanilla dirs ev.1 ev.2 n fs with
    | (.ok (), fs) => injectAll env interrupts fromVanilla dirs rest (n + 2) fs
    | r => r

/-- The stemmer of the shared resources, given or loaded (src/injection/injection.rs:103-116). -/
def injectStemmer {π : Type} (env : InjectEnv π) (o : HashOrd) (i : Injector) : Load (Option (Text → Text)) :=
  match i.sharedStemmer with
  | some s => pure s
  | none => do
    let r ← loadEngineSharedResources env.load o i.dir
    pure (r.2.1.stemmer.map fun s => s.stem r.1)

/-- What is determined before anything is written (src/injection/injection.rs:93-137): the directories of the
parsers and the values to inject. -/
def prepareInjection {π : Type} (env : InjectEnv π) (o : HashOrd) (i : Injector) :
    Load (Map Text Path × Map Text (List EntityValue)) := do
  let info ← getEngineInfo env i.dir
  let builtin ← getBuiltinInfo env info.builtinDir
  let custom ← getCustomInfo env info.customDir
  let dirs ← Load.lift (getEntityParsersDirs env o info builtin custom i.entityValues)
  let stemmer ← injectStemmer env o i
  let values ← Load.lift (mapOutcome (fun ev : Text × List Text => do
    let vs ← injectedValues env info custom stemmer ev.1 ev.2
    .ok (ev.1, vs)) (o.order 1 i.entityValues))
  pure (dirs, values)

/-- `NluInjector::inject` (src/injection/injection.rs:89-169). -/
def Injector.inject {π : Type} (env : InjectEnv π) (o : HashOrd) (interrupts : Interrupts) (i : Injector) (fs : Fs) :
    Outcome Unit × Fs :=
  match (prepareInjection env o i fs).1 with
  | .ok dv => injectAll env interrupts i.fromVanilla dv.1 (o.order 2 dv.2) 0 fs
  | .err e => (.err e, fs)
  | .panic => (.panic, fs)

end Snips
