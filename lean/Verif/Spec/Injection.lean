import Verif.Model.Injection
import Verif.Spec.Loading

/-! Vocabulary for statements about injection. -/

namespace Snips

/-- What an engine directory says about its entity parsers: the word splitting of its language, its custom
entities, the usage of stems by the parser of custom entities, and the directory of the parser of each custom
and of each builtin gazetteer entity. -/
structure EngineDesc where
  words : Text → List Text
  customEntities : List Text
  usage : StemUsage
  customParsers : List (Text × Path)
  builtinParsers : List (Text × Path)

/-- The file at a path decodes to a value. -/
def Decodes {α : Type} (fs : Fs) (p : Path) (decode : List Nat → Outcome α) (a : α) : Prop :=
  ∃ bytes, FileAt fs p bytes ∧ decode bytes = .ok a

/-- The parsers listed in the metadata of a gazetteer parser directory. -/
def ListsParsers {π : Type} (env : InjectEnv π) (fs : Fs) (dir : Path) (parsers : List (Text × Path)) : Prop :=
  ∃ g, Decodes fs (dir ++ ["metadata.json".toList]) env.gazetteerMeta g ∧
    parsers = g.parsers.map fun p => (p.1, joinPath dir p.2)

/-- The engine directory is described by `d`. -/
def Describes {π : Type} (env : InjectEnv π) (fs : Fs) (dir : Path) (d : EngineDesc) : Prop :=
  ∃ m, Decodes fs (dir ++ ["nlu_engine.json".toList]) env.load.engine m ∧
    env.language m.languageCode = .ok d.words ∧
    d.customEntities = m.dataset.entities.keys ∧
    (∃ sub, Decodes fs (joinPath dir m.builtinEntityParser ++ ["metadata.json".toList]) env.builtinMeta sub ∧
      ((sub = none ∧ d.builtinParsers = []) ∨
        ∃ name, sub = some name ∧
          ListsParsers env fs (joinPath (joinPath dir m.builtinEntityParser) name) d.builtinParsers)) ∧
    (∃ c, Decodes fs (joinPath dir m.customEntityParser ++ ["metadata.json".toList]) env.load.customParser c ∧
      d.usage = c.usage ∧
      ListsParsers env fs (joinPath (joinPath dir m.customEntityParser) c.parserDirectory) d.customParsers)

/-- The directory of the parser of an entity: custom entities are looked up among the custom parsers, builtin
gazetteer entities that are not custom among the builtin ones. -/
def ParserDir {π : Type} (env : InjectEnv π) (d : EngineDesc) (entity : Text) (p : Path) : Prop :=
  (entity ∈ d.customEntities ∧ d.customParsers.lookup entity = some p) ∨
  (entity ∉ d.customEntities ∧ env.isGazetteerKind entity = true ∧ d.builtinParsers.lookup entity = some p)

/-- Values can be injected for the entity. -/
def CanInject {π : Type} (env : InjectEnv π) (d : EngineDesc) (entity : Text) : Prop :=
  ∃ p, ParserDir env d entity p

/-- Values of custom entities are requested and the parser of custom entities uses stems. -/
def NeedsStemmer (d : EngineDesc) (i : Injector) : Prop :=
  d.usage ≠ .withoutStems ∧ ∃ entity values, (entity, values) ∈ i.entityValues ∧
    entity ∈ d.customEntities ∧ values ≠ []

/-- The resources given to the injector, or else those of the engine, have this stemmer (or none). -/
def StemmerIs {π : Type} (env : InjectEnv π) (o : HashOrd) (fs : Fs) (i : Injector) (s : Option (Text → Text)) : Prop :=
  i.sharedStemmer = some s ∨
  i.sharedStemmer = none ∧ ∃ r, (loadEngineSharedResources env.load o i.dir fs).1 = .ok r ∧
    s = r.2.1.stemmer.map fun st => st.stem r.1

/-- The value as the user gave it, lower-cased. -/
def plainForm {π : Type} (env : InjectEnv π) (v : Text) : EntityValue := ⟨env.lower v, v⟩

/-- The value as the user gave it, lower-cased, its words replaced by their stems and separated by one
space. -/
def stemmedForm {π : Type} (env : InjectEnv π) (d : EngineDesc) (stem : Text → Text) (v : Text) : EntityValue :=
  ⟨List.intercalate [' '] ((d.words (env.lower v)).map stem), v⟩

/-- The values to inject for the values given by the user: for builtin entities, one lower-cased form per
value; for custom entities, one stemmed form per value, or the lower-cased forms, or both kinds, the last two
without repetition. -/
def ToInject {π : Type} (env : InjectEnv π) (d : EngineDesc) (s : Option (Text → Text)) (entity : Text)
    (values : List Text) (out : List EntityValue) : Prop :=
  if entity ∈ d.customEntities then
    match d.usage with
    | .withStems => (values = [] ∧ out = []) ∨ ∃ stem, s = some stem ∧ out = values.map (stemmedForm env d stem)
    | .withoutStems => out.Nodup ∧ out.Sublist (values.map (plainForm env)) ∧ ∀ v ∈ values, plainForm env v ∈ out
    | .withAndWithoutStems => (values = [] ∧ out = []) ∨ ∃ stem, s = some stem ∧ out.Nodup ∧
        out.Sublist (values.map (plainForm env) ++ values.map (stemmedForm env d stem)) ∧
        ∀ v ∈ values, plainForm env v ∈ out ∧ stemmedForm env d stem v ∈ out
  else out = values.map (plainForm env)

/-- No parser directory of the request is, or is inside of, another one. -/
def SeparateDirs {π : Type} (env : InjectEnv π) (d : EngineDesc) (i : Injector) : Prop :=
  ∀ e ∈ i.entityValues.keys, ∀ e' ∈ i.entityValues.keys, e ≠ e' → ∀ p p', ParserDir env d e p → ParserDir env d e' p' →
    ¬ resolve p <+: resolve p'

/-- The parser of an entity in its former state. -/
def OldParser (fs fs' : Fs) (p : Path) : Prop := ∀ q, fs' (resolve p ++ q) = fs (resolve p ++ q)

/-- The parser of an entity in its new state: what is written when `values` have been injected in the parser
that was read. -/
def NewParser {π : Type} (env : InjectEnv π) (fromVanilla : Bool) (fs fs' : Fs) (p : Path)
    (values : List EntityValue) : Prop :=
  ∃ old new, env.fromFolder (fun q => fs (resolve p ++ q)) = .ok old ∧
    env.injectNewValues old values true fromVanilla = .ok new ∧
    ∀ q, fs' (resolve p ++ q) = env.dump new q

end Snips
