import Verif.Spec.Injection
import Verif.Spec.Relocation

/-! Vocabulary for statements about engines whose entity parsers had values injected. -/

namespace Snips

variable {π : Type}

/-- The parsers of the entities listed in the metadata of a gazetteer parser directory with these contents, each read from
its own directory. -/
def ReadsParsers (env : InjectEnv π) (sub : Fs) (parsers : List (Text × π)) : Prop :=
  ∃ bytes g, sub ["metadata.json".toList] = some (.file bytes) ∧ env.gazetteerMeta bytes = .ok g ∧
    List.Forall₂ (fun (n : Text × Text) (p : Text × π) => RelativeName n.2 ∧ p.1 = n.1 ∧
      env.fromFolder (fun q => sub (pathComponents n.2 ++ q)) = .ok p.2) g.parsers parsers

/-- The metadata, and the parsers of the gazetteer entities, of a builtin parser directory with these contents. -/
def ReadsBuiltin (env : InjectEnv π) (sub : Fs) (bytes : List Nat) (parsers : List (Text × π)) : Prop :=
  sub ["metadata.json".toList] = some (.file bytes) ∧
  ((env.builtinMeta bytes = .ok none ∧ parsers = []) ∨
    ∃ name, env.builtinMeta bytes = .ok (some name) ∧ RelativeName name ∧
      ReadsParsers env (fun q => sub (pathComponents name ++ q)) parsers)

/-- The dependencies load the directories as the injector supposes: one parser per listed entity; and what was written is
read back. -/
structure Composed (env : InjectEnv π) where
  custom : List (Text × π) → Text → Option (List Text) → Nat → Outcome (List CustomEntity)
  builtin : List Nat → List (Text × π) → Nat → Text → Option (List Kind) → Nat → Outcome (List BuiltinEntity)
  custom_reads : ∀ sub parsers, ReadsParsers env sub parsers → env.load.gazetteerParser sub = .ok (custom parsers)
  builtin_reads : ∀ sub bytes parsers, ReadsBuiltin env sub bytes parsers →
    env.load.builtinParser sub = .ok (builtin bytes parsers)
  read_back : ∀ p, env.fromFolder (env.dump p) = .ok p

/-- The entity parsers of the engine in a directory: metadata and gazetteer parsers of the builtin parser, and parsers of the
custom entities. -/
def EntityParsers (env : InjectEnv π) (fs : Fs) (dir : Path) (bytes : List Nat) (builtin custom : List (Text × π)) : Prop :=
  ∃ m c, Decodes fs (dir ++ ["nlu_engine.json".toList]) env.load.engine m ∧
    ReadsBuiltin env (fun q => fs (resolve (joinPath dir m.builtinEntityParser) ++ q)) bytes builtin ∧
    Decodes fs (joinPath dir m.customEntityParser ++ ["metadata.json".toList]) env.load.customParser c ∧
    ReadsParsers env (fun q => fs (resolve (joinPath (joinPath dir m.customEntityParser) c.parserDirectory) ++ q)) custom

/-- The directories of the parsers of two entities are apart: none is, or is inside of, the other. -/
def Apart (a b : Text × Path) : Prop := ¬ resolve a.2 <+: resolve b.2 ∧ ¬ resolve b.2 <+: resolve a.2

/-- The path is in the directory of the parser of some entity. -/
def InParserDir (d : EngineDesc) (q : Path) : Prop :=
  ∃ e ∈ d.customParsers ++ d.builtinParsers, resolve e.2 <+: q

/-- Every entity has its own parser directory, and in it is nothing else that the engine needs: no file read by the loader,
and no metadata of the entity parsers. -/
structure OwnDirs (env : InjectEnv π) (o : HashOrd) (fs : Fs) (dir : Path) (d : EngineDesc) : Prop where
  apart : (d.customParsers ++ d.builtinParsers).Pairwise Apart
  custom : (d.customParsers.map Prod.fst).Nodup
  builtin : (d.builtinParsers.map Prod.fst).Nodup
  loaded : ∀ p ∈ (loadEngine env.load o dir fs).2, ¬ InParserDir d (resolve p)
  gazetteers : ∀ m, Decodes fs (dir ++ ["nlu_engine.json".toList]) env.load.engine m →
    (∀ c, Decodes fs (joinPath dir m.customEntityParser ++ ["metadata.json".toList]) env.load.customParser c →
      ¬ InParserDir d (resolve (joinPath (joinPath dir m.customEntityParser) c.parserDirectory) ++ ["metadata.json".toList])) ∧
    ¬ InParserDir d (resolve (joinPath dir m.builtinEntityParser) ++ ["metadata.json".toList]) ∧
    ∀ bytes name, FileAt fs (joinPath dir m.builtinEntityParser ++ ["metadata.json".toList]) bytes →
      env.builtinMeta bytes = .ok (some name) →
      ¬ InParserDir d (resolve (joinPath (joinPath dir m.builtinEntityParser) name) ++ ["metadata.json".toList])

/-- The parser of an entity after the injection: with the values requested for the entity, or as before if none were.
`mine` says which entities are looked up here. -/
def AfterInjection (env : InjectEnv π) (d : EngineDesc) (s : Option (Text → Text)) (i : Injector) (mine : Text → Prop)
    (before after : Text × π) : Prop :=
  after.1 = before.1 ∧
  ((∃ values out, (before.1, values) ∈ i.entityValues ∧ mine before.1 ∧ ToInject env d s before.1 values out ∧
      env.injectNewValues before.2 out true i.fromVanilla = .ok after.2) ∨
    ¬ (before.1 ∈ i.entityValues.keys ∧ mine before.1) ∧ after.2 = before.2)

end Snips
