import Verif.Model.InjectMessages
import Verif.Spec.Injection
import Verif.Spec.Messages

/-! Vocabulary for statements about the messages of an injection. -/

namespace Snips

/-- The metadata of the builtin entity parser of the engine in a directory names a gazetteer parser. -/
def HasGazetteers {π : Type} (env : InjectEnv π) (fs : Fs) (dir : Path) : Prop :=
  ∃ m name, Decodes fs (dir ++ ["nlu_engine.json".toList]) env.load.engine m ∧
    Decodes fs (joinPath dir m.builtinEntityParser ++ ["metadata.json".toList]) env.builtinMeta (some name)

/-- Why values cannot be injected for an entity, in words. -/
inductive WhyNot {π : Type} (env : InjectEnv π) (fs : Fs) (dir : Path) (d : EngineDesc) (entity : Text) : Text → Prop
  /-- a custom entity without parser -/
  | custom (h : entity ∈ d.customEntities) (hl : d.customParsers.lookup entity = none) :
    WhyNot env fs dir d entity ("could not find entity '".toList ++ entity ++ "' in engine".toList)
  /-- a gazetteer entity of which the engine has no parser, although it has some for others -/
  | builtin (h : entity ∉ d.customEntities) (hk : env.isGazetteerKind entity = true) (hg : HasGazetteers env fs dir)
      (hl : d.builtinParsers.lookup entity = none) :
    WhyNot env fs dir d entity ("could not find entity '".toList ++ entity ++ "' in engine".toList)
  /-- a gazetteer entity, and the engine has no gazetteer parser -/
  | noGazetteers (h : entity ∉ d.customEntities) (hk : env.isGazetteerKind entity = true) (hg : ¬HasGazetteers env fs dir) :
    WhyNot env fs dir d entity ("could not find gazetteer entity '".toList ++ entity ++ "' in engine".toList)
  /-- an entity recognized by a grammar -/
  | grammar (h : entity ∉ d.customEntities) (hk : env.isGazetteerKind entity = false) (hg : env.isGrammarKind entity = true) :
    WhyNot env fs dir d entity
      ("Entity injection is not allowed for grammar entities: '".toList ++ entity ++ "'".toList)
  /-- none of these -/
  | unknown (h : entity ∉ d.customEntities) (hk : env.isGazetteerKind entity = false)
      (hg : env.isGrammarKind entity = false) :
    WhyNot env fs dir d entity ("Unknown entity: '".toList ++ entity ++ "'".toList)

/-- The documents read by an injection, with what is said when they cannot be opened or decoded. -/
inductive InjectDocument {π : Type} (env : InjectEnv π) (fs : Fs) (dir : Path) :
    Path → (opening decoding : String) → (undecodable : List Nat → Err → Prop) → Prop
  | engine : InjectDocument env fs dir (dir ++ ["nlu_engine.json".toList]) "could not open nlu engine model file in "
      "invalid nlu engine model file in " fun bytes e => env.load.engine bytes = .err e
  | builtin (m) (hm : Decodes fs (dir ++ ["nlu_engine.json".toList]) env.load.engine m) :
    InjectDocument env fs dir (joinPath dir m.builtinEntityParser ++ ["metadata.json".toList])
      "could not open builtin entity parser metadata file in " "invalid builtin entity parser metadata format in "
      fun bytes e => env.builtinMeta bytes = .err e
  | builtinGazetteers (m name) (hm : Decodes fs (dir ++ ["nlu_engine.json".toList]) env.load.engine m)
      (hn : Decodes fs (joinPath dir m.builtinEntityParser ++ ["metadata.json".toList]) env.builtinMeta (some name)) :
    InjectDocument env fs dir (joinPath (joinPath dir m.builtinEntityParser) name ++ ["metadata.json".toList])
      "could not open gazetteer parser metadata file in " "invalid gazetteer parser metadata format in "
      fun bytes e => env.gazetteerMeta bytes = .err e
  | custom (m) (hm : Decodes fs (dir ++ ["nlu_engine.json".toList]) env.load.engine m) :
    InjectDocument env fs dir (joinPath dir m.customEntityParser ++ ["metadata.json".toList])
      "could not open custom entity parser metadata file in " "invalid custom entity parser metadata format in "
      fun bytes e => env.load.customParser bytes = .err e
  | customGazetteers (m c) (hm : Decodes fs (dir ++ ["nlu_engine.json".toList]) env.load.engine m)
      (hc : Decodes fs (joinPath dir m.customEntityParser ++ ["metadata.json".toList]) env.load.customParser c) :
    InjectDocument env fs dir (joinPath (joinPath dir m.customEntityParser) c.parserDirectory ++ ["metadata.json".toList])
      "could not open gazetteer parser metadata file in " "invalid gazetteer parser metadata format in "
      fun bytes e => env.gazetteerMeta bytes = .err e

/-- Nothing can be read at a path, or what is there cannot be decoded; two messages, the first with the path. -/
def Unread (msg : MessageEnv) (fs : Fs) (p : Path) (opening decoding : String) (undecodable : List Nat → Err → Prop)
    (messages : List Text) (root : Err) : Prop :=
  (NoFile fs p ∧ root = .external 210 ∧ messages =
    ["Internal injection error: ".toList ++ opening.toList ++ msg.quote (pathText p), msg.root root]) ∨
  ∃ bytes, FileAt fs p bytes ∧ undecodable bytes root ∧ messages =
    ["Internal injection error: ".toList ++ decoding.toList ++ msg.quote (pathText p), msg.root root]

/-- One of the documents cannot be read, or the language of the engine is not known. -/
def CannotRead {π : Type} (msg : MessageEnv) (env : InjectEnv π) (fs : Fs) (dir : Path) (messages : List Text) (root : Err) :
    Prop :=
  (∃ p opening decoding undecodable, InjectDocument env fs dir p opening decoding undecodable ∧
    Unread msg fs p opening decoding undecodable messages root) ∨
  ∃ m, Decodes fs (dir ++ ["nlu_engine.json".toList]) env.load.engine m ∧ env.language m.languageCode = .err root ∧
    messages = ["Internal injection error: ".toList ++ "invalid nlu engine language".toList]

/-- The name of a usage of stems. -/
def usageName : StemUsage → Text
  | .withStems => "WithStems".toList
  | .withoutStems => "WithoutStems".toList
  | .withAndWithoutStems => "WithAndWithoutStems".toList

/-- The messages say that the parser in a directory could not be removed, or not be written. -/
def SaysDamaged (msg : MessageEnv) (contexts : List Text) (p : Path) : Prop :=
  contexts.head? = some ("Internal injection error: ".toList ++ "could not remove previous parser at ".toList ++
    msg.quote (pathText p)) ∨
  contexts.head? = some ("Internal injection error: ".toList ++ "failed to dump gazetteer parser in ".toList ++
    msg.quote (pathText p))

/-- The messages say that the parser in a directory could not be loaded, or that the values of an entity could not be injected
in it. -/
def SaysKept (msg : MessageEnv) (contexts : List Text) (entity : Text) (p : Path) : Prop :=
  contexts.head? = some ("Internal injection error: ".toList ++ "could not load gazetteer parser in ".toList ++
    msg.quote (pathText p)) ∨
  contexts.head? = some ("Internal injection error: ".toList ++ "could not inject values for entity '".toList ++ entity ++ "'".toList)

end Snips
