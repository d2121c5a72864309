import Verif.Model.Messages
import Verif.Spec.Layout

/-! Vocabulary for statements about messages. -/

namespace Snips

/-- The outcome without messages. -/
def Report.outcome {α : Type} : Report α → Outcome α
  | .ok a => .ok a
  | .err _ e => .err e
  | .panic => .panic

/-- One of the messages contains the text. -/
def Mentions (messages : List Text) (t : Text) : Prop := ∃ m ∈ messages, t <:+: m

/-- Nothing, or a directory, is at the path. -/
def NoFile (fs : Fs) (p : Path) : Prop := ∀ bytes, ¬FileAt fs p bytes

/-- The messages contain the path; or, if it is that of the metadata of an intent parser, the name of the parser. -/
def NamesFile (msg : MessageEnv) (dir : Path) (messages : List Text) (p : Path) : Prop :=
  Mentions messages (pathText p) ∨ Mentions messages (msg.quote (pathText p)) ∨
    ∃ name, p = joinPath dir name ++ ["metadata.json".toList] ∧ Mentions messages ("'".toList ++ name ++ "'".toList)

/-- The path of the metadata of the resources of an engine in a directory. -/
def ResourcesMetadataOf (env : LoadEnv) (dir : Path) (fs : Fs) (p : Path) : Prop :=
  ∃ m lang, FileHas fs (dir ++ ["nlu_engine.json".toList]) env.engine m ∧ env.language m.languageCode = .ok lang ∧
    p = joinPath (dir ++ ["resources".toList]) lang.1 ++ ["metadata.json".toList]

/-- The path of a directory that a dependency loads: the builtin entity parser, or the gazetteer parser of the custom entity
parser. -/
def DependencyDirOf (env : LoadEnv) (dir : Path) (fs : Fs) (p : Path) : Prop :=
  ∃ m, FileHas fs (dir ++ ["nlu_engine.json".toList]) env.engine m ∧
    (p = joinPath dir m.builtinEntityParser ∨
      ∃ c, FileHas fs (joinPath dir m.customEntityParser ++ ["metadata.json".toList]) env.customParser c ∧
        p = joinPath (joinPath dir m.customEntityParser) c.parserDirectory)

end Snips
