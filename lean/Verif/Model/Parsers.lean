import Verif.Model.Engine
import Verif.Model.Deterministic
import Verif.Model.Probabilistic

/-! # The intent parsers an engine can be made of -/

namespace Snips

/-- A parser as built by `build_intent_parser` (src/intent_parser/mod.rs:64-81). -/
inductive ParserModel where
  | lookup (env : RuleEnv) (p : Lookup)
  | deterministic (env : RuleEnv) (p : Det)
  | probabilistic (env : ProbEnv) (p : Prob)

/-- The `IntentParser` implementation of a parser (src/intent_parser/mod.rs:52-62). -/
def ParserModel.impl : ParserModel → ParserImpl
  | .lookup env p => p.impl env
  | .deterministic env p => p.impl env
  | .probabilistic env p => p.impl env

/-- An engine made of such parsers. -/
def Engine.ofParsers (dataset : DatasetMetadata) (names : KindNames) (ps : List ParserModel) : Engine :=
  ⟨dataset, ps.map ParserModel.impl, names⟩

end Snips
