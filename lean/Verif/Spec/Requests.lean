import Verif.Spec.Extracting
import Verif.Model.EngineShared
import Verif.Model.Parsers

/-! # How many different requests a model can make to the caching entity parsers -/

namespace Snips

/-- The features of a slot filler that ask for builtin entities. -/
def Offsetter.asksBuiltin (o : Offsetter) : Bool :=
  match o.feature with
  | .builtinEntityMatch .. => true
  | _ => false

/-- The features of a slot filler that ask for custom entities. -/
def Offsetter.asksCustom (o : Offsetter) : Bool :=
  match o.feature with
  | .entityMatch .. => true
  | _ => false

/-- The features of the slot fillers. -/
def Prob.features (p : Prob) : List Offsetter := p.slotFillers.flatMap fun f => f.2.processor.getD []

/-- In the lookup and the regex parser, an entity scope; in the classifier, its two vectorizers; in the slot fillers, a feature. -/
def ParserModel.builtinAsks : ParserModel → Nat
  | .lookup _ p => p.scopes.length
  | .deterministic _ p => p.scopes.length
  | .probabilistic _ p => 2 + (p.features.filter Offsetter.asksBuiltin).length

/-- The same for custom entities. -/
def ParserModel.customAsks : ParserModel → Nat
  | .lookup _ p => p.scopes.length
  | .deterministic _ p => p.scopes.length
  | .probabilistic _ p => 2 + (p.features.filter Offsetter.asksCustom).length

/-- The query of a call. -/
def EngineCall.input : EngineCall → Text
  | .parse _ input _ _ _ _ => input
  | .intents _ input => input
  | .slots _ input _ _ => input
  | .extract input _ _ _ => input

end Snips
