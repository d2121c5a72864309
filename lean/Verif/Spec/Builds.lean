import Verif.Model.Loading
import Verif.Spec.EngineShared
import Verif.Spec.LookupTable

/-! # Debug builds and release builds

A debug build has `debug_assert!` and checks of integer overflow, a release build has neither. -/

namespace Snips

/-- The rule-based parser's surroundings in a release build. -/
def RuleEnv.inRelease (env : RuleEnv) : RuleEnv := { env with debugAssertions := false }

/-- The probabilistic parser's surroundings in a release build. -/
def ProbEnv.inRelease (env : ProbEnv) : ProbEnv := { env with feat := { env.feat with debugAssertions := false } }

/-- The same parser in a release build. -/
def ParserModel.inRelease : ParserModel → ParserModel
  | .lookup env p => .lookup env.inRelease p
  | .deterministic env p => .deterministic env.inRelease p
  | .probabilistic env p => .probabilistic env.inRelease p

/-- The same engine in a release build. -/
def LoadedEngine.inRelease (e : LoadedEngine) : LoadedEngine := { e with parsers := e.parsers.map ParserModel.inRelease }

/-- The surroundings of the loading in a release build. -/
def LoadEnv.inRelease (env : LoadEnv) : LoadEnv := { env with debugAssertions := false }

/-- The table has an entry for the sentence, cut into plain pieces and some of the entities kept for a group, on behalf of a
permitted intent of the group, but the entry has not as many slots as there are entities. -/
def Lookup.Misfit (env : RuleEnv) (p : Lookup) (w : World) (input : Text) (filter : Option (List Text)) : Prop :=
  ∃ scope ∈ p.scopes, ∃ owner ∈ scope.intentGroup, Permits filter owner ∧
    ∃ all kept segs intent names, scope.Matches env w input all ∧ KeptMatches all kept ∧
      origText segs = input ∧ (entitiesOf segs).Sublist kept ∧
      p.Entry env (p.keyOf env owner (replText (entityPlaceholder env.fns) segs)) intent names ∧
      names.length ≠ (entitiesOf segs).length

/-- What the extractors find for an intent of the deterministic parser. -/
def Det.Found (env : RuleEnv) (w : World) (input : Text) (scope : Text × List Kind × List Text)
    (all : List MatchedEntity) : Prop :=
  ∃ bs cs, w.builtin input (some scope.2.1) 0 = .ok bs ∧ w.custom input (some scope.2.2) 0 = .ok cs ∧
    all = bs.map (fun e => ⟨e.range, env.names.identifier e.kind⟩) ++ cs.map fun e => ⟨e.range, e.identifier⟩

/-- For every intent, what the extractors find is not empty, lies in the text, and has a placeholder of less than 2^15
characters. -/
def Det.GoodFinds (env : RuleEnv) (p : Det) (w : World) (input : Text) : Prop :=
  ∀ scope ∈ p.scopes, ∀ all, Det.Found env w input scope all → ∀ e ∈ all,
    e.range.NonEmpty ∧ e.range.stop ≤ input.length ∧ (entityPlaceholder env.fns e.name).length < 32768

/-- For an intent that is to be tried, a placeholder ends beyond 2^15 characters of the new text. -/
def Det.TooLong (env : RuleEnv) (p : Det) (w : World) (input : Text) (filter : Option (List Text)) : Prop :=
  ∃ scope ∈ p.scopes, (match filter with
      | some l => scope.1 ∈ l
      | none => ∃ slots, (scope.1, slots) ∈ p.slotEntities) ∧
    ∃ all, Det.Found env w input scope all ∧ ¬ PlaceholdersEndBefore 32768 (entityPlaceholder env.fns) input all

end Snips
