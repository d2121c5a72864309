import Verif.Spec.StopWords
import Verif.Model.Parsers

/-! Two lists of stop words, and the words of a query. -/

namespace Snips

/-- Of the given words, the same ones are skipped, for every intent. -/
def StopWords.AgreeOn (s s' : StopWords) (words : List Text) : Prop :=
  ∀ intent, ∀ word ∈ words, s.Skipped intent word ↔ s'.Skipped intent word

/-- The texts in which the lookup parser looks for stop words: the query with some of the matches found in it replaced by their
placeholders (with none of them, the query itself). -/
def Lookup.TextRead (env : RuleEnv) (p : Lookup) (w : World) (input text : Text) : Prop :=
  ∃ scope ∈ p.scopes, ∃ found chosen, (Lookup.allEntities env input scope).run w = .ok found ∧ chosen.Sublist found ∧
    text = replaceWithPlaceholders env.fns input chosen

/-- Those of the deterministic parser: the query, and the query with the matches of an intent replaced by their placeholders. -/
def Det.TextRead (env : RuleEnv) (p : Det) (w : World) (input text : Text) : Prop :=
  text = input ∨ ∃ scope ∈ p.scopes, ∃ bs cs, w.builtin input (some scope.2.1) 0 = .ok bs ∧
    w.custom input (some scope.2.2) 0 = .ok cs ∧
    text = (replaceEntities input (bs.map (fun b => ⟨b.range, env.names.identifier b.kind⟩) ++
      cs.map fun c => ⟨c.range, c.identifier⟩) (entityPlaceholder env.fns)).2

/-- That of the classifier: the query with the matches replaced by the capitalised names of their entities. -/
def Cooc.TextRead (env : FeatEnv) (v : Cooc) (w : World) (input text : Text) : Prop :=
  ∃ bs cs, w.builtin input (some v.scope) 0 = .ok bs ∧ w.custom input none 0 = .ok cs ∧
    text = (replaceEntities input (bs.map (fun b => ⟨b.range, env.names.identifier b.kind⟩) ++
      cs.map fun c => ⟨c.range, c.identifier⟩) (coocPlaceholder v.fns)).2

/-- The words of the query, for the lookup parser, that one list skips are those that the other one skips. -/
def Lookup.SameSkipped (env : RuleEnv) (p : Lookup) (w : World) (input : Text) (s : StopWords) : Prop :=
  ∀ text, p.TextRead env w input text → p.stopWords.AgreeOn s ((env.fns.tokenizeLight text).map env.fns.normalize)

/-- The same for the deterministic parser. -/
def Det.SameSkipped (env : RuleEnv) (p : Det) (w : World) (input : Text) (s : StopWords) : Prop :=
  ∀ text, p.TextRead env w input text →
    p.stopWords.AgreeOn s ((env.fns.tokenize text).map fun t => env.fns.normalize t.value)

/-- The same for the classifier, which has one list for all intents. -/
def Classifier.SameSkipped (env : FeatEnv) (c : Classifier) (w : World) (input : Text) (words : List Text) : Prop :=
  ∀ f v, c.featurizer = some f → f.cooc = some v → ∀ text, v.TextRead env w input text →
    ∀ t ∈ v.fns.tokenizeLight text, t ∈ env.stopWords ↔ t ∈ words

/-- Two parsers that differ by their stop words only, and skip the same words of the query. -/
inductive ParserModel.SameForQuery (w : World) (input : Text) : ParserModel → ParserModel → Prop
  | lookup (env : RuleEnv) (p : Lookup) (s : StopWords) (h : p.SameSkipped env w input s) :
    SameForQuery w input (.lookup env p) (.lookup env { p with stopWords := s })
  | deterministic (env : RuleEnv) (p : Det) (s : StopWords) (h : p.SameSkipped env w input s) :
    SameForQuery w input (.deterministic env p) (.deterministic env { p with stopWords := s })
  | probabilistic (env : ProbEnv) (p : Prob) (words : List Text) (h : p.classifier.SameSkipped env.feat w input words) :
    SameForQuery w input (.probabilistic env p) (.probabilistic { env with feat := { env.feat with stopWords := words } } p)

end Snips
