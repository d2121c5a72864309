import Verif.Spec.Rule
import Verif.Spec.Ranges
import Verif.Spec.Segments

/-! What the table of the lookup parser says of a sentence. -/

namespace Snips

/-- Matches kept among overlapping ones: they follow each other in the text, and one that is left out overlaps one that
is kept and longer, or as long and found earlier. -/
structure KeptMatches (all kept : List MatchedEntity) : Prop where
  subset : ∀ e ∈ kept, e ∈ all
  order : kept.Pairwise (fun a b => a.range.Before b.range)
  left : ∀ x ∈ all, x ∈ kept ∨ ∃ k ∈ kept, ¬ k.range.Disj x.range ∧
    (x.range.count < k.range.count ∨ (x.range.count = k.range.count ∧ [k, x].Sublist all))

/-- What the extractors find for a group of intents: the builtin entities and the custom entities of the group. -/
def GroupedScope.Matches (env : RuleEnv) (w : World) (input : Text) (scope : GroupedScope) (all : List MatchedEntity) :
    Prop :=
  ∃ kinds bs cs, List.Forall₂ (fun name kind => env.names.fromIdentifier name = some kind) scope.builtin kinds ∧
    w.builtin input (some kinds) 0 = .ok bs ∧ w.custom input (some scope.custom) 0 = .ok cs ∧
    all = bs.map (fun e => ⟨e.range, env.names.identifier e.kind⟩) ++ cs.map fun e => ⟨e.range, e.identifier⟩

/-- The entities among the pieces of a text. -/
def entitiesOf (segs : List Seg) : List MatchedEntity :=
  (occs (fun _ => []) 0 0 segs).map fun o => ⟨o.orig, o.name⟩

/-- What is looked up for a text on behalf of an intent: the words that are not stop words of the intent, with single
spaces between them, in lower case. -/
def Lookup.keyOf (env : RuleEnv) (p : Lookup) (intent text : Text) : Text :=
  env.fns.lower (List.intercalate [' ']
    ((env.fns.tokenizeLight text).filter fun t => env.fns.normalize t ∉ p.stopWords.forIntent intent))

/-- The table has an entry for a text: the name of an intent and those of slots. -/
def Lookup.Entry (env : RuleEnv) (p : Lookup) (key intent : Text) (names : List Text) : Prop :=
  ∃ (n : Nat) (ids : List Nat), p.map.get (env.fns.hashStr key) = some ((n : Int), ids.map fun i : Nat => (i : Int)) ∧
    p.intentsNames[n]? = some intent ∧ List.Forall₂ (fun id name => p.slotsNames[id]? = some name) ids names

/-- The table says that the sentence is the intent with the slots: in the sentence, cut into plain pieces and some of the
entities kept for a group, the entities are replaced by placeholders; there is an entry for this, on behalf of a permitted
intent `owner` of the group; the slots are the entities, with the names of the entry, as many as there are of both. -/
def Lookup.Says (env : RuleEnv) (p : Lookup) (w : World) (input : Text) (filter : Option (List Text)) (intent : Text)
    (slots : List InternalSlot) : Prop :=
  ∃ scope ∈ p.scopes, ∃ owner ∈ scope.intentGroup, Permits filter owner ∧ Permits filter intent ∧
    ∃ all kept segs names, scope.Matches env w input all ∧ KeptMatches all kept ∧
      origText segs = input ∧ (entitiesOf segs).Sublist kept ∧
      p.Entry env (p.keyOf env owner (replText (entityPlaceholder env.fns) segs)) intent names ∧
      slots = (names.zip (entitiesOf segs)).map fun x => ⟨substr input x.2.range, x.2.range, x.2.name, x.1⟩

/-- What the extractors find for the groups of the parser is not empty and lies in the text. -/
def Lookup.GoodMatches (env : RuleEnv) (p : Lookup) (w : World) (input : Text) : Prop :=
  ∀ scope ∈ p.scopes, ∀ all, scope.Matches env w input all →
    ∀ e ∈ all, e.range.NonEmpty ∧ e.range.stop ≤ input.length

/-- The extractors do not find the same entity twice at the same place. -/
def Lookup.NoRepeats (env : RuleEnv) (p : Lookup) (w : World) (input : Text) : Prop :=
  ∀ scope ∈ p.scopes, ∀ all, scope.Matches env w input all → all.Nodup

end Snips
