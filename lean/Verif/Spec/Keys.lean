import Verif.Spec.LookupTable
import Verif.Model.Resources

/-! Training sentences behind the keys of a look-up table. -/

namespace Snips

/-- A training sentence as the look-up table knows it: its text (entities as placeholders, no stop words), and the numbers
of its intent and slots. -/
structure TrainingSentence where
  text : Text
  intent : Nat
  slots : List Nat

/-- The table was made from these sentences: every entry is the one of a sentence, under the hash of its text. -/
def Lookup.TrainedOn (env : RuleEnv) (p : Lookup) (sentences : List TrainingSentence) : Prop :=
  ∀ key entry, p.map.get key = some entry →
    ∃ u ∈ sentences, key = env.fns.hashStr u.text ∧ entry = ((u.intent : Int), u.slots.map fun i : Nat => (i : Int))

/-- A way to read a query, on behalf of a permitted intent: some of the entities found are replaced by placeholders, and the
stop words of the intent are left out. -/
def Lookup.Reading (env : RuleEnv) (p : Lookup) (w : World) (input : Text) (filter : Option (List Text)) (key : Text)
    (entities : List MatchedEntity) : Prop :=
  ∃ scope ∈ p.scopes, ∃ owner ∈ scope.intentGroup, Permits filter owner ∧
    ∃ all kept segs, scope.Matches env w input all ∧ KeptMatches all kept ∧
      origText segs = input ∧ (entitiesOf segs).Sublist kept ∧ entities = entitiesOf segs ∧
      key = p.keyOf env owner (replText (entityPlaceholder env.fns) segs)

/-- Hashes are 32-bit integers. -/
def TextFns.Hash32 (fns : TextFns) : Prop := ∀ t, -2 ^ 31 ≤ fns.hashStr t ∧ fns.hashStr t < 2 ^ 31

/-- A text that is one word in lower case. -/
structure TextFns.PlainWord (fns : TextFns) (t : Text) : Prop where
  light : fns.tokenizeLight t = [t]
  lower : fns.lower t = t

/-- A word made of so many letters a. -/
def wordOf (n : Nat) : Text := List.replicate (n + 1) 'a'

/-- Extractors that find nothing. -/
def silentWorld : World := ⟨fun _ _ _ => .ok [], fun _ _ _ => .ok []⟩

end Snips
