import Verif.Spec.Rule
import Verif.Model.Parsers

/-! What it means that a parser was trained on further intents. -/

namespace Snips

/-- `p'` has everything that `p` has: the patterns, slots and stop words of its intents, the names of its groups. -/
structure Det.Extends (p p' : Det) : Prop where
  patterns : ∀ i rs, p.regexes.get i = some rs → p'.regexes.get i = some rs
  groups : ∀ g n, p.groupNames.get g = some n → p'.groupNames.get g = some n
  slots : ∀ i m, p.slotEntities.get i = some m → p'.slotEntities.get i = some m
  stopWords : ∀ i m, p.slotEntities.get i = some m → p'.stopWords.forIntent i = p.stopWords.forIntent i

/-- No intent that `p'` has and `p` does not have is recognised by `p'` when it alone is asked for. -/
def Det.NewUnmatched (env : RuleEnv) (o : HashOrd) (w : World) (input : Text) (p p' : Det) : Prop :=
  ∀ i ∈ p'.slotEntities.keys, i ∉ p.slotEntities.keys →
    (p'.parse env o input (some [i])).run w = .ok ⟨⟨none, 1⟩, []⟩

/-- The same for look-up tables: `p'` has the names, entries and stop words of `p`; a group of intents may have grown. -/
structure Lookup.Extends (p p' : Lookup) : Prop where
  slots : p.slotsNames <+: p'.slotsNames
  intents : p.intentsNames <+: p'.intentsNames
  entries : ∀ k e, p.map.get k = some e → p'.map.get k = some e
  stopWords : ∀ i ∈ p.intentsNames, p'.stopWords.forIntent i = p.stopWords.forIntent i
  scopes : List.Forall₂ (fun s s' => s.intentGroup <+: s'.intentGroup ∧ s'.builtin = s.builtin ∧ s'.custom = s.custom)
    p.scopes p'.scopes

def Lookup.NewUnmatched (env : RuleEnv) (o : HashOrd) (w : World) (input : Text) (p p' : Lookup) : Prop :=
  ∀ i ∈ p'.intentsNames, i ∉ p.intentsNames →
    (p'.parse env o input (some [i])).run w = .ok ⟨⟨none, 1⟩, []⟩

end Snips
