import Verif.Model.Parsers
import Verif.Spec.Engine
import Verif.Spec.Rule

/-! Vocabulary for statements about filters. -/

namespace Snips

/-- The intents that a parser may try or name are among `known`. -/
def ParserModel.OnlyKnows (known : List Text) : ParserModel → Prop
  | .lookup _ p => (∀ s ∈ p.scopes, ∀ i ∈ s.intentGroup, i ∈ known) ∧ ∀ i ∈ p.intentsNames, i ∈ known
  | .deterministic env p => p.Built env.names ∧ (∀ i ∈ p.slotEntities.keys, i ∈ known) ∧
      ∀ i ∈ p.regexes.keys, i ∈ known
  | .probabilistic _ p => ∀ i, some i ∈ p.classifier.intentList → i ∈ known

/-- Two filters let the same intents of a list through. -/
def SameOn (known : List Text) (f f' : Option (List Text)) : Prop := ∀ i ∈ known, Permits f i ↔ Permits f' i

/-- The second filter is at least as strict as the first one. -/
def Narrower (f f' : Option (List Text)) : Prop := ∀ i, Permits f' i → Permits f i

end Snips
