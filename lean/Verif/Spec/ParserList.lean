import Verif.Spec.Engine

/-! What the parsers of an engine say to a query, when it does not depend on iteration orders; idle parsers. -/

namespace Snips

/-- The engine with another list of parsers. -/
def Engine.withParsers (e : Engine) (ps : List ParserImpl) : Engine := { e with parsers := ps }

/-- The parser's answer to the query under the caller's filter, whatever the iteration order of hash maps and the order in
which the allowed intents are listed. -/
def Engine.Says (e : Engine) (w : World) (input : Text) (whitelist blacklist : Option (List Text)) (p : ParserImpl)
    (r : InternalResult) : Prop :=
  ∀ o filter, e.IsFilterFor whitelist blacklist filter → (p.parse o input filter).run w = .ok r

/-- The parser recognises nothing in the query. -/
def Engine.Idle (e : Engine) (w : World) (input : Text) (whitelist blacklist : Option (List Text)) (p : ParserImpl) : Prop :=
  ∃ r, e.Says w input whitelist blacklist p r ∧ r.intent.name = none

/-- The slots that the parser finds for an intent. -/
def ParserImpl.Finds (p : ParserImpl) (w : World) (input intent : Text) (slots : List InternalSlot) : Prop :=
  ∀ o, (p.getSlots o input intent).run w = .ok slots

/-- The entries of the parser's ranking, each intent once. -/
def ParserImpl.Ranks (p : ParserImpl) (w : World) (input : Text) (rs : List IntentResult) : Prop :=
  (rs.map IntentResult.name).Nodup ∧ ∀ o, ∃ rs', (p.getIntents o input).run w = .ok rs' ∧ rs'.Perm rs

/-- The second list is the first without some of its elements that are idle. -/
inductive Without (idle : ParserImpl → Prop) : List ParserImpl → List ParserImpl → Prop
  | nil : Without idle [] []
  | keep {p : ParserImpl} {ps ps' : List ParserImpl} : Without idle ps ps' → Without idle (p :: ps) (p :: ps')
  | drop {p : ParserImpl} {ps ps' : List ParserImpl} : idle p → Without idle ps ps' → Without idle (p :: ps) ps'

end Snips
