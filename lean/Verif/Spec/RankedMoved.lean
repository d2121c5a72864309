import Verif.Spec.EngineStopWords
import Verif.Spec.Renaming

/-! A query into which stop words or blanks are inserted, the ranking of the intents and the alternatives. -/

namespace Snips

/-- The parser ranks the intents for the longer query as it does for the shorter one. -/
def ParserImpl.RanksThrough (p : ParserImpl) (w : World) (x : Spot) (words : Text) : Prop :=
  ∀ o : HashOrd, o.Blind → ∀ out, (p.getIntents o x.short).run w = .ok out → (p.getIntents o (x.long words)).run w = .ok out

/-- The answer to the longer query: the same intent, the same alternatives in the same order, and everywhere the same slots at
their places in the longer query. -/
def ParseResult.movedAll (x : Spot) (words : Text) (r : ParseResult) : ParseResult :=
  { input := x.long words
    intent := r.intent
    slots := r.slots.map (Slot.moved x words)
    alternatives := r.alternatives.map fun a => { intent := a.intent, slots := a.slots.map (Slot.moved x words) } }

end Snips
