import Verif.Model.Engine
import Verif.Model.Messages

/-!
# What the errors of queries say

The rest of the model keeps only the error at the root.  The only query that adds a message in front of it is
`parse_with_alternatives`.
-/

namespace Snips

/-- The `?` operator. -/
def Report.bind {α β : Type} : Report α → (α → Report β) → Report β
  | .ok a, f => f a
  | .err contexts root, _ => .err contexts root
  | .panic, _ => .panic

/-- A call that adds no messages. -/
def Prog.report {α : Type} (w : World) (p : Prog α) : Report α := Report.of (p.run w)

namespace Engine

/-- The loop over the parsers of `parse_with_alternatives` (src/nlu_engine.rs:164-196). -/
def cascadeReport (e : Engine) (o : HashOrd) (w : World) (input : Text) (whitelist : Option (List Text))
    (slotsAlternatives : Nat) : Nat → List ParserImpl → ℚ → Report ParseResult
  | _, [], noneScore => .ok ⟨input, ⟨none, noneScore⟩, [], []⟩
  | i, p :: ps, _ =>
    ((p.parse (o.sub i) input whitelist).report w).bind fun r =>
      match r.intent.name with
      | some _ =>
        (((e.resolveSlots input r.slots slotsAlternatives).report w).context "Cannot resolve slots".toList).bind fun slots =>
          .ok ⟨input, r.intent, slots, []⟩
      | none => cascadeReport e o w input whitelist slotsAlternatives (i + 1) ps r.intent.score

/-- `parse_with_alternatives` (src/nlu_engine.rs:147-234). -/
def parseReport (e : Engine) (o : HashOrd) (w : World) (input : Text) (whitelist blacklist : Option (List Text))
    (intentsAlternatives slotsAlternatives : Nat) : Report ParseResult :=
  (Report.of (e.getIntentsWhitelist (o.sub 0) whitelist blacklist)).bind fun wl =>
    (e.cascadeReport (o.sub 1) w input wl slotsAlternatives 0 e.parsers 0).bind fun main =>
      if intentsAlternatives = 0 then .ok main
      else
        ((e.getIntents (o.sub 2) input).report w).bind fun ranked =>
          let selected := (((ranked.filter (passesFilter wl)).drop 1).take intentsAlternatives)
          ((e.alternativesSlots (o.sub 3) input slotsAlternatives 0 selected).report w).bind fun alts =>
            .ok { main with alternatives := alts }

end Engine

end Snips
