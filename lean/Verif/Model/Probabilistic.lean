import Verif.Model.Classifier
import Verif.Model.SlotFiller

/-! # Model of src/intent_parser/probabilistic_intent_parser.rs -/

namespace Snips

/-- What the probabilistic parser's components use from outside. -/
structure ProbEnv where
  ops : FloatOps ℚ
  feat : FeatEnv
  codec : TagCodec

/-- `ProbabilisticIntentParser` (src/intent_parser/probabilistic_intent_parser.rs:19-22). -/
structure Prob where
  classifier : Classifier
  slotFillers : Map Text SlotFiller

/-- The slots of an intent: `slot_fillers.get(name)` failing with `e` when absent, then `get_slots`
(src/intent_parser/probabilistic_intent_parser.rs:70-73 and :88-91). -/
def Prob.slotsOf (env : ProbEnv) (p : Prob) (e : Err) (input intent : Text) : Prog (List InternalSlot) :=
  match p.slotFillers.get intent with
  | some filler => filler.getSlots env.codec input
  | none => .fail e

/-- `parse` (src/intent_parser/probabilistic_intent_parser.rs:61-81). -/
def Prob.parse (env : ProbEnv) (p : Prob) (o : HashOrd) (input : Text) (whitelist : Option (List Text)) :
    Prog InternalResult :=
  (p.classifier.getIntent env.ops env.feat o input whitelist).bind fun res =>
    match res.name with
    | some name => (p.slotsOf env (.unknownIntent name) input name).bind fun slots => .ret ⟨res, slots⟩
    | none => .ret ⟨res, []⟩

/-- `get_intents` (src/intent_parser/probabilistic_intent_parser.rs:83-85). -/
def Prob.getIntents (env : ProbEnv) (p : Prob) (o : HashOrd) (input : Text) : Prog (List IntentResult) :=
  p.classifier.getIntents env.ops env.feat o input

/-- `get_slots` (src/intent_parser/probabilistic_intent_parser.rs:87-92).  The error of an absent slot filler has the text of
the one at src/nlu_engine.rs:416. -/
def Prob.getSlots (env : ProbEnv) (p : Prob) (_o : HashOrd) (input intent : Text) : Prog (List InternalSlot) :=
  p.slotsOf env (.extractUnknownIntent intent) input intent

/-- `impl IntentParser for ProbabilisticIntentParser`
(src/intent_parser/probabilistic_intent_parser.rs:60-93). -/
def Prob.impl (env : ProbEnv) (p : Prob) : ParserImpl :=
  ⟨p.parse env, p.getIntents env, p.getSlots env⟩

end Snips
