import Verif.Model.TextFns
import Verif.Model.Types

/-! # Code shared (textually) by the lookup and the deterministic intent parser -/

namespace Snips

/-- `1. / (1. + res.slots.len() as f32)` (src/intent_parser/lookup_intent_parser.rs:194,
src/intent_parser/deterministic_intent_parser.rs:265). -/
def slotWeight (rd : Rounding) (nbSlots : Nat) : ℚ :=
  rd.rnd (1 / rd.rnd (1 + rd.rnd nbSlots))

/-- `weights.iter().sum::<f32>()`: left to right, starting at 0
(lookup_intent_parser.rs:201, deterministic_intent_parser.rs:267). -/
def totalWeight (rd : Rounding) (weights : List ℚ) : ℚ :=
  weights.foldl (fun acc w => rd.rnd (acc + w)) 0

/-- Confidence scores, ordering and truncation of the matching results
(lookup_intent_parser.rs:201-216, deterministic_intent_parser.rs:261-283). -/
def rankByWeight (rd : Rounding) (results : List InternalResult) (topN : Nat) : List InternalResult :=
  let total := totalWeight rd (results.map fun r => slotWeight rd r.slots.length)
  (sortDesc (fun r => r.intent.score)
    (results.map fun r =>
      { r with intent := { r.intent with score := rd.rnd (slotWeight rd r.slots.length / total) } })).take topN

/-- The answer without intent (lookup_intent_parser.rs:114-120, deterministic_intent_parser.rs:144-150). -/
def noIntent : InternalResult := ⟨⟨none, 1⟩, []⟩

/-- Selection of the unambiguous best result
(lookup_intent_parser.rs:102-120, deterministic_intent_parser.rs:132-150). -/
def pickUnambiguous (ranked : List InternalResult) : InternalResult :=
  match ranked with
  | [] => noIntent
  | res :: _ => if res.intent.score ≤ 1 / 2 then noIntent else res

/-- Completion of the ranking by the unmatched intents and the absent intent
(lookup_intent_parser.rs:133-151, deterministic_intent_parser.rs:163-181). -/
def completeRanking (intents : List Text) (top : List IntentResult) : List IntentResult :=
  top ++ (intents.filter fun i => !(top.filterMap IntentResult.name).contains i).map (fun i => ⟨some i, 0⟩)
    ++ [⟨none, 0⟩]

/-- `get_entity_placeholder` (lookup_intent_parser.rs:345-352, deterministic_intent_parser.rs:403-410). -/
def entityPlaceholder (fns : TextFns) (label : Text) : Text :=
  ['%'] ++ fns.upper ((fns.tokenizeLightEn label).flatten) ++ ['%']

/-- `stop_words` and `specific_stop_words` of `new` (lookup_intent_parser.rs:64-81,
deterministic_intent_parser.rs:94-111).  Sets are lists of which only membership matters; the maps of
`stop_words_whitelist` have distinct keys. -/
structure StopWords where
  general : List Text
  specific : Map Text (List Text)

/-- Construction of the stop word sets (same lines). -/
def StopWords.new (ignoreStopWords : Bool) (resource : List Text) (whitelist : Map Text (List Text)) :
    StopWords :=
  let general := if ignoreStopWords then resource else []
  ⟨general, whitelist.map fun iw => (iw.1, general.filter fun w => !iw.2.contains w)⟩

/-- `self.specific_stop_words.get(intent).unwrap_or_else(|| &self.stop_words)`
(lookup_intent_parser.rs:332-335, deterministic_intent_parser.rs:287-290). -/
def StopWords.forIntent (s : StopWords) (intent : Text) : List Text :=
  match s.specific.get intent with
  | some ws => ws
  | none => s.general

end Snips
