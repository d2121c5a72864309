import Mathlib.Data.Int.Log
import Mathlib.Algebra.Order.Field.Rat
import Mathlib.Data.Rat.Floor
import Verif.Model.Nan
import Verif.Model.RuleParser
import Verif.Model.Lookup
import Verif.Model.Deterministic

/-! # Single precision numbers

The rest of the model leaves the rounding of `f32` operations open (`Rounding`, `FlRound`).  Here it is the one of the
machine: to the nearest number of 24 bits, and to the even one of two (IEEE 754 binary32, roundTiesToEven).  The weights of
the rule based parsers are computed with infinities and NaN. -/

namespace Snips

/-- The nearest integer, the even one of two. -/
def halfEven (x : ℚ) : ℤ :=
  if x - ⌊x⌋ < 1 / 2 then ⌊x⌋ else if 1 / 2 < x - ⌊x⌋ then ⌊x⌋ + 1 else if ⌊x⌋ % 2 = 0 then ⌊x⌋ else ⌊x⌋ + 1

/-- Rounding to a multiple of the power of 2 that the function chooses for the magnitude (the `L` with `2^L ≤ |x| < 2^(L+1)`). -/
def roundPlaces (place : ℤ → ℤ) (x : ℚ) : ℚ :=
  halfEven (x / 2 ^ place (Int.log 2 |x|)) * 2 ^ place (Int.log 2 |x|)

/-- The last of 24 bits. -/
def place24 (magnitude : ℤ) : ℤ := magnitude - 23

/-- The last bit of a binary32 number: the last of 24 bits, but not less than `2^(-149)` (subnormal numbers). -/
def place32 (magnitude : ℤ) : ℤ := max (magnitude - 23) (-149)

/-- The largest finite binary32 number, `f32::MAX`. -/
def max32 : ℚ := (2 ^ 24 - 1) * 2 ^ 104

/-- `1. / (1. + res.slots.len() as f32)` (src/intent_parser/lookup_intent_parser.rs:194,
src/intent_parser/deterministic_intent_parser.rs:265), with infinities and NaN. -/
def flSlotWeight (r : FlRound) (nbSlots : Nat) : Fl := Fl.div r (.fin 1) (Fl.add r (.fin 1) (Fl.round r nbSlots))

/-- `weights.iter().sum::<f32>()` (lookup_intent_parser.rs:201, deterministic_intent_parser.rs:267). -/
def flTotalWeight (r : FlRound) (weights : List Fl) : Fl := weights.foldl (Fl.add r) (.fin 0)

/-- A result of a rule based parser, with its confidence. -/
structure FlResult where
  name : Option Text
  score : Fl
  slots : List InternalSlot
deriving DecidableEq

/-- Insertion of a result before the first one that is not strictly better, the scores being compared with
`partial_cmp(..).unwrap()`, which panics (lookup_intent_parser.rs:209-214, deterministic_intent_parser.rs:276-281). -/
def flInsert (x : FlResult) : List FlResult → Outcome (List FlResult)
  | [] => .ok [x]
  | y :: l =>
    match Fl.partialCmp y.score x.score with
    | none => .panic
    | some .gt => (flInsert x l).bind fun l' => .ok (y :: l')
    | some _ => .ok (x :: y :: l)

/-- `sorted_by` (same lines).  Simplification: an insertion sort instead of a merge sort; both are stable and compare every
element of a list of two or more. -/
def flSort : List FlResult → Outcome (List FlResult)
  | [] => .ok []
  | x :: l => (flSort l).bind (flInsert x)

/-- Confidence scores, ordering and truncation of the matching results
(lookup_intent_parser.rs:201-216, deterministic_intent_parser.rs:261-283). -/
def flRankByWeight (r : FlRound) (results : List InternalResult) (topN : Nat) : Outcome (List FlResult) :=
  let total := flTotalWeight r (results.map fun x => flSlotWeight r x.slots.length)
  (flSort (results.map fun x => ⟨x.intent.name, Fl.div r (flSlotWeight r x.slots.length) total, x.slots⟩)).bind fun l =>
    .ok (l.take topN)

/-- `max_by(|a, b| a.partial_cmp(b).unwrap())` (lookup_intent_parser.rs:197): the last of the maximal elements. -/
def flMaxFrom (r : FlRound) (best : InternalResult) : List InternalResult → Outcome InternalResult
  | [] => .ok best
  | x :: l =>
    match Fl.partialCmp (flSlotWeight r best.slots.length) (flSlotWeight r x.slots.length) with
    | none => .panic
    | some .gt => flMaxFrom r best l
    | some _ => flMaxFrom r x l

/-- `filter_map` over the intents (lookup_intent_parser.rs:186-199). -/
def flBest (r : FlRound) : List (Text × List InternalResult) → Outcome (List InternalResult)
  | [] => .ok []
  | (_, []) :: l => flBest r l
  | (_, x :: xs) :: l => (flMaxFrom r x xs).bind fun b => (flBest r l).bind fun bs => .ok (b :: bs)

/-- `.next().and_then(..).unwrap_or_else(..)` (lookup_intent_parser.rs:104-120, deterministic_intent_parser.rs:134-150):
a comparison with NaN is false. -/
def flPick : List FlResult → FlResult
  | [] => ⟨none, .fin 1, []⟩
  | x :: _ =>
    match Fl.partialCmp x.score (.fin (1 / 2)) with
    | some .lt => ⟨none, .fin 1, []⟩
    | some .eq => ⟨none, .fin 1, []⟩
    | _ => x

/-- `LookupIntentParser::parse_top_intents` (src/intent_parser/lookup_intent_parser.rs:164-217), with infinities and NaN. -/
def Lookup.flTopIntents (r : FlRound) (env : RuleEnv) (o : HashOrd) (p : Lookup) (input : Text) (topN : Nat)
    (whitelist : Option (List Text)) : Prog (List FlResult) :=
  (p.getCandidates env input whitelist).bind fun cs =>
    (Prog.ofOutcome (mapOutcome (p.lookupOne env input whitelist) cs)).bind fun rs =>
      (Prog.ofOutcome (flBest r (o.order 0 ((rs.filterMap id).foldl pushResult [])))).bind fun best =>
        Prog.ofOutcome (flRankByWeight r best topN)

/-- `LookupIntentParser::parse` (src/intent_parser/lookup_intent_parser.rs:96-124), with infinities and NaN. -/
def Lookup.flParse (r : FlRound) (env : RuleEnv) (p : Lookup) (o : HashOrd) (input : Text) (whitelist : Option (List Text)) :
    Prog FlResult :=
  (p.flTopIntents r env o input 1 whitelist).bind fun ranked => .ret (flPick ranked)

/-- `DeterministicIntentParser::parse_top_intents` (src/intent_parser/deterministic_intent_parser.rs:195-284), with
infinities and NaN. -/
def Det.flTopIntents (r : FlRound) (env : RuleEnv) (o : HashOrd) (p : Det) (input : Text) (topN : Nat)
    (whitelist : Option (List Text)) : Prog (List FlResult) :=
  (Prog.mapM (p.matchIntent env o input)
    ((o.order 0 p.scopes).filter fun s => p.inIntentsSet whitelist s.1)).bind fun rs =>
      Prog.ofOutcome (flRankByWeight r (rs.filterMap id) topN)

/-- `DeterministicIntentParser::parse` (src/intent_parser/deterministic_intent_parser.rs:126-154), with infinities and
NaN. -/
def Det.flParse (r : FlRound) (env : RuleEnv) (p : Det) (o : HashOrd) (input : Text) (whitelist : Option (List Text)) :
    Prog FlResult :=
  (p.flTopIntents r env o input 1 whitelist).bind fun ranked => .ret (flPick ranked)

end Snips
