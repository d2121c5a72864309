import Verif.Model.Deterministic
import Verif.Model.Features

/-!
# The machine arithmetic of the code

The rest of the model computes with unbounded integers where the code computes with `i32`.  This module is the
same code with `i32` as it is: `x as i32` keeps the 32 low bits, and an operation whose result does not fit
panics when the crate is built with overflow checks (debug) and wraps around otherwise (release).  The sums of
positions and sizes of n-grams, which are `usize` (64 bits), are treated in the same way.
-/

namespace Snips

/-- `x as i32`, and the result of wrapping (release mode) `i32` arithmetic. -/
def wrapI32 (x : Int) : Int := Int.bmod x 4294967296

/-- The value is an `i32`. -/
def fitsI32 (x : Int) : Bool := decide (-2147483648 ≤ x) && decide (x ≤ 2147483647)

/-- The result of an `i32` operation whose exact result is `x`. -/
def i32Op (debug : Bool) (x : Int) : Outcome Int :=
  if fitsI32 x then .ok x else if debug then .panic else .ok (wrapI32 x)

/-- Loop of `compute_char_shifts` (src/entity_parser/custom_entity_parser.rs:141-151). -/
def charShifts32From (debug : Bool) (prev : Int × Int) (shift : Int) : List Token → Outcome (List Int)
  | [] => .ok []
  | tok :: toks => do
    let gap ← i32Op debug (wrapI32 tok.charRange.start - prev.1)
    let excess ← i32Op debug (gap - prev.2)
    let shift' ← i32Op debug (shift - excess)
    let indexShift ← i32Op debug (wrapI32 tok.charRange.count + prev.2)
    let rest ← charShifts32From debug (wrapI32 tok.charRange.stop, 1) shift' toks
    .ok (List.replicate indexShift.toNat shift' ++ rest)

/-- The closure of `_extract_entities` (src/entity_parser/custom_entity_parser.rs:113-120). -/
def remapEntity32 (debug : Bool) (shifts : List Int) (e : CustomEntity) : Outcome CustomEntity :=
  match shifts[e.range.start]?, e.range.stop with
  | some s1, stop + 1 =>
    match shifts[stop]? with
    | some s2 => do
      let start ← i32Op debug (wrapI32 e.range.start - s1)
      let stop ← i32Op debug (wrapI32 (stop + 1 : Nat) - s2)
      .ok { e with range := ⟨asUsize start, asUsize stop⟩ }
    | none => .panic
  | _, _ => .panic

/-- `CachingCustomEntityParser::_extract_entities` (src/entity_parser/custom_entity_parser.rs:96-122). -/
def Ext.customExtract32 (debug : Bool) (x : Ext) (sentence : Text) (kinds : Option (List Text)) (n : Nat) :
    Outcome (List CustomEntity) :=
  let toks := x.tokenize sentence
  match charShifts32From debug (0, 0) 0 toks with
  | .ok shifts =>
    match x.gazetteer (joinWith [' '] (toks.map Token.value)) kinds n with
    | .ok es => mapOutcome (remapEntity32 debug shifts) es
    | .err e => .err e
    | .panic => .panic
  | .err e => .err e
  | .panic => .panic

/-- `iter.fold(init, f)` where `f` may panic. -/
def foldOutcome {α β : Type} (f : β → α → Outcome β) : β → List α → Outcome β
  | b, [] => .ok b
  | b, a :: l =>
    match f b a with
    | .ok b' => foldOutcome f b' l
    | .err e => .err e
    | .panic => .panic

/-- Body of the `for_each` of `compute_features` (src/slot_filler/feature_processor.rs:42-48); `len` is
`input.len()`.  The index operation panics out of bounds. -/
def pushFeature32 (debug : Bool) (len i : Nat) (value : Text) (features : List (List (Text × Text)))
    (ok : Int × Text) : Outcome (List (List (Text × Text))) := do
  let d ← i32Op debug (wrapI32 i - ok.1)
  if d ≥ 0 ∧ d < wrapI32 len then
    if asUsize d < features.length then
      .ok (features.modify (asUsize d) (fun l => l ++ [(ok.2, value)]))
    else .panic
  else .ok features

/-- The sum of two `usize`. -/
def usizeAdd (debug : Bool) (a b : Nat) : Outcome Nat :=
  if a + b < usizeCount then .ok (a + b) else if debug then .panic else .ok ((a + b) % usizeCount)

/-- `&tokens[start..stop]`. -/
def sliceOf {α : Type} (l : List α) (start stop : Nat) : Outcome (List α) :=
  if start ≤ stop ∧ stop ≤ l.length then .ok ((l.drop start).take (stop - start)) else .panic

/-- `Feature::compute` with the sums of `usize` as they are: src/slot_filler/features.rs:150-176 (ngram), :196-209
(shape_ngram).  The other features do not add positions and sizes, but for prefixes and suffixes
(src/slot_filler/features_utils.rs:12-20), where one of the two is 0 or was subtracted before. -/
def Feature.compute64 (debug : Bool) (fns : TextFns) (toks : List Token) (i : Nat) : Feature → Prog (Option Text)
  | .ngram n common stemmer => Prog.ofOutcome (do
      let stop ← usizeAdd debug i n
      if stop > toks.length then .ok none
      else do
        let window ← sliceOf toks i stop
        .ok (some (joinWith [' '] (window.map (fun t => ngramWord fns common stemmer t.value)))))
  | .shapeNgram n => Prog.ofOutcome (do
      let stop ← usizeAdd debug i n
      if i < stop ∧ stop ≤ toks.length then do
        let window ← sliceOf toks i stop
        .ok (some (joinWith [' '] (window.map (fun t => fns.shape t.value))))
      else .ok none)
  | f => f.compute fns toks i

/-- Inner loop of `compute_features` (src/slot_filler/feature_processor.rs:40-50). -/
def featureLoop32 (debug : Bool) (fns : TextFns) (toks : List Token) (o : Offsetter) :
    List Nat → List (List (Text × Text)) → Prog (List (List (Text × Text)))
  | [], features => .ret features
  | i :: is, features =>
    (o.feature.compute64 debug fns toks i).bind fun v =>
      match v with
      | some value =>
        (Prog.ofOutcome (foldOutcome (pushFeature32 debug toks.length i value) features o.offsetsWithName)).bind
          fun features => featureLoop32 debug fns toks o is features
      | none => featureLoop32 debug fns toks o is features

/-- Outer loop of `compute_features` (src/slot_filler/feature_processor.rs:39-51). -/
def offsettersLoop32 (debug : Bool) (fns : TextFns) (toks : List Token) :
    List Offsetter → List (List (Text × Text)) → Prog (List (List (Text × Text)))
  | [], features => .ret features
  | o :: os, features =>
    (featureLoop32 debug fns toks o (List.range toks.length) features).bind fun features =>
      offsettersLoop32 debug fns toks os features

/-- `ProbabilisticFeatureProcessor::compute_features` (src/slot_filler/feature_processor.rs:37-53). -/
def computeFeatures32 (debug : Bool) (fns : TextFns) (os : List Offsetter) (toks : List Token) :
    Prog (List (List (Text × Text))) :=
  offsettersLoop32 debug fns toks os (List.replicate toks.length [])

/-- `deduplicate_overlapping_items` (src/utils.rs:39-62) with a key `-(size as i32)`: the key of every item is
computed by `sort_by_key`, unless there are fewer than two items. -/
def dedupItems32 {α : Type} (debug : Bool) (overlap : α → α → Bool) (size : α → Nat) (items : List α) :
    Outcome (List α) :=
  if debug && decide (2 ≤ items.length) && items.any (fun e => !fitsI32 (-(wrapI32 (size e)))) then .panic
  else .ok (dedupItems overlap (fun e => wrapI32 (-(wrapI32 (size e)))) items)

/-- `deduplicate_overlapping_entities` (src/utils.rs:169-177). -/
def dedupEntities32 (debug : Bool) (es : List MatchedEntity) : Outcome (List MatchedEntity) := do
  let deduped ← dedupItems32 debug (fun a b => rangesOverlap a.range b.range) (fun e => e.range.count) es
  .ok (sortByKey (fun e => e.range.start) deduped)

/-- `replace_entities` (src/utils.rs:128-167). -/
def replaceEntities32 (debug : Bool) (text : Text) (ms : List MatchedEntity) (placeholder : Text → Text) :
    Outcome (Map Rng Rng × Text) :=
  if ms.isEmpty then .ok ([], text)
  else do
    let deduped ← dedupEntities32 debug ms
    let dedup := sortByKey (fun e => e.range.start) deduped
    if debug && replaceOverflows text placeholder ⟨[], [], 0, 0⟩ dedup then .panic
    else
      let st := dedup.foldl (replaceStep text placeholder) ⟨[], [], 0, 0⟩
      .ok (st.mapping, st.processed ++ suffixFrom text st.currentIx)

/-- Loop of `get_range_shift` (src/intent_parser/deterministic_intent_parser.rs:419-424). -/
def rangeShift32From (debug : Bool) (matchStart : Nat) :
    (prevEnd : Nat) → (shift : Int) → List (Rng × Rng) → Outcome Int
  | _, shift, [] => .ok shift
  | prevEnd, shift, (replaced, orig) :: rest =>
    if replaced.stop ≤ matchStart ∧ replaced.stop > prevEnd then do
      let shift' ← i32Op debug (wrapI32 orig.stop - wrapI32 replaced.stop)
      rangeShift32From debug matchStart replaced.stop shift' rest
    else rangeShift32From debug matchStart prevEnd shift rest

/-- The range of a capture in the original text (src/intent_parser/deterministic_intent_parser.rs:343-351). -/
def originalRange32 (debug : Bool) (o : HashOrd) (mapping : Option (Map Rng Rng)) (r : Rng) : Outcome Rng :=
  match mapping with
  | none => .ok r
  | some m =>
    match m.get r with
    | some orig => .ok orig
    | none => do
      let shift ← rangeShift32From debug r.start 0 0 (o.order 1 m)
      let start ← i32Op debug (wrapI32 r.start + shift)
      let stop ← i32Op debug (wrapI32 r.stop + shift)
      .ok ⟨asUsize start, asUsize stop⟩

/-- The slot of a capture (src/intent_parser/deterministic_intent_parser.rs:337-359). -/
def Det.slotOf32 (debug : Bool) (o : HashOrd) (p : Det) (input formatted intent : Text)
    (mapping : Option (Map Rng Rng)) (c : Rng × Text) : Outcome InternalSlot := do
  let slotName ← Outcome.unwrap (p.groupNames.get (groupPrefix c.2))
  let entities ← Outcome.unwrap (p.slotEntities.get intent)
  let entity ← Outcome.unwrap (entities.get slotName)
  let range ← originalRange32 debug o mapping (convertToCharRange formatted c.1)
  .ok ⟨substr input range, range, entity, slotName⟩

/-- `deduplicate_overlapping_slots` (src/intent_parser/deterministic_intent_parser.rs:385-401). -/
def dedupSlots32 (debug : Bool) (fns : TextFns) (slots : List InternalSlot) : Outcome (List InternalSlot) := do
  let deduped ← dedupItems32 debug (fun a b => rangesOverlap a.charRange b.charRange)
    (fun s => (fns.tokenize s.value).length + s.value.length) slots
  .ok (sortByKey (fun s => s.charRange.start) deduped)

/-- `get_matching_result` (src/intent_parser/deterministic_intent_parser.rs:309-367). -/
def Det.matchingResult32 (debug : Bool) (fns : TextFns) (o : HashOrd) (p : Det) (input formatted : Text)
    (regex : Regex) (intent : Text) (mapping : Option (Map Rng Rng)) : Outcome (Option InternalResult) :=
  if regex.isMatch formatted then
    match (regex.capturesIter formatted).find? (fun caps => !caps.isEmpty) with
    | some caps => do
      let slots ← mapOutcome (p.slotOf32 debug o input formatted intent mapping)
        (namedCaptures caps regex.captureNames)
      let deduped ← dedupSlots32 debug fns slots
      .ok (some ⟨⟨some intent, 1⟩, deduped⟩)
    | none => .ok none
  else .ok none

/-- The closure of `find_map` (src/intent_parser/deterministic_intent_parser.rs:244-255). -/
def Det.tryRegex32 (debug : Bool) (fns : TextFns) (o : HashOrd) (p : Det)
    (input cleaned cleanedFormatted : Text) (mapping : Map Rng Rng) (intent : Text) (regex : Regex) :
    Outcome (Option InternalResult) := do
  let raw ← p.matchingResult32 debug fns o input cleaned regex intent none
  match raw with
  | some r => .ok (some r)
  | none => p.matchingResult32 debug fns o input cleanedFormatted regex intent (some mapping)

/-- The part of the loop body of `parse_top_intents` that follows the extraction of the entities
(src/intent_parser/deterministic_intent_parser.rs:231-258). -/
def Det.matchWith32 (fns : TextFns) (debug : Bool) (o : HashOrd) (p : Det) (input intent : Text)
    (matched : List MatchedEntity) : Outcome (Option InternalResult) := do
  let replaced ← replaceEntities32 debug input matched (entityPlaceholder fns)
  let cleaned ← p.preprocess fns input intent
  let cleanedFormatted ← p.preprocess fns replaced.2 intent
  let regexes ← Outcome.ofOption (.site 3) (p.regexes.get intent)
  findMapOutcome (p.tryRegex32 debug fns o input cleaned cleanedFormatted replaced.1 intent) regexes

/-- Loop body of `parse_top_intents` (src/intent_parser/deterministic_intent_parser.rs:216-259). -/
def Det.matchIntent32 (env : RuleEnv) (o : HashOrd) (p : Det) (input : Text)
    (scope : Text × (List Kind × List Text)) : Prog (Option InternalResult) :=
  .builtinCached input (some scope.2.1) fun bs =>
    .custom input (some scope.2.2) 0 fun cs =>
      Prog.ofOutcome (p.matchWith32 env.fns env.debugAssertions o input scope.1
        (bs.map (KindMatch.toMatched env.names) ++ cs.map CustomEntity.toMatched))

/-- `parse_top_intents` (src/intent_parser/deterministic_intent_parser.rs:195-284). -/
def Det.parseTopIntents32 (env : RuleEnv) (o : HashOrd) (p : Det) (input : Text) (topN : Nat)
    (whitelist : Option (List Text)) : Prog (List InternalResult) :=
  (Prog.mapM (p.matchIntent32 env o input)
    ((o.order 0 p.scopes).filter fun s => p.inIntentsSet whitelist s.1)).bind fun rs =>
      .ret (rankByWeight env.rd (rs.filterMap id) topN)

/-- `parse` (src/intent_parser/deterministic_intent_parser.rs:126-154). -/
def Det.parse32 (env : RuleEnv) (p : Det) (o : HashOrd) (input : Text) (whitelist : Option (List Text)) :
    Prog InternalResult :=
  (p.parseTopIntents32 env o input 1 whitelist).bind fun ranked => .ret (pickUnambiguous ranked)

end Snips
