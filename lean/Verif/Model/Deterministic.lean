import Verif.Model.Lookup
import Verif.Model.Bytes

/-! # Model of src/intent_parser/deterministic_intent_parser.rs -/

namespace Snips

/-- `regex::Regex` (external): `is_match`, the capture groups of the successive matches (byte ranges;
group 0 is the whole match) and the names of the groups. -/
structure Regex where
  isMatch : Text → Bool
  capturesIter : Text → List (List (Option Rng))
  captureNames : List (Option Text)

/-- `DeterministicIntentParser` (src/intent_parser/deterministic_intent_parser.rs:30-39). -/
structure Det where
  regexes : Map Text (List Regex)
  groupNames : Map Text Text
  slotEntities : Map Text (Map Text Text)
  stopWords : StopWords
  scopes : Map Text (List Kind × List Text)

/-- `entity_scopes` of `new` (src/intent_parser/deterministic_intent_parser.rs:71-93): the builtin kinds
and the other entities of the slots of each intent, without repetition. -/
def detScopes (names : KindNames) (slotEntities : Map Text (Map Text Text)) :
    Map Text (List Kind × List Text) :=
  slotEntities.map fun im =>
    (im.1, unique (im.2.filterMap fun se => names.fromIdentifier se.2),
      unique (im.2.filterMap fun se => if (names.fromIdentifier se.2).isSome then none else some se.2))

/-- Loop of `preprocess_text` (src/intent_parser/deterministic_intent_parser.rs:294-302).
`token.normalized_value()` is the normalisation of the token's text.  `start - current_idx` underflows
(a panic) when tokens overlap. -/
def detPreprocessFrom (fns : TextFns) (stop : List Text) : Nat → List Token → Outcome (Text × Nat)
  | cur, [] => .ok ([], cur)
  | cur, tok :: toks =>
    if tok.charRange.start < cur then .panic
    else do
      let rest ← detPreprocessFrom fns stop tok.charRange.stop toks
      let value := if stop.contains (fns.normalize tok.value) then List.replicate tok.value.length ' '
        else tok.value
      .ok (List.replicate (tok.charRange.start - cur) ' ' ++ value ++ rest.1, rest.2)

/-- `preprocess_text` (src/intent_parser/deterministic_intent_parser.rs:286-307). -/
def Det.preprocess (fns : TextFns) (p : Det) (text intent : Text) : Outcome Text := do
  let r ← detPreprocessFrom fns (p.stopWords.forIntent intent) 0 (fns.tokenize text)
  if text.length < r.2 then .panic
  else .ok (r.1 ++ List.replicate (text.length - r.2) ' ')

/-- Loop of `get_range_shift` (src/intent_parser/deterministic_intent_parser.rs:419-424) over the entries
of the table in hash order.  Simplification: offsets are below 2^31. -/
def rangeShiftFrom (matchStart : Nat) : (prevEnd : Nat) → (shift : Int) → List (Rng × Rng) → Int
  | _, shift, [] => shift
  | prevEnd, shift, (replaced, orig) :: rest =>
    if replaced.stop ≤ matchStart ∧ replaced.stop > prevEnd then
      rangeShiftFrom matchStart replaced.stop ((orig.stop : Int) - replaced.stop) rest
    else rangeShiftFrom matchStart prevEnd shift rest

/-- `get_range_shift` (src/intent_parser/deterministic_intent_parser.rs:412-426). -/
def getRangeShift (o : HashOrd) (matched : Rng) (mapping : Map Rng Rng) : Int :=
  rangeShiftFrom matched.start 0 0 (o.order 1 mapping)

/-- The range of a capture in the original text (src/intent_parser/deterministic_intent_parser.rs:343-351). -/
def originalRange (o : HashOrd) (mapping : Option (Map Rng Rng)) (r : Rng) : Rng :=
  match mapping with
  | none => r
  | some m =>
    match m.get r with
    | some orig => orig
    | none =>
      let shift := getRangeShift o r m
      ⟨asUsize ((r.start : Int) + shift), asUsize ((r.stop : Int) + shift)⟩

/-- `group_name.split('_').collect::<Vec<&str>>()[0]`: the text before the first underscore. -/
def groupPrefix (name : Text) : Text := name.takeWhile (fun c => c ≠ '_')

/-- The slot of a capture (src/intent_parser/deterministic_intent_parser.rs:337-359).  The two index
operations panic on absent keys. -/
def Det.slotOf (o : HashOrd) (p : Det) (input formatted intent : Text) (mapping : Option (Map Rng Rng))
    (c : Rng × Text) : Outcome InternalSlot := do
  let slotName ← Outcome.unwrap (p.groupNames.get (groupPrefix c.2))
  let entities ← Outcome.unwrap (p.slotEntities.get intent)
  let entity ← Outcome.unwrap (entities.get slotName)
  let range := originalRange o mapping (convertToCharRange formatted c.1)
  .ok ⟨substr input range, range, entity, slotName⟩

/-- The named groups that take part in a match
(src/intent_parser/deterministic_intent_parser.rs:326-336). -/
def namedCaptures (caps : List (Option Rng)) (names : List (Option Text)) : List (Rng × Text) :=
  ((caps.zip names).drop 1).filterMap fun mn =>
    match mn with
    | (some m, some n) => some (m, n)
    | _ => none

/-- `deduplicate_overlapping_slots` (src/intent_parser/deterministic_intent_parser.rs:385-401).
Simplification: the `i32` key does not wrap. -/
def dedupSlots (fns : TextFns) (slots : List InternalSlot) : List InternalSlot :=
  sortByKey (fun s => s.charRange.start)
    (dedupItems (fun a b => rangesOverlap a.charRange b.charRange)
      (fun s => -(((fns.tokenize s.value).length + s.value.length : Nat) : Int)) slots)

/-- `get_matching_result` (src/intent_parser/deterministic_intent_parser.rs:309-367). -/
def Det.matchingResult (fns : TextFns) (o : HashOrd) (p : Det) (input formatted : Text) (regex : Regex)
    (intent : Text) (mapping : Option (Map Rng Rng)) : Outcome (Option InternalResult) :=
  if regex.isMatch formatted then
    match (regex.capturesIter formatted).find? (fun caps => !caps.isEmpty) with
    | some caps => do
      let slots ← mapOutcome (p.slotOf o input formatted intent mapping) (namedCaptures caps regex.captureNames)
      .ok (some ⟨⟨some intent, 1⟩, dedupSlots fns slots⟩)
    | none => .ok none
  else .ok none

/-- The closure of `find_map` (src/intent_parser/deterministic_intent_parser.rs:244-255): the raw text
first, then the text with placeholders. -/
def Det.tryRegex (fns : TextFns) (o : HashOrd) (p : Det) (input cleaned cleanedFormatted : Text)
    (mapping : Map Rng Rng) (intent : Text) (regex : Regex) : Outcome (Option InternalResult) := do
  let raw ← p.matchingResult fns o input cleaned regex intent none
  match raw with
  | some r => .ok (some r)
  | none => p.matchingResult fns o input cleanedFormatted regex intent (some mapping)

/-- `iter.find_map(f)` where `f` may panic. -/
def findMapOutcome {α β : Type} (f : α → Outcome (Option β)) : List α → Outcome (Option β)
  | [] => .ok none
  | a :: l =>
    match f a with
    | .ok (some b) => .ok (some b)
    | .ok none => findMapOutcome f l
    | .err e => .err e
    | .panic => .panic

/-- The part of the loop body of `parse_top_intents` that follows the extraction of the entities
(src/intent_parser/deterministic_intent_parser.rs:231-258). -/
def Det.matchWith (fns : TextFns) (debug : Bool) (o : HashOrd) (p : Det) (input intent : Text)
    (matched : List MatchedEntity) : Outcome (Option InternalResult) := do
  let replaced ← replaceChecked debug input matched (entityPlaceholder fns)
  let cleaned ← p.preprocess fns input intent
  let cleanedFormatted ← p.preprocess fns replaced.2 intent
  let regexes ← Outcome.ofOption (.site 3) (p.regexes.get intent)
  findMapOutcome (p.tryRegex fns o input cleaned cleanedFormatted replaced.1 intent) regexes

/-- Loop body of `parse_top_intents` (src/intent_parser/deterministic_intent_parser.rs:216-259): the match
of one intent, if any. -/
def Det.matchIntent (env : RuleEnv) (o : HashOrd) (p : Det) (input : Text)
    (scope : Text × (List Kind × List Text)) : Prog (Option InternalResult) :=
  .builtinCached input (some scope.2.1) fun bs =>
    .custom input (some scope.2.2) 0 fun cs =>
      Prog.ofOutcome (p.matchWith env.fns env.debugAssertions o input scope.1
        (bs.map (KindMatch.toMatched env.names) ++ cs.map CustomEntity.toMatched))

/-- `intents_set` and the filter on the scopes (src/intent_parser/deterministic_intent_parser.rs:203-214). -/
def Det.inIntentsSet (p : Det) (whitelist : Option (List Text)) (intent : Text) : Bool :=
  match whitelist with
  | some wl => wl.contains intent
  | none => p.slotEntities.keys.contains intent

/-- `parse_top_intents` (src/intent_parser/deterministic_intent_parser.rs:195-284); the scopes are a hash
map.  Simplification: equal range tables of different scopes are iterated in the same order (tables with
different entries are independent). -/
def Det.parseTopIntents (env : RuleEnv) (o : HashOrd) (p : Det) (input : Text) (topN : Nat)
    (whitelist : Option (List Text)) : Prog (List InternalResult) :=
  (Prog.mapM (p.matchIntent env o input)
    ((o.order 0 p.scopes).filter fun s => p.inIntentsSet whitelist s.1)).bind fun rs =>
      .ret (rankByWeight env.rd (rs.filterMap id) topN)

/-- `parse` (src/intent_parser/deterministic_intent_parser.rs:126-154). -/
def Det.parse (env : RuleEnv) (p : Det) (o : HashOrd) (input : Text) (whitelist : Option (List Text)) :
    Prog InternalResult :=
  (p.parseTopIntents env o input 1 whitelist).bind fun ranked => .ret (pickUnambiguous ranked)

/-- `get_intents` (src/intent_parser/deterministic_intent_parser.rs:156-182). -/
def Det.getIntents (env : RuleEnv) (p : Det) (o : HashOrd) (input : Text) : Prog (List IntentResult) :=
  (p.parseTopIntents env o input p.regexes.keys.length none).bind fun ranked =>
    .ret (completeRanking (o.order 2 p.regexes.keys) (ranked.map InternalResult.intent))

/-- `get_slots` (src/intent_parser/deterministic_intent_parser.rs:184-190). -/
def Det.getSlots (env : RuleEnv) (p : Det) (o : HashOrd) (input intent : Text) : Prog (List InternalSlot) :=
  if p.regexes.keys.contains intent then
    (p.parse env o input (some [intent])).bind fun r => .ret r.slots
  else .fail (.unknownIntent intent)

/-- `impl IntentParser for DeterministicIntentParser`
(src/intent_parser/deterministic_intent_parser.rs:125-191). -/
def Det.impl (env : RuleEnv) (p : Det) : ParserImpl :=
  ⟨p.parse env, p.getIntents env, p.getSlots env⟩

end Snips
