import Verif.Model.RuleParser
import Verif.Model.SlotUtils

/-! # Model of src/intent_parser/lookup_intent_parser.rs -/

namespace Snips

/-- `GroupedEntityScope` with its `EntityScope` (src/models/intent_parser.rs:33-43). -/
structure GroupedScope where
  intentGroup : List Text
  builtin : List Text
  custom : List Text

/-- `LookupIntentParser` (src/intent_parser/lookup_intent_parser.rs:30-39). Intent and slot ids are `i32`
(integers here). -/
structure Lookup where
  slotsNames : List Text
  intentsNames : List Text
  map : Map Int (Int × List Int)
  stopWords : StopWords
  scopes : List GroupedScope

/-- What the parser takes from its environment: text functions, builtin kind names, rounding of `f32`
operations and whether the crate is built with debug assertions (and overflow checks). -/
structure RuleEnv where
  fns : TextFns
  names : KindNames
  rd : Rounding
  debugAssertions : Bool

/-- `items.combinations(k)` (itertools, external, transcribed): sublists of length `k`, in the
lexicographic order of their positions. -/
def combinations {α : Type} : Nat → List α → List (List α)
  | 0, _ => [[]]
  | _ + 1, [] => []
  | k + 1, x :: xs => (combinations k xs).map (x :: ·) ++ combinations (k + 1) xs

/-- `get_items_combinations` (src/intent_parser/lookup_intent_parser.rs:374-384). -/
def getItemsCombinations {α : Type} (items : List α) : List (List α) :=
  [] :: ((List.range' 1 items.length).reverse.flatMap fun k => combinations k items)

/-- Loop of `replace_entities_with_placeholders` (src/intent_parser/lookup_intent_parser.rs:358-371). -/
def replaceWithPlaceholdersFrom (fns : TextFns) (text : Text) : Nat → List MatchedEntity → Text
  | cur, [] => suffixFrom text cur
  | cur, e :: es =>
    substr text ⟨cur, e.range.start⟩ ++ entityPlaceholder fns e.name
      ++ replaceWithPlaceholdersFrom fns text e.range.stop es

/-- `replace_entities_with_placeholders` (src/intent_parser/lookup_intent_parser.rs:354-372). -/
def replaceWithPlaceholders (fns : TextFns) (text : Text) (es : List MatchedEntity) : Text :=
  if es.isEmpty then text else replaceWithPlaceholdersFrom fns text 0 es

/-- `preprocess_text` (src/intent_parser/lookup_intent_parser.rs:331-342). -/
def Lookup.preprocess (env : RuleEnv) (p : Lookup) (text intent : Text) : Text :=
  env.fns.lower (joinWith [' '] ((env.fns.tokenizeLight text).filter fun t =>
    !(p.stopWords.forIntent intent).contains (env.fns.normalize t)))

/-- Conversion of a cached builtin match (src/utils.rs:110-117). -/
def KindMatch.toMatched (names : KindNames) (e : KindMatch) : MatchedEntity := ⟨e.range, names.identifier e.kind⟩

/-- Conversion of a custom match (src/utils.rs:119-126). -/
def CustomEntity.toMatched (e : CustomEntity) : MatchedEntity := ⟨e.range, e.identifier⟩

/-- `get_all_entities` (src/intent_parser/lookup_intent_parser.rs:255-286). -/
def Lookup.allEntities (env : RuleEnv) (input : Text) (scope : GroupedScope) : Prog (List MatchedEntity) :=
  (Prog.ofOutcome (mapOutcome env.names.fromIdentifierOrErr scope.builtin)).bind fun kinds =>
    .builtinCached input (some kinds) fun bs =>
      .custom input (some scope.custom) 0 fun cs =>
        .ret (dedupEntities (bs.map (KindMatch.toMatched env.names) ++ cs.map CustomEntity.toMatched))

/-- The filter on an intent given by a whitelist (lookup_intent_parser.rs:229-233 and :299-302). -/
def allowedBy (whitelist : Option (List Text)) (intent : Text) : Bool :=
  match whitelist with
  | some wl => wl.contains intent
  | none => true

/-- The candidates of one entity scope for given entities (lookup_intent_parser.rs:241-249). -/
def Lookup.scopeCandidates (env : RuleEnv) (p : Lookup) (input : Text) (group : List Text)
    (entities : List MatchedEntity) : List (Text × List MatchedEntity) :=
  (getItemsCombinations entities).flatMap fun es =>
    let processed := replaceWithPlaceholders env.fns input es
    group.flatMap fun intent => [(p.preprocess env input intent, []), (p.preprocess env processed intent, es)]

/-- Loop over the scopes of `get_candidates` (src/intent_parser/lookup_intent_parser.rs:225-250). -/
def Lookup.candidatesFrom (env : RuleEnv) (p : Lookup) (input : Text) (whitelist : Option (List Text)) :
    List GroupedScope → Prog (List (Text × List MatchedEntity))
  | [] => .ret []
  | scope :: scopes =>
    if (scope.intentGroup.filter (allowedBy whitelist)).isEmpty then
      candidatesFrom env p input whitelist scopes
    else
      (Lookup.allEntities env input scope).bind fun es =>
        (candidatesFrom env p input whitelist scopes).bind fun rest =>
          .ret (p.scopeCandidates env input (scope.intentGroup.filter (allowedBy whitelist)) es ++ rest)

/-- `get_candidates` (src/intent_parser/lookup_intent_parser.rs:219-253). -/
def Lookup.getCandidates (env : RuleEnv) (p : Lookup) (input : Text) (whitelist : Option (List Text)) :
    Prog (List (Text × List MatchedEntity)) :=
  (p.candidatesFrom env input whitelist p.scopes).bind fun cs => .ret (unique cs)

/-- `names[id as usize]`: out of bounds, and negative ids, panic. -/
def indexName (names : List Text) (id : Int) : Outcome Text :=
  if 0 ≤ id then Outcome.unwrap names[id.toNat]? else .panic

/-- One slot of `parse_map_output` (src/intent_parser/lookup_intent_parser.rs:311-320). -/
def Lookup.slotOf (p : Lookup) (input : Text) (ie : Int × MatchedEntity) : Outcome InternalSlot := do
  let slotName ← indexName p.slotsNames ie.1
  .ok ⟨substr input ie.2.range, ie.2.range, ie.2.name, slotName⟩

/-- `parse_map_output` (src/intent_parser/lookup_intent_parser.rs:288-327). -/
def Lookup.parseMapOutput (env : RuleEnv) (p : Lookup) (input : Text) (output : Int × List Int)
    (entities : List MatchedEntity) (whitelist : Option (List Text)) : Outcome (Option InternalResult) := do
  if env.debugAssertions ∧ output.2.length ≠ entities.length then .panic
  else
    let intent ← indexName p.intentsNames output.1
    if allowedBy whitelist intent then
      let slots ← mapOutcome (p.slotOf input) (output.2.zip entities)
      .ok (some ⟨⟨some intent, 1⟩, slots⟩)
    else .ok none

/-- The lookup of one candidate (src/intent_parser/lookup_intent_parser.rs:172-177). -/
def Lookup.lookupOne (env : RuleEnv) (p : Lookup) (input : Text) (whitelist : Option (List Text))
    (c : Text × List MatchedEntity) : Outcome (Option InternalResult) :=
  match p.map.get (env.fns.hashStr c.1) with
  | some output => p.parseMapOutput env input output c.2 whitelist
  | none => .ok none

/-- `results_per_intent.entry(name).and_modify(push).or_insert(vec![..])`
(src/intent_parser/lookup_intent_parser.rs:178-184). -/
def pushResult (m : Map Text (List InternalResult)) (res : InternalResult) : Map Text (List InternalResult) :=
  match res.intent.name with
  | some name =>
    match m.get name with
    | some rs => m.insert name (rs ++ [res])
    | none => m.insert name [res]
  | none => m

/-- `iter.max_by(|a, b| score(a).partial_cmp(score(b)))`: the last of the maximal elements. -/
def maxByLast {α : Type} (score : α → ℚ) : List α → Option α
  | [] => none
  | a :: l => some (l.foldl (fun best x => if score best ≤ score x then x else best) a)

/-- Best result of every intent (src/intent_parser/lookup_intent_parser.rs:186-199); the results are
grouped in a hash map. -/
def bestPerIntent (rd : Rounding) (o : HashOrd) (results : List InternalResult) : List InternalResult :=
  (o.order 0 (results.foldl pushResult [])).filterMap fun nr =>
    maxByLast (fun r => slotWeight rd r.slots.length) nr.2

/-- `parse_top_intents` (src/intent_parser/lookup_intent_parser.rs:164-217). -/
def Lookup.parseTopIntents (env : RuleEnv) (o : HashOrd) (p : Lookup) (input : Text) (topN : Nat)
    (whitelist : Option (List Text)) : Prog (List InternalResult) :=
  (p.getCandidates env input whitelist).bind fun cs =>
    (Prog.ofOutcome (mapOutcome (p.lookupOne env input whitelist) cs)).bind fun rs =>
      .ret (rankByWeight env.rd (bestPerIntent env.rd o (rs.filterMap id)) topN)

/-- `parse` (src/intent_parser/lookup_intent_parser.rs:96-124). -/
def Lookup.parse (env : RuleEnv) (p : Lookup) (o : HashOrd) (input : Text) (whitelist : Option (List Text)) :
    Prog InternalResult :=
  (p.parseTopIntents env o input 1 whitelist).bind fun ranked => .ret (pickUnambiguous ranked)

/-- `get_intents` (src/intent_parser/lookup_intent_parser.rs:126-152). -/
def Lookup.getIntents (env : RuleEnv) (p : Lookup) (o : HashOrd) (input : Text) : Prog (List IntentResult) :=
  (p.parseTopIntents env o input p.intentsNames.length none).bind fun ranked =>
    .ret (completeRanking p.intentsNames (ranked.map InternalResult.intent))

/-- `get_slots` (src/intent_parser/lookup_intent_parser.rs:154-160). -/
def Lookup.getSlots (env : RuleEnv) (p : Lookup) (o : HashOrd) (input intent : Text) :
    Prog (List InternalSlot) :=
  if p.intentsNames.contains intent then
    (p.parse env o input (some [intent])).bind fun r => .ret r.slots
  else .fail (.unknownIntent intent)

/-- `impl IntentParser for LookupIntentParser` (src/intent_parser/lookup_intent_parser.rs:95-161). -/
def Lookup.impl (env : RuleEnv) (p : Lookup) : ParserImpl :=
  ⟨p.parse env, p.getIntents env, p.getSlots env⟩

end Snips
