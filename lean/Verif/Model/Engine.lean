import Verif.Model.SlotUtils

/-! # Model of src/nlu_engine.rs (inference) -/

namespace Snips

/-- `DatasetMetadata` (src/models/nlu_engine.rs:22-32): `entities` maps a custom entity to its
`automatically_extensible` flag.  The language code is not used at inference. -/
structure DatasetMetadata where
  entities : Map Text Bool
  slotNameMappings : Map Text (Map Text Text)

/-- `SnipsNluEngine` (src/nlu_engine.rs:27-31). -/
structure Engine where
  dataset : DatasetMetadata
  parsers : List ParserImpl
  names : KindNames

namespace Engine

/-- `get_intents_whitelist` (src/nlu_engine.rs:236-279).  `all_intents` is a `HashSet`, iterated when a
blacklist is given. -/
def getIntentsWhitelist (e : Engine) (o : HashOrd) (whitelist blacklist : Option (List Text)) :
    Outcome (Option (List Text)) :=
  let allIntents := e.dataset.slotNameMappings.keys
  let mentioned := whitelist.getD [] ++ blacklist.getD []
  match mentioned.find? (fun intent => !allIntents.contains intent) with
  | some unknown => .err (.unknownFilterIntent unknown)
  | none =>
    let reverted := blacklist.map fun bl => (o.order 0 allIntents).filter (fun i => !bl.contains i)
    .ok (match whitelist with
      | some wl => some (match reverted with
        | some rw => intersect rw wl
        | none => wl)
      | none => reverted)

/-- `resolve_slots`, body of the loop (src/nlu_engine.rs:370-386): custom if the entity is in the
dataset metadata, builtin otherwise. -/
def resolveOne (e : Engine) (slotsAlternatives : Nat) (builtins : List BuiltinEntity)
    (customs : List CustomEntity) (slot : InternalSlot) : Prog (Option Slot) :=
  match e.dataset.entities.get slot.entity with
  | some extensible => resolveCustomSlot slot extensible customs slotsAlternatives
  | none => resolveBuiltinSlot e.names slot builtins slotsAlternatives

/-- `resolve_slots`, loop (src/nlu_engine.rs:368-391). -/
def resolveEach (e : Engine) (slotsAlternatives : Nat) (builtins : List BuiltinEntity)
    (customs : List CustomEntity) : List InternalSlot → Prog (List Slot)
  | [] => .ret []
  | slot :: slots => do
    let r ← e.resolveOne slotsAlternatives builtins customs slot
    let rest ← resolveEach e slotsAlternatives builtins customs slots
    .ret (match r with
      | some s => s :: rest
      | none => rest)

/-- `resolve_slots` (src/nlu_engine.rs:331-392). -/
def resolveSlots (e : Engine) (text : Text) (slots : List InternalSlot) (slotsAlternatives : Nat) :
    Prog (List Slot) :=
  if slots.isEmpty then .ret []
  else
    let builtinScope := slots.filterMap fun s => e.names.fromStr s.entity
    let customScope := slots.filterMap fun s =>
      if (e.names.fromStr s.entity).isSome then none else some s.entity
    .builtinFresh text (some builtinScope) slotsAlternatives fun builtins =>
      .custom text (some customScope) slotsAlternatives fun customs =>
        e.resolveEach slotsAlternatives builtins customs slots

/-- The loop over the parsers of `parse_with_alternatives` (src/nlu_engine.rs:164-196); `i` numbers
the parsers. -/
def cascade (e : Engine) (o : HashOrd) (input : Text) (whitelist : Option (List Text))
    (slotsAlternatives : Nat) : Nat → List ParserImpl → ℚ → Prog ParseResult
  | _, [], noneScore => .ret ⟨input, ⟨none, noneScore⟩, [], []⟩
  | i, p :: ps, _ => do
    let r ← p.parse (o.sub i) input whitelist
    match r.intent.name with
    | some _ => do
      let slots ← e.resolveSlots input r.slots slotsAlternatives
      .ret ⟨input, r.intent, slots, []⟩
    | none => cascade e o input whitelist slotsAlternatives (i + 1) ps r.intent.score

/-- `results.entry(name).and_modify(|e| e.confidence_score = score).or_insert_with(|| res)`
(src/nlu_engine.rs:298-301). -/
def upsertScore (m : Map (Option Text) IntentResult) (res : IntentResult) :
    Map (Option Text) IntentResult :=
  match m.get res.name with
  | some old => m.insert res.name { old with score := res.score }
  | none => m.insert res.name res

/-- Merge of the results of one parser (src/nlu_engine.rs:286-303). -/
def mergeIntents (m : Map (Option Text) IntentResult) (rs : List IntentResult) :
    Map (Option Text) IntentResult :=
  if m.isEmpty then rs.foldl (fun m res => m.insert res.name res) m
  else rs.foldl (fun m res =>
    let existing := match m.get res.name with
      | some r => r.score
      | none => 0
    if res.score > existing then upsertScore m res else m) m

/-- Loop over the parsers of `get_intents` (src/nlu_engine.rs:284-304). -/
def collectIntents (o : HashOrd) (input : Text) :
    Nat → List ParserImpl → Map (Option Text) IntentResult → Prog (Map (Option Text) IntentResult)
  | _, [], m => .ret m
  | i, p :: ps, m => do
    let rs ← p.getIntents (o.sub i) input
    collectIntents o input (i + 1) ps (mergeIntents m rs)

/-- `get_intents` (src/nlu_engine.rs:281-310). -/
def getIntents (e : Engine) (o : HashOrd) (input : Text) : Prog (List IntentResult) := do
  let m ← collectIntents (o.sub 0) input 0 e.parsers []
  .ret (sortDesc IntentResult.score ((o.order 0 m).map Prod.snd))

/-- Loop of `get_slots_with_alternatives` (src/nlu_engine.rs:322-328). -/
def slotsCascade (e : Engine) (o : HashOrd) (input intent : Text) (slotsAlternatives : Nat) :
    Nat → List ParserImpl → Prog (List Slot)
  | _, [] => .ret []
  | i, p :: ps => do
    let slots ← p.getSlots (o.sub i) input intent
    if slots.isEmpty then slotsCascade e o input intent slotsAlternatives (i + 1) ps
    else e.resolveSlots input slots slotsAlternatives

/-- `get_slots_with_alternatives` (src/nlu_engine.rs:316-329). -/
def getSlotsWithAlternatives (e : Engine) (o : HashOrd) (input intent : Text)
    (slotsAlternatives : Nat) : Prog (List Slot) :=
  e.slotsCascade o input intent slotsAlternatives 0 e.parsers

/-- `get_slots` (src/nlu_engine.rs:312-314). -/
def getSlots (e : Engine) (o : HashOrd) (input intent : Text) : Prog (List Slot) :=
  e.getSlotsWithAlternatives o input intent 0

/-- The filter closure on ranked intents (src/nlu_engine.rs:205-214). -/
def passesFilter (whitelist : Option (List Text)) (res : IntentResult) : Bool :=
  match res.name with
  | some name => match whitelist with
    | some wl => wl.contains name
    | none => true
  | none => true

/-- Slots of one alternative (src/nlu_engine.rs:218-227). -/
def alternativeSlots (e : Engine) (o : HashOrd) (input : Text) (slotsAlternatives : Nat) :
    Option Text → Prog (List Slot)
  | some name => e.getSlotsWithAlternatives o input name slotsAlternatives
  | none => .ret []

/-- Slots of the alternatives (src/nlu_engine.rs:217-230). -/
def alternativesSlots (e : Engine) (o : HashOrd) (input : Text) (slotsAlternatives : Nat) :
    Nat → List IntentResult → Prog (List Alternative)
  | _, [] => .ret []
  | i, res :: rest => do
    let slots ← e.alternativeSlots (o.sub i) input slotsAlternatives res.name
    let alts ← alternativesSlots e o input slotsAlternatives (i + 1) rest
    .ret (⟨res, slots⟩ :: alts)

/-- `parse_with_alternatives` (src/nlu_engine.rs:147-234). -/
def parseWithAlternatives (e : Engine) (o : HashOrd) (input : Text)
    (whitelist blacklist : Option (List Text)) (intentsAlternatives slotsAlternatives : Nat) :
    Prog ParseResult := do
  let wl ← Prog.ofOutcome (e.getIntentsWhitelist (o.sub 0) whitelist blacklist)
  let main ← e.cascade (o.sub 1) input wl slotsAlternatives 0 e.parsers 0
  if intentsAlternatives = 0 then .ret main
  else do
    let ranked ← e.getIntents (o.sub 2) input
    let selected := (((ranked.filter (passesFilter wl)).drop 1).take intentsAlternatives)
    let alts ← e.alternativesSlots (o.sub 3) input slotsAlternatives 0 selected
    .ret { main with alternatives := alts }

/-- `parse` (src/nlu_engine.rs:134-145). -/
def parse (e : Engine) (o : HashOrd) (input : Text) (whitelist blacklist : Option (List Text)) :
    Prog ParseResult :=
  e.parseWithAlternatives o input whitelist blacklist 0 0

/-- `extract_custom_slot` (src/nlu_engine.rs:442-483). -/
def extractCustomSlot (input entityName slotName : Text) (extensible : Bool) (slotAlternatives : Nat) :
    Prog (Option Slot) :=
  .custom input (some [entityName]) slotAlternatives fun es =>
    .ret (match es.getLast? with
      | some m => some ⟨m.value, .custom m.resolved, m.alternatives.map .custom, m.range, entityName, slotName⟩
      | none =>
        if extensible then some ⟨input, .custom input, [], ⟨0, input.length⟩, entityName, slotName⟩
        else none)

/-- `extract_builtin_slot` (src/nlu_engine.rs:485-511). -/
def extractBuiltinSlot (names : KindNames) (input entityName slotName : Text) (slotAlternatives : Nat) :
    Prog (Option Slot) := do
  let kind ← Prog.ofOutcome (names.fromIdentifierOrErr entityName)
  .builtinFresh input (some [kind]) slotAlternatives fun es =>
    .ret (es.head?.map fun b =>
      ⟨substr input b.range, b.entity, b.alternatives, b.range, entityName, slotName⟩)

/-- `extract_slot_with_alternatives` (src/nlu_engine.rs:405-439). -/
def extractSlotWithAlternatives (e : Engine) (input intentName slotName : Text)
    (slotAlternatives : Nat) : Prog (Option Slot) := do
  let mapping ← Prog.ofOutcome
    (Outcome.ofOption (.extractUnknownIntent intentName) (e.dataset.slotNameMappings.get intentName))
  let entityName ← Prog.ofOutcome
    (Outcome.ofOption (.extractUnknownSlot slotName) (Map.get mapping slotName))
  match e.dataset.entities.get entityName with
  | some extensible => extractCustomSlot input entityName slotName extensible slotAlternatives
  | none => extractBuiltinSlot e.names input entityName slotName slotAlternatives

/-- `extract_slot` (src/nlu_engine.rs:396-403). -/
def extractSlot (e : Engine) (input intentName slotName : Text) : Prog (Option Slot) :=
  e.extractSlotWithAlternatives input intentName slotName 0

end Engine

end Snips
