import Verif.Model.TaggerShared
import Verif.Model.Engine
import Verif.Model.Probabilistic

/-!
# Threads sharing an engine: caches, taggers and the clock

The engine as in `Model/Engine`, but with the taggers of its slot fillers, which have a state and are behind mutexes, and
with a clock that advances while calls are running.  Code is an `EProg`: a `Prog` that also uses taggers. -/

namespace Snips

/-- Code that may request entity extractions and use taggers. -/
inductive EProg (α : Type) where
  | ret (a : α)
  | fail (e : Err)
  | panic
  | builtinCached (s : Text) (kinds : Option (List Kind)) (k : List KindMatch → EProg α)
  | builtinFresh (s : Text) (kinds : Option (List Kind)) (n : Nat) (k : List BuiltinEntity → EProg α)
  | custom (s : Text) (kinds : Option (List Text)) (n : Nat) (k : List CustomEntity → EProg α)
  /-- the statement of src/slot_filler/crf_slot_filler.rs:94-101 with tagger number `i`: lock the tagger, tag, decode the
  tags, unlock; followed by `k` -/
  | tags (i : Nat) (features : TokenFeatures) (decode : List Text → Outcome (List Text)) (k : List Text → EProg α)

namespace EProg

variable {α β : Type}

/-- Sequential composition with `?` (errors and panics abort). -/
def bind : EProg α → (α → EProg β) → EProg β
  | ret a, f => f a
  | fail e, _ => fail e
  | panic, _ => panic
  | builtinCached s kinds k, f => builtinCached s kinds (fun r => (k r).bind f)
  | builtinFresh s kinds n k, f => builtinFresh s kinds n (fun r => (k r).bind f)
  | custom s kinds n k, f => custom s kinds n (fun r => (k r).bind f)
  | tags i features decode k, f => tags i features decode (fun r => (k r).bind f)

/-- Code that does not use taggers. -/
def lift : Prog α → EProg α
  | .ret a => ret a
  | .fail e => fail e
  | .panic => panic
  | .builtinCached s kinds k => builtinCached s kinds (fun r => lift (k r))
  | .builtinFresh s kinds n k => builtinFresh s kinds n (fun r => lift (k r))
  | .custom s kinds n k => custom s kinds n (fun r => lift (k r))

end EProg

/-- `CRFSlotFiller::get_slots` with its tagger, which has number `i` (src/slot_filler/crf_slot_filler.rs:84-114). -/
def SlotFiller.getSlotsE (codec : TagCodec) (f : SlotFiller) (i : Nat) (text : Text) : EProg (List InternalSlot) :=
  match f.tagger, f.processor with
  | some _, some os =>
    let toks := f.fns.tokenize text
    if toks = [] then .ret []
    else
      (EProg.lift (Snips.computeFeatures f.fns os toks)).bind fun features =>
        .tags i features (mapOutcome codec.decode) fun tags =>
          EProg.lift (Prog.ofOutcome (tagsToSlots text toks tags f.scheme f.mapping))
  | _, _ => .ret []

/-- An intent parser whose code may use taggers (src/intent_parser/mod.rs:21-34). -/
structure EParser where
  parse : HashOrd → Text → Option (List Text) → EProg InternalResult
  getIntents : HashOrd → Text → EProg (List IntentResult)
  getSlots : HashOrd → Text → Text → EProg (List InternalSlot)

/-- A parser that does not use taggers. -/
def EParser.lift (p : ParserImpl) : EParser :=
  ⟨fun o t w => EProg.lift (p.parse o t w), fun o t => EProg.lift (p.getIntents o t),
    fun o t i => EProg.lift (p.getSlots o t i)⟩

/-- The slots of an intent, `number` being the numbers of the taggers of the slot fillers
(src/intent_parser/probabilistic_intent_parser.rs:70-73 and :88-91). -/
def Prob.slotsOfE (env : ProbEnv) (p : Prob) (number : Text → Nat) (e : Err) (input intent : Text) :
    EProg (List InternalSlot) :=
  match p.slotFillers.get intent with
  | some filler => filler.getSlotsE env.codec (number intent) input
  | none => .fail e

/-- `parse` (src/intent_parser/probabilistic_intent_parser.rs:61-81). -/
def Prob.parseE (env : ProbEnv) (p : Prob) (number : Text → Nat) (o : HashOrd) (input : Text)
    (whitelist : Option (List Text)) : EProg InternalResult :=
  (EProg.lift (p.classifier.getIntent env.ops env.feat o input whitelist)).bind fun res =>
    match res.name with
    | some name => (p.slotsOfE env number (.unknownIntent name) input name).bind fun slots => .ret ⟨res, slots⟩
    | none => .ret ⟨res, []⟩

/-- `impl IntentParser for ProbabilisticIntentParser` (src/intent_parser/probabilistic_intent_parser.rs:60-93). -/
def Prob.implE (env : ProbEnv) (p : Prob) (number : Text → Nat) : EParser :=
  ⟨p.parseE env number, fun o input => EProg.lift (p.getIntents env o input),
    fun _ input intent => p.slotsOfE env number (.extractUnknownIntent intent) input intent⟩

/-- `SnipsNluEngine` (src/nlu_engine.rs:27-31). -/
structure EEngine where
  dataset : DatasetMetadata
  parsers : List EParser
  names : KindNames

namespace EEngine

/-- The part of the engine that resolves slots, which uses no parser. -/
def resolver (e : EEngine) : Engine := ⟨e.dataset, [], e.names⟩

/-- The loop over the parsers of `parse_with_alternatives` (src/nlu_engine.rs:164-196). -/
def cascade (e : EEngine) (o : HashOrd) (input : Text) (whitelist : Option (List Text))
    (slotsAlternatives : Nat) : Nat → List EParser → ℚ → EProg ParseResult
  | _, [], noneScore => .ret ⟨input, ⟨none, noneScore⟩, [], []⟩
  | i, p :: ps, _ =>
    (p.parse (o.sub i) input whitelist).bind fun r =>
      match r.intent.name with
      | some _ =>
        (EProg.lift (e.resolver.resolveSlots input r.slots slotsAlternatives)).bind fun slots =>
          .ret ⟨input, r.intent, slots, []⟩
      | none => cascade e o input whitelist slotsAlternatives (i + 1) ps r.intent.score

/-- Loop over the parsers of `get_intents` (src/nlu_engine.rs:284-304). -/
def collectIntents (o : HashOrd) (input : Text) :
    Nat → List EParser → Map (Option Text) IntentResult → EProg (Map (Option Text) IntentResult)
  | _, [], m => .ret m
  | i, p :: ps, m =>
    (p.getIntents (o.sub i) input).bind fun rs => collectIntents o input (i + 1) ps (Engine.mergeIntents m rs)

/-- `get_intents` (src/nlu_engine.rs:281-310). -/
def getIntents (e : EEngine) (o : HashOrd) (input : Text) : EProg (List IntentResult) :=
  (collectIntents (o.sub 0) input 0 e.parsers []).bind fun m =>
    .ret (sortDesc IntentResult.score ((o.order 0 m).map Prod.snd))

/-- Loop of `get_slots_with_alternatives` (src/nlu_engine.rs:322-328). -/
def slotsCascade (e : EEngine) (o : HashOrd) (input intent : Text) (slotsAlternatives : Nat) :
    Nat → List EParser → EProg (List Slot)
  | _, [] => .ret []
  | i, p :: ps =>
    (p.getSlots (o.sub i) input intent).bind fun slots =>
      if slots.isEmpty then slotsCascade e o input intent slotsAlternatives (i + 1) ps
      else EProg.lift (e.resolver.resolveSlots input slots slotsAlternatives)

/-- `get_slots_with_alternatives` (src/nlu_engine.rs:316-329). -/
def getSlotsWithAlternatives (e : EEngine) (o : HashOrd) (input intent : Text)
    (slotsAlternatives : Nat) : EProg (List Slot) :=
  e.slotsCascade o input intent slotsAlternatives 0 e.parsers

/-- Slots of one alternative (src/nlu_engine.rs:218-227). -/
def alternativeSlots (e : EEngine) (o : HashOrd) (input : Text) (slotsAlternatives : Nat) :
    Option Text → EProg (List Slot)
  | some name => e.getSlotsWithAlternatives o input name slotsAlternatives
  | none => .ret []

/-- Slots of the alternatives (src/nlu_engine.rs:217-230). -/
def alternativesSlots (e : EEngine) (o : HashOrd) (input : Text) (slotsAlternatives : Nat) :
    Nat → List IntentResult → EProg (List Alternative)
  | _, [] => .ret []
  | i, res :: rest =>
    (e.alternativeSlots (o.sub i) input slotsAlternatives res.name).bind fun slots =>
      (alternativesSlots e o input slotsAlternatives (i + 1) rest).bind fun alts => .ret (⟨res, slots⟩ :: alts)

/-- `parse_with_alternatives` (src/nlu_engine.rs:147-234). -/
def parseWithAlternatives (e : EEngine) (o : HashOrd) (input : Text)
    (whitelist blacklist : Option (List Text)) (intentsAlternatives slotsAlternatives : Nat) : EProg ParseResult :=
  (EProg.lift (Prog.ofOutcome (e.resolver.getIntentsWhitelist (o.sub 0) whitelist blacklist))).bind fun wl =>
    (e.cascade (o.sub 1) input wl slotsAlternatives 0 e.parsers 0).bind fun main =>
      if intentsAlternatives = 0 then .ret main
      else
        (e.getIntents (o.sub 2) input).bind fun ranked =>
          (e.alternativesSlots (o.sub 3) input slotsAlternatives 0
            (((ranked.filter (Engine.passesFilter wl)).drop 1).take intentsAlternatives)).bind fun alts =>
              .ret { main with alternatives := alts }

end EEngine

/-- What an engine can be asked: `parse_with_alternatives`, `get_intents`, `get_slots_with_alternatives`,
`extract_slot_with_alternatives` (src/nlu_engine.rs:147, :281, :316, :405). -/
inductive EngineCall where
  | parse (o : HashOrd) (input : Text) (whitelist blacklist : Option (List Text)) (ni ns : Nat)
  | intents (o : HashOrd) (input : Text)
  | slots (o : HashOrd) (input intent : Text) (ns : Nat)
  | extract (input intent slot : Text) (ns : Nat)

/-- What it answers. -/
inductive EngineAnswer where
  | parse (r : ParseResult)
  | intents (l : List IntentResult)
  | slots (l : List Slot)
  | extract (s : Option Slot)

/-- The code of a call, with taggers. -/
def EEngine.code (e : EEngine) : EngineCall → EProg EngineAnswer
  | .parse o input whitelist blacklist ni ns =>
    (e.parseWithAlternatives o input whitelist blacklist ni ns).bind fun r => .ret (.parse r)
  | .intents o input => (e.getIntents o input).bind fun r => .ret (.intents r)
  | .slots o input intent ns => (e.getSlotsWithAlternatives o input intent ns).bind fun r => .ret (.slots r)
  | .extract input intent slot ns =>
    (EProg.lift (e.resolver.extractSlotWithAlternatives input intent slot ns)).bind fun r => .ret (.extract r)

/-! ### Threads -/

/-- A thread: its call has not begun; running; holding the mutex of a cache for the extraction at the head of its code;
holding the mutex of a tagger, before and after the features are given to it; finished. -/
inductive EThread (α : Type) where
  | idle (p : EProg α)
  | running (p : EProg α)
  | inBuiltin (s : Text) (kinds : Option (List Kind)) (k : List KindMatch → EProg α)
  | inCustom (s : Text) (kinds : Option (List Text)) (n : Nat) (k : List CustomEntity → EProg α)
  | inTagger (i : Nat) (features : TokenFeatures) (decode : List Text → Outcome (List Text)) (k : List Text → EProg α)
  | tagging (i : Nat) (decode : List Text → Outcome (List Text)) (k : List Text → EProg α)
  | done (o : Outcome α)

/-- A tagger behind its mutex (src/slot_filler/crf_slot_filler.rs:28): the features it was last given, whether the mutex is
held and whether it is poisoned. -/
structure TaggerState where
  current : Option TokenFeatures
  held : Bool
  poisoned : Bool

/-- What the threads share: the clock, the caches, the taggers. -/
structure EShared where
  now : Nat
  shared : Shared
  taggers : Nat → TaggerState

/-- Change of one tagger. -/
def EShared.put (sh : EShared) (i : Nat) (ts : TaggerState) : EShared :=
  { sh with taggers := fun j => if j = i then ts else sh.taggers j }

/-- What a thread does with the outcome of an extraction: `?` on errors, unwinding on panics. -/
def EThread.resume {α β : Type} (r : Outcome β) (k : β → EProg α) : EThread α :=
  match r with
  | .ok v => .running (k v)
  | .err e => .done (.err e)
  | .panic => .done .panic

/-- The second half of `Tagger::tag` (external): the labels for the features that the tagger was last given. -/
def CrfLib.viterbiCurrent (lib : CrfLib) (current : Option TokenFeatures) : Outcome (List Text) :=
  match current with
  | some f => lib.viterbi f
  | none => .err (.external 246)

/-- The mutex of a tagger when its guard is dropped: poisoned if the thread is unwinding. -/
def TaggerState.release {β : Type} (ts : TaggerState) (r : Outcome β) : TaggerState :=
  { ts with held := false, poisoned := match r with
    | .panic => true
    | _ => ts.poisoned }

/-- One step of a thread; the first component is the time at which its call began. -/
inductive EThreadStep (x : Ext) (libs : Nat → CrfLib) {α : Type} :
    Nat × EThread α → EShared → Nat × EThread α → EShared → Prop where
  /-- the call begins -/
  | begin (p t) (sh : EShared) : EThreadStep x libs (t, .idle p) sh (sh.now, .running p) sh
  /-- the call returns -/
  | ret (a : α) (t) (sh : EShared) : EThreadStep x libs (t, .running (.ret a)) sh (t, .done (.ok a)) sh
  | fail (e : Err) (t) (sh : EShared) : EThreadStep x libs (t, .running (.fail e)) sh (t, .done (.err e)) sh
  | panic (t) (sh : EShared) : EThreadStep x libs (t, .running .panic) sh (t, .done .panic) sh
  /-- uncached builtin extraction, at the time of the clock -/
  | fresh (s kinds n k t) (sh : EShared) :
      EThreadStep x libs (t, .running (.builtinFresh s kinds n k)) sh
        (t, EThread.resume (x.builtinRaw sh.now (x.lower s) kinds n) k) sh
  /-- cached extractions, as in `Model/Concurrent` -/
  | lockBuiltin (s kinds k t) (sh : EShared) : sh.shared.builtinHeld = false →
      sh.shared.caches.builtin.poisoned = false →
      EThreadStep x libs (t, .running (.builtinCached s kinds k)) sh (t, .inBuiltin s kinds k)
        { sh with shared := { sh.shared with builtinHeld := true } }
  | lockBuiltinPoisoned (s kinds k t) (sh : EShared) : sh.shared.builtinHeld = false →
      sh.shared.caches.builtin.poisoned = true →
      EThreadStep x libs (t, .running (.builtinCached s kinds k)) sh (t, .done .panic) sh
  | serveBuiltin (s kinds k t) (sh : EShared) :
      EThreadStep x libs (t, .inBuiltin s kinds k) sh
        (t, EThread.resume (x.builtinCachedAccess sh.now s kinds 0 sh.shared.caches).1
          (fun es => k (es.map BuiltinEntity.kindMatch)))
        { sh with shared := { sh.shared with
          caches := (x.builtinCachedAccess sh.now s kinds 0 sh.shared.caches).2, builtinHeld := false } }
  | lockCustom (s kinds n k t) (sh : EShared) : sh.shared.customHeld = false →
      sh.shared.caches.custom.poisoned = false →
      EThreadStep x libs (t, .running (.custom s kinds n k)) sh (t, .inCustom s kinds n k)
        { sh with shared := { sh.shared with customHeld := true } }
  | lockCustomPoisoned (s kinds n k t) (sh : EShared) : sh.shared.customHeld = false →
      sh.shared.caches.custom.poisoned = true →
      EThreadStep x libs (t, .running (.custom s kinds n k)) sh (t, .done .panic) sh
  | serveCustom (s kinds n k t) (sh : EShared) :
      EThreadStep x libs (t, .inCustom s kinds n k) sh
        (t, EThread.resume (x.customCachedAccess s kinds n sh.shared.caches).1 k)
        { sh with shared := { sh.shared with
          caches := (x.customCachedAccess s kinds n sh.shared.caches).2, customHeld := false } }
  /-- `lock()` of a tagger succeeds (src/slot_filler/crf_slot_filler.rs:95) -/
  | lockTagger (i f decode k t) (sh : EShared) : (sh.taggers i).held = false → (sh.taggers i).poisoned = false →
      EThreadStep x libs (t, .running (.tags i f decode k)) sh (t, .inTagger i f decode k)
        (sh.put i { sh.taggers i with held := true })
  /-- `lock()` fails on a poisoned mutex, which is an error (src/slot_filler/crf_slot_filler.rs:96) -/
  | lockTaggerPoisoned (i f decode k t) (sh : EShared) : (sh.taggers i).held = false → (sh.taggers i).poisoned = true →
      EThreadStep x libs (t, .running (.tags i f decode k)) sh (t, .done (.err (.external 245))) sh
  /-- `Tagger::tag` (external): the features are given to the tagger; if that fails the guard is dropped -/
  | setOk (i f decode k t) (sh : EShared) : (libs i).set f = .ok () →
      EThreadStep x libs (t, .inTagger i f decode k) sh (t, .tagging i decode k)
        (sh.put i { sh.taggers i with current := some f })
  | setFails (i f decode k t o) (sh : EShared) : (libs i).set f = o → o ≠ .ok () →
      EThreadStep x libs (t, .inTagger i f decode k) sh (t, EThread.resume o fun _ => .panic)
        (sh.put i { (sh.taggers i).release o with current := (libs i).left (sh.taggers i).current f })
  /-- the labels are found and decoded, and the guard is dropped (src/slot_filler/crf_slot_filler.rs:97-101) -/
  | serveTagger (i decode k t o) (sh : EShared) : o = ((libs i).viterbiCurrent (sh.taggers i).current >>= decode) →
      EThreadStep x libs (t, .tagging i decode k) sh (t, EThread.resume o k)
        (sh.put i ((sh.taggers i).release o))

/-- A state of the process. -/
structure ESystem (α : Type) where
  shared : EShared
  threads : List (Nat × EThread α)

/-- One move: the scheduler picks any thread that can take a step. -/
inductive EMove (x : Ext) (libs : Nat → CrfLib) {α : Type} : ESystem α → ESystem α → Prop where
  | step (pre post : List (Nat × EThread α)) (th th' : Nat × EThread α) (sh sh' : EShared) :
      EThreadStep x libs th sh th' sh' → EMove x libs ⟨sh, pre ++ th :: post⟩ ⟨sh', pre ++ th' :: post⟩

/-- The clock advances. -/
def ESystem.later {α : Type} (s : ESystem α) (d : Nat) : ESystem α :=
  { s with shared := { s.shared with now := s.shared.now + d } }

/-- States reachable under some schedule, the clock advancing at will. -/
inductive EReachable (x : Ext) (libs : Nat → CrfLib) {α : Type} (s0 : ESystem α) : ESystem α → Prop where
  | refl : EReachable x libs s0 s0
  | move {s s' : ESystem α} : EReachable x libs s0 s → EMove x libs s s' → EReachable x libs s0 s'
  | tick {s : ESystem α} (d : Nat) : EReachable x libs s0 s → EReachable x libs s0 (s.later d)

/-- Initial state: no call has begun; the clock shows any time and the taggers were last given any features. -/
def ESystem.start {α : Type} (now : Nat) (c : Caches) (current : Nat → Option TokenFeatures) (calls : List (EProg α)) :
    ESystem α :=
  ⟨⟨now, ⟨c, false, false⟩, fun i => ⟨current i, false, false⟩⟩, calls.map fun p => (now, .idle p)⟩

end Snips
