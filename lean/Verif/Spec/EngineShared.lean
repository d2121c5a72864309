import Verif.Model.EngineShared
import Verif.Spec.Extraction
import Verif.Spec.TaggerShared

/-! Vocabulary for statements about threads that share an engine. -/

namespace Snips

/-- The same code with taggers without state. -/
def EProg.alone {α : Type} (libs : Nat → CrfLib) : EProg α → Prog α
  | .ret a => .ret a
  | .fail e => .fail e
  | .panic => .panic
  | .builtinCached s kinds k => .builtinCached s kinds fun r => (k r).alone libs
  | .builtinFresh s kinds n k => .builtinFresh s kinds n fun r => (k r).alone libs
  | .custom s kinds n k => .custom s kinds n fun r => (k r).alone libs
  | .tags i features decode k =>
    match (libs i).stateless.tag features >>= decode with
    | .ok r => (k r).alone libs
    | .err e => .fail e
    | .panic => .panic

/-- The code answers `o` when it is run by itself without caches, the extractions of resolved values being made at the
given times, and those of ranges and kinds at time `t`. -/
inductive Prog.Answers (x : Ext) (t : Nat) {α : Type} : Prog α → List Nat → Outcome α → Prop where
  | ret (a : α) : Answers x t (.ret a) [] (.ok a)
  | fail (e : Err) : Answers x t (.fail e) [] (.err e)
  | panic : Answers x t .panic [] .panic
  | fresh {s kinds n k es time times o} : (x.world time).builtin s kinds n = .ok es → Answers x t (k es) times o →
      Answers x t (.builtinFresh s kinds n k) (time :: times) o
  | freshErr {s kinds n k e time} : (x.world time).builtin s kinds n = .err e →
      Answers x t (.builtinFresh s kinds n k) [time] (.err e)
  | freshPanic {s kinds n k time} : (x.world time).builtin s kinds n = .panic →
      Answers x t (.builtinFresh s kinds n k) [time] .panic
  | cached {s kinds k es times o} : (x.world t).builtin s kinds 0 = .ok es →
      Answers x t (k (es.map BuiltinEntity.kindMatch)) times o → Answers x t (.builtinCached s kinds k) times o
  | cachedErr {s kinds k e} : (x.world t).builtin s kinds 0 = .err e → Answers x t (.builtinCached s kinds k) [] (.err e)
  | cachedPanic {s kinds k} : (x.world t).builtin s kinds 0 = .panic → Answers x t (.builtinCached s kinds k) [] .panic
  | custom {s kinds n k es times o} : (x.world t).custom s kinds n = .ok es → Answers x t (k es) times o →
      Answers x t (.custom s kinds n k) times o
  | customErr {s kinds n k e} : (x.world t).custom s kinds n = .err e → Answers x t (.custom s kinds n k) [] (.err e)
  | customPanic {s kinds n k} : (x.world t).custom s kinds n = .panic → Answers x t (.custom s kinds n k) [] .panic

/-- Times from the beginning of a call up to a later time, in order. -/
structure TimesWithin (times : List Nat) (first last : Nat) : Prop where
  sorted : times.Pairwise (· ≤ ·)
  within : ∀ t ∈ times, first ≤ t ∧ t ≤ last

/-- A call to the engine of `Model/Engine`. -/
def Engine.code (e : Engine) : EngineCall → Prog EngineAnswer
  | .parse o input whitelist blacklist ni ns =>
    (e.parseWithAlternatives o input whitelist blacklist ni ns).bind fun r => .ret (.parse r)
  | .intents o input => (e.getIntents o input).bind fun r => .ret (.intents r)
  | .slots o input intent ns => (e.getSlotsWithAlternatives o input intent ns).bind fun r => .ret (.slots r)
  | .extract input intent slot ns => (e.extractSlotWithAlternatives input intent slot ns).bind fun r => .ret (.extract r)

/-- The parser with taggers is the parser of the rest of the model, with the taggers' state. -/
inductive SameParser (libs : Nat → CrfLib) : EParser → ParserImpl → Prop where
  | rule (p : ParserImpl) : SameParser libs (EParser.lift p) p
  | prob (env : ProbEnv) (p : Prob) (number : Text → Nat)
      (h : ∀ intent filler, p.slotFillers.get intent = some filler →
        ∀ tg, filler.tagger = some tg → tg = (libs (number intent)).stateless) :
      SameParser libs (p.implE env number) (p.impl env)

/-- The engine with taggers is the engine of the rest of the model, with the taggers' state. -/
structure SameEngine (libs : Nat → CrfLib) (e : EEngine) (e' : Engine) : Prop where
  dataset : e.dataset = e'.dataset
  names : e.names = e'.names
  parsers : List.Forall₂ (SameParser libs) e.parsers e'.parsers

/-- Whether a thread holds the builtin cache, the custom cache, tagger `i`. -/
def EThread.holdsBuiltin {α : Type} : EThread α → Bool
  | .inBuiltin .. => true
  | _ => false

/-- (see above) -/
def EThread.holdsCustom {α : Type} : EThread α → Bool
  | .inCustom .. => true
  | _ => false

/-- (see above) -/
def EThread.holdsTagger {α : Type} (i : Nat) : EThread α → Bool
  | .inTagger j .. => j == i
  | .tagging j .. => j == i
  | _ => false

end Snips
