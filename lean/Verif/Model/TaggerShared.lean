import Verif.Model.SlotFiller
import Verif.Model.Concurrent

/-! # Several threads using one slot filler

The tagger of a `CRFSlotFiller` has a state, the features it was last given, and is kept behind a mutex
(src/slot_filler/crf_slot_filler.rs:28, :94-96, :121-123).  What a thread does with the tagger while it holds the mutex
is a `Locked` program; the features are computed before, without the mutex, by a `Prog` that uses the caches of the
entity parsers.  Other threads may use the same caches without the tagger. -/

namespace Snips

/-- Features of the tokens of a text. -/
abbrev TokenFeatures := List (List (Text × Text))

/-- `crfsuite::Tagger` (external), whose state is the sequence of features it was last given: `set` gives it features,
`viterbi` finds the labels for given features, `labels` are its labels, `score` is the probability of labels for given
features.  A failing `set` leaves any state behind. -/
structure CrfLib where
  set : TokenFeatures → Outcome Unit
  left : Option TokenFeatures → TokenFeatures → Option TokenFeatures
  viterbi : TokenFeatures → Outcome (List Text)
  labels : Outcome (List Text)
  score : TokenFeatures → List Text → Outcome ℚ

/-- The state after `set`. -/
def CrfLib.after (lib : CrfLib) (current : Option TokenFeatures) (f : TokenFeatures) : Option TokenFeatures :=
  match lib.set f with
  | .ok () => some f
  | _ => lib.left current f

/-- `probability` (external): for the features that the tagger was last given; an error if there are none. -/
def CrfLib.probability (lib : CrfLib) (current : Option TokenFeatures) (labels : List Text) : Outcome ℚ :=
  match current with
  | some f => lib.score f labels
  | none => .err (.external 246)

/-- What is done under the lock: operations of the tagger, and at the end the lock is released and the call ends with
an outcome; a panic unwinds with the lock. -/
inductive Locked (α : Type) where
  | leave (o : Outcome α)
  | panic
  | tag (f : TokenFeatures) (k : List Text → Locked α)
  | labels (k : List Text → Locked α)
  | set (f : TokenFeatures) (k : Locked α)
  | probability (labels : List Text) (k : ℚ → Locked α)

/-- `?`, while the lock is held. -/
def Locked.after {α β : Type} (o : Outcome β) (k : β → Locked α) : Locked α :=
  match o with
  | .ok b => k b
  | .err e => .leave (.err e)
  | .panic => .panic

/-- What a slot filler is asked (src/slot_filler/mod.rs:23-27). -/
inductive FillerCall where
  | slots (text : Text)
  | probability (toks : List Token) (tags : List Text)

/-- What it answers. -/
inductive FillerAnswer where
  | slots (l : List InternalSlot)
  | probability (p : ℚ)
deriving DecidableEq

/-- `get_slots` (src/slot_filler/crf_slot_filler.rs:84-114): the code up to the lock; the lock is held up to the end of the
statement (:94-100); `tags_to_slots` runs without it. -/
def SlotFiller.slotsCall (codec : TagCodec) (f : SlotFiller) (text : Text) : Prog (FillerAnswer ⊕ Locked FillerAnswer) :=
  match f.tagger, f.processor with
  | some _, some os =>
    let toks := f.fns.tokenize text
    if toks = [] then .ret (.inl (.slots []))
    else
      (Snips.computeFeatures f.fns os toks).bind fun features =>
        .ret (.inr (.tag features fun encoded =>
          Locked.after (mapOutcome codec.decode encoded) fun tags =>
            .leave (tagsToSlots text toks tags f.scheme f.mapping >>= fun l => .ok (.slots l))))
  | _, _ => .ret (.inl (.slots []))

/-- `get_sequence_probability` (src/slot_filler/crf_slot_filler.rs:116-152): the code up to the lock, which is held up to
the end (:121-143). -/
def SlotFiller.probabilityCall (codec : TagCodec) (f : SlotFiller) (toks : List Token) (tags : List Text) :
    Prog (FillerAnswer ⊕ Locked FillerAnswer) :=
  match f.tagger, f.processor with
  | some _, some os =>
    (Snips.computeFeatures f.fns os toks).bind fun features =>
      .ret (.inr (.labels fun encodedLabels =>
        Locked.after (mapOutcome codec.decode encodedLabels) fun labels =>
          Locked.after (mapOutcome (cleanTag labels) tags) fun cleaned =>
            .set features (.probability (cleaned.map codec.encode) fun p => .leave (.ok (.probability p)))))
  | _, _ => .ret (.inl (.probability (if tags.any (fun t => t ≠ outside) then 0 else 1)))

/-- The code of a call up to the lock. -/
def FillerCall.code (codec : TagCodec) (f : SlotFiller) : FillerCall → Prog (FillerAnswer ⊕ Locked FillerAnswer)
  | .slots text => f.slotsCall codec text
  | .probability toks tags => f.probabilityCall codec toks tags

/-- A thread: before the lock, waiting for it, holding it, or finished. -/
inductive TThread (α : Type) where
  | computing (th : Thread (α ⊕ Locked α))
  | waiting (b : Locked α)
  | holding (b : Locked α)
  | done (o : Outcome α)

/-- What the threads share: the caches, the state of the tagger and its mutex. -/
structure TShared where
  shared : Shared
  current : Option TokenFeatures
  held : Bool
  poisoned : Bool

/-- One step of a thread whose call was made at time `t`. -/
inductive TThreadStep (x : Ext) (lib : CrfLib) (t : Nat) {α : Type} : TThread α → TShared → TThread α → TShared → Prop where
  /-- a step before the lock -/
  | compute (th th' : Thread (α ⊕ Locked α)) (sh : TShared) (sh' : Shared) : ThreadStep x t th sh.shared th' sh' →
      TThreadStep x lib t (.computing th) sh (.computing th') { sh with shared := sh' }
  /-- the call ends without the tagger -/
  | finish (a : α) (sh : TShared) : TThreadStep x lib t (.computing (.done (.ok (.inl a)))) sh (.done (.ok a)) sh
  | fail (e : Err) (sh : TShared) : TThreadStep x lib t (.computing (.done (.err e))) sh (.done (.err e)) sh
  | unwind (sh : TShared) : TThreadStep x lib t (.computing (.done .panic)) sh (.done .panic) sh
  /-- the call comes to `lock()` -/
  | arrive (b : Locked α) (sh : TShared) : TThreadStep x lib t (.computing (.done (.ok (.inr b)))) sh (.waiting b) sh
  /-- `lock()` succeeds (src/slot_filler/crf_slot_filler.rs:95, :122) -/
  | lock (b : Locked α) (sh : TShared) : sh.held = false → sh.poisoned = false →
      TThreadStep x lib t (.waiting b) sh (.holding b) { sh with held := true }
  /-- `lock()` fails on a poisoned mutex, which is an error (src/slot_filler/crf_slot_filler.rs:96, :123) -/
  | lockPoisoned (b : Locked α) (sh : TShared) : sh.held = false → sh.poisoned = true →
      TThreadStep x lib t (.waiting b) sh (.done (.err (.external 245))) sh
  /-- operations of the tagger -/
  | tag (f k) (sh : TShared) : TThreadStep x lib t (.holding (.tag f k)) sh
      (.holding (Locked.after (lib.set f >>= fun _ => lib.viterbi f) k)) { sh with current := lib.after sh.current f }
  | labels (k) (sh : TShared) : TThreadStep x lib t (.holding (.labels k)) sh (.holding (Locked.after lib.labels k)) sh
  | set (f k) (sh : TShared) : TThreadStep x lib t (.holding (.set f k)) sh
      (.holding (Locked.after (lib.set f) fun _ => k)) { sh with current := lib.after sh.current f }
  | probability (labels k) (sh : TShared) : TThreadStep x lib t (.holding (.probability labels k)) sh
      (.holding (Locked.after (lib.probability sh.current labels) k)) sh
  /-- the guard is dropped -/
  | leave (o : Outcome α) (sh : TShared) : TThreadStep x lib t (.holding (.leave o)) sh (.done o) { sh with held := false }
  /-- the guard is dropped while unwinding, which poisons the mutex -/
  | poison (sh : TShared) : TThreadStep x lib t (.holding .panic) sh (.done .panic) { sh with held := false, poisoned := true }

/-- A state of the process: what is shared and the threads, each with the time of its call. -/
structure TSystem (α : Type) where
  shared : TShared
  threads : List (Nat × TThread α)

/-- One step of the process: the scheduler picks any thread that can take a step. -/
inductive TSystemStep (x : Ext) (lib : CrfLib) {α : Type} : TSystem α → TSystem α → Prop where
  | step (pre post : List (Nat × TThread α)) (t : Nat) (th th' : TThread α) (sh sh' : TShared) :
      TThreadStep x lib t th sh th' sh' →
      TSystemStep x lib ⟨sh, pre ++ (t, th) :: post⟩ ⟨sh', pre ++ (t, th') :: post⟩

/-- States reachable under some schedule. -/
inductive TReachable (x : Ext) (lib : CrfLib) {α : Type} (s0 : TSystem α) : TSystem α → Prop where
  | refl : TReachable x lib s0 s0
  | step {s s' : TSystem α} : TReachable x lib s0 s → TSystemStep x lib s s' → TReachable x lib s0 s'

/-- Initial state: the given calls are all about to start, with the given caches and a tagger in any state. -/
def TSystem.start {α : Type} (c : Caches) (current : Option TokenFeatures) (calls : List (Nat × Prog (α ⊕ Locked α))) :
    TSystem α :=
  ⟨⟨⟨c, false, false⟩, current, false, false⟩, calls.map fun p => (p.1, .computing (.running p.2))⟩

end Snips
