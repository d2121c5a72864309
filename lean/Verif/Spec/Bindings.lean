import Verif.Model.Bindings
import Verif.Spec.Ffi

/-! Vocabulary for statements about the bindings for Python, Kotlin and Swift. -/

namespace Snips

variable {κ : Type}

/-- The text before the first null character. -/
def beforeNull (t : Text) : Text := t.takeWhile (· ≠ '\x00')

/-- The native answer to a question put to an engine, converted by one function for each kind of answer. -/
def Question.native {β : Type} (parseConv : ParseResult → Outcome β) (slotsConv : List Slot → Outcome β)
    (intentsConv : List IntentResult → Outcome β) (h : Handle) (c : CCirc) : Question → Outcome β
  | .parse text wl bl ni ns =>
    h.answer c (h.engine.parseWithAlternatives c.order (beforeNull text) (wl.map (·.map beforeNull))
      (bl.map (·.map beforeNull)) (asU32 ni) (asU32 ns)) >>= parseConv
  | .getSlots text intent ns =>
    h.answer c (h.engine.getSlotsWithAlternatives c.order (beforeNull text) (beforeNull intent) (asU32 ns)) >>= slotsConv
  | .getIntents text => h.answer c (h.engine.getIntents c.order (beforeNull text)) >>= intentsConv

/-- A text that C can hold. -/
def withoutNull (b : List Nat) : Outcome (List Nat) := if 0 ∈ b then .err (.external 242) else .ok b

/-- The native answer as JSON. -/
def Question.json (env : CEnv κ) : Handle → CCirc → Question → Outcome (List Nat) :=
  Question.native (fun r => env.jsonResult r >>= withoutNull) (fun r => env.jsonSlots r >>= withoutNull)
    (fun r => env.jsonIntents r >>= withoutNull)

/-- The native answer as a C structure. -/
def Question.struct (env : CEnv κ) : Handle → CCirc → Question → Outcome κ :=
  Question.native env.cResult env.cSlots env.cIntents

/-- No text of the question has a null character, and the numbers fit in 32 bits. -/
def Question.Plain : Question → Prop
  | .parse text wl bl ni ns => '\x00' ∉ text ∧ (∀ l ∈ wl, ∀ t ∈ l, '\x00' ∉ t) ∧ (∀ l ∈ bl, ∀ t ∈ l, '\x00' ∉ t) ∧
      (0 ≤ ni ∧ ni < 2 ^ 32) ∧ 0 ≤ ns ∧ ns < 2 ^ 32
  | .getSlots text intent ns => '\x00' ∉ text ∧ '\x00' ∉ intent ∧ 0 ≤ ns ∧ ns < 2 ^ 32
  | .getIntents text => '\x00' ∉ text

/-- The native answer as a C structure to the question as it stands. -/
def Question.plainStruct (env : CEnv κ) (h : Handle) (c : CCirc) : Question → Outcome κ
  | .parse text wl bl ni ns =>
    h.answer c (h.engine.parseWithAlternatives c.order text wl bl ni.toNat ns.toNat) >>= env.cResult
  | .getSlots text intent ns => h.answer c (h.engine.getSlotsWithAlternatives c.order text intent ns.toNat) >>= env.cSlots
  | .getIntents text => h.answer c (h.engine.getIntents c.order text) >>= env.cIntents

/-- Nothing is live at addresses that have not been used. -/
structure HMem.Tidy (s : HMem κ) : Prop where
  c : s.c.Tidy
  pos : 0 < s.host
  fresh : ∀ a, s.host ≤ a → s.c.strings a = none ∧ s.c.arrays a = none ∧ s.c.bytes a = none ∧ s.c.vars a = none

/-- The engines are the same, up to what they have in their caches. -/
def SameEngines (s s' : CMem κ) : Prop :=
  ∀ a, (s.engines a = none → s'.engines a = none) ∧
    ∀ h, s.engines a = some h → ∃ h', s'.engines a = some h' ∧ h'.engine = h.engine ∧ h'.ext = h.ext ∧
      h'.poisoned = h.poisoned

/-- The memory holds what it held before: nothing has been released, and nothing that was allocated is left. -/
structure Kept (s s' : HMem κ) : Prop where
  strings : s'.c.strings = s.c.strings
  arrays : s'.c.arrays = s.c.arrays
  bytes : s'.c.bytes = s.c.bytes
  vars : s'.c.vars = s.c.vars
  objects : s'.c.objects = s.c.objects
  engines : SameEngines s.c s'.c

/-- One more object is live than before; of the rest, only the variables may be different. -/
structure Leaked (x : CObj κ) (s s' : HMem κ) : Prop where
  strings : s'.c.strings = s.c.strings
  arrays : s'.c.arrays = s.c.arrays
  bytes : s'.c.bytes = s.c.bytes
  objects : ∃ p, s.c.objects p = none ∧ s'.c.objects = fun a => if a = p then some x else s.c.objects a
  engines : SameEngines s.c s'.c

/-- One more variable than before, which points to the object `x`. -/
def VarLeaked (x : CObj κ) (s s' : HMem κ) : Prop :=
  ∃ v p, s.c.vars v = none ∧ (s'.c.vars = fun a => if a = v then some p else s.c.vars a) ∧ s'.c.objects p = some x

/-- There is a new engine `h` at `p`, and nothing else has changed. -/
structure Added (p : Addr) (h : Handle) (s s' : HMem κ) : Prop where
  strings : s'.c.strings = s.c.strings
  arrays : s'.c.arrays = s.c.arrays
  bytes : s'.c.bytes = s.c.bytes
  vars : s'.c.vars = s.c.vars
  objects : s'.c.objects = s.c.objects
  fresh : p ≠ 0 ∧ s.c.engines p = none
  engine : s'.c.engines p = some h
  others : ∀ a, a ≠ p → s'.c.engines a = s.c.engines a

/-- What the native library loads from a directory or from the bytes of an archive; the length of the archive is
taken modulo `2 ^ 32`. -/
def loadSource (env : CEnv κ) (c : CCirc) (src : Text ⊕ List Nat) (disk : Disk) : Outcome LoadedEngine :=
  match src with
  | .inl dir => (loadEngine env.load c.order (joinPath env.cwd (beforeNull dir)) disk.fs).1
  | .inr b => (fromZip env.load c.order c.fault c.left (env.readZip (b.take (b.length % 4294967296))) c.tmp disk).1

/-- An outcome of the library as it is seen in the host language: errors become exceptions. -/
def Outcome.hosted {α : Type} (raised : Err → HostError) : Outcome α → HEnd α
  | .ok a => .ok a
  | .err e => .throws (raised e)
  | .panic => .panic

/-- The same when answers are converted. -/
def Outcome.hostedBy {β τ : Type} (raised : Err → HostError) (conv : β → Except HostError τ) : Outcome β → HEnd τ
  | .ok x => match conv x with
    | .ok y => .ok y
    | .error e => .throws e
  | .err e => .throws (raised e)
  | .panic => .panic

/-- The conversion for the answer to a question. -/
def KtConv.of {τ : Type} (conv : KtConv κ τ) : Question → κ → Except HostError τ
  | .parse .. => conv.result
  | .getSlots .. => conv.slots
  | .getIntents _ => conv.intents

/-- No filter of the question is an empty list. -/
def Question.FiltersNotEmpty : Question → Prop
  | .parse _ wl bl _ _ => wl ≠ some [] ∧ bl ≠ some []
  | _ => True

/-- The numbers of the question fit in 32 bits. -/
def Question.NumbersFit : Question → Prop
  | .parse _ _ _ ni ns => (0 ≤ ni ∧ ni < 2 ^ 32) ∧ 0 ≤ ns ∧ ns < 2 ^ 32
  | .getSlots _ _ ns => 0 ≤ ns ∧ ns < 2 ^ 32
  | .getIntents _ => True

/-- The exception for an error of the library, in Python. -/
def pyRaised (msg : Err → List Nat) (e : Err) : HostError := if 0 ∈ msg e then .seeStderr else .library (msg e)

/-- The exception for an error of the library, in Kotlin. -/
def ktRaised (msg : Err → List Nat) (e : Err) : HostError := if 0 ∈ msg e then .nullPointer else .library (msg e)

/-- The engine is still there to be used, with the same contents up to caches, and unused addresses are free. -/
def StillUsable (engine : Addr) (h : Handle) (s' : HMem κ) : Prop :=
  s'.Tidy ∧ ∃ h', UsableEngine s'.c engine h' ∧ h'.engine = h.engine ∧ h'.ext = h.ext

/-- Programs in Python which use the engines they have made and not yet released: `PyRun env msg s0 s l` says that a
program started in `s0` can reach `s`, holding the engines `l`.  An exception may be caught; a panic may not. -/
inductive PyRun (env : CEnv κ) (msg : Err → List Nat) (s0 : HMem κ) : HMem κ → List Addr → Prop where
  | start (ht : s0.Tidy) (ho : ∀ a, s0.c.objects a = none) (he : ∀ a, s0.c.engines a = none) : PyRun env msg s0 s0 []
  | init {s s' : HMem κ} {l : List Addr} (h : PyRun env msg s0 s l) (c : CCirc) (dir : Option Text)
      (bytes : Option (List Nat)) {p : Addr} (hr : pyInit env msg c dir bytes s = (.ok p, s')) : PyRun env msg s0 s' (p :: l)
  | initThrows {s s' : HMem κ} {l : List Addr} (h : PyRun env msg s0 s l) (c : CCirc) (dir : Option Text)
      (bytes : Option (List Nat)) {e : HostError} (hr : pyInit env msg c dir bytes s = (.throws e, s')) : PyRun env msg s0 s' l
  | ask {s s' : HMem κ} {l : List Addr} (h : PyRun env msg s0 s l) (c : CCirc) {engine : Addr} (he : engine ∈ l)
      (q : Question) {b : List Nat} (hr : pyAsk env msg c engine q s = (.ok b, s')) : PyRun env msg s0 s' l
  | askThrows {s s' : HMem κ} {l : List Addr} (h : PyRun env msg s0 s l) (c : CCirc) {engine : Addr} (he : engine ∈ l)
      (q : Question) {e : HostError} (hr : pyAsk env msg c engine q s = (.throws e, s')) : PyRun env msg s0 s' l
  | del {s s' : HMem κ} {l : List Addr} (h : PyRun env msg s0 s l) (c : CCirc) {engine : Addr} (he : engine ∈ l)
      (hr : pyDel env c engine s = (.ok (), s')) : PyRun env msg s0 s' (l.erase engine)
  | disk {s : HMem κ} {l : List Addr} (h : PyRun env msg s0 s l) (d : Disk) :
      PyRun env msg s0 { s with c := { s.c with disk := d } } l

end Snips
