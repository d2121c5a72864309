import Verif.Spec.Bindings
import Verif.Spec.Layout
import Verif.Spec.ResultJson

/-! Programs in Python and the files their engines were made from. -/

namespace Snips

variable {κ : Type}

/-- How an engine was made: its address, the arguments of `NLUEngine(engine_dir, engine_bytes)`, and the circumstances
and the disk at that time. -/
structure PyMade where
  address : Addr
  dir : Option Text
  bytes : Option (List Nat)
  circ : CCirc
  disk : Disk

/-- Programs in Python which use the engines they have made and not yet released: `PyHistory env msg s0 s l` says that a
program started in `s0` can reach `s`, holding the engines `l`.  Exceptions may be caught; between two steps the disk may
change. -/
inductive PyHistory (env : CEnv κ) (msg : Err → List Nat) (s0 : HMem κ) : HMem κ → List PyMade → Prop where
  | start (ht : s0.Tidy) (ho : ∀ a, s0.c.objects a = none) (he : ∀ a, s0.c.engines a = none) : PyHistory env msg s0 s0 []
  | init {s s' : HMem κ} {l : List PyMade} (h : PyHistory env msg s0 s l) (c : CCirc) (dir : Option Text)
      (bytes : Option (List Nat)) {p : Addr} (hr : pyInit env msg c dir bytes s = (.ok p, s')) :
      PyHistory env msg s0 s' (⟨p, dir, bytes, c, s.c.disk⟩ :: l)
  | initThrows {s s' : HMem κ} {l : List PyMade} (h : PyHistory env msg s0 s l) (c : CCirc) (dir : Option Text)
      (bytes : Option (List Nat)) {e : HostError} (hr : pyInit env msg c dir bytes s = (.throws e, s')) :
      PyHistory env msg s0 s' l
  | ask {s s' : HMem κ} {l : List PyMade} (h : PyHistory env msg s0 s l) (c : CCirc) {m : PyMade} (hm : m ∈ l)
      (q : Question) {b : List Nat} (hr : pyAsk env msg c m.address q s = (.ok b, s')) : PyHistory env msg s0 s' l
  | askThrows {s s' : HMem κ} {l : List PyMade} (h : PyHistory env msg s0 s l) (c : CCirc) {m : PyMade} (hm : m ∈ l)
      (q : Question) {e : HostError} (hr : pyAsk env msg c m.address q s = (.throws e, s')) : PyHistory env msg s0 s' l
  | del {s s' : HMem κ} {l : List PyMade} (h : PyHistory env msg s0 s l) (c : CCirc) {m : PyMade} (hm : m ∈ l)
      (hr : pyDel env c m.address s = (.ok (), s')) : PyHistory env msg s0 s' (l.filter fun x => x.address ≠ m.address)
  | disk {s : HMem κ} {l : List PyMade} (h : PyHistory env msg s0 s l) (d : Disk) :
      PyHistory env msg s0 { s with c := { s.c with disk := d } } l

/-- The engine described by what it was made from: by the files of the directory, or loaded from the archive, whose
length is below `2 ^ 32`. -/
def PyMade.Describes (env : CEnv κ) (m : PyMade) (e : LoadedEngine) : Prop :=
  match m.dir, m.bytes with
  | some dir, _ => EngineAt env.load m.circ.order m.disk.fs (joinPath env.cwd dir) e
  | none, some b => (fromZip env.load m.circ.order m.circ.fault m.circ.left (env.readZip b) m.circ.tmp m.disk).1 = .ok e
  | none, none => False

/-- The arguments: the directory has no null character, the archive is not too long. -/
def PyMade.Plain (m : PyMade) : Prop :=
  (∀ dir ∈ m.dir, '\x00' ∉ dir) ∧ ∀ b ∈ m.bytes, b.length < 2 ^ 32

/-- What the native engine answers at a time. -/
def LoadedEngine.answers (names : KindNames) (e : LoadedEngine) (time : Nat) {α : Type} (f : Engine → Prog α) : Outcome α :=
  (f (e.engine names)).run (e.ext.world time)

/-- What Python is told about an outcome of the library: the JSON of an answer is a text that denotes a document which
shows the answer; an error is raised; a panic is a panic. -/
structure Told {α : Type} (w : Shown.Writing) (msg : Err → List Nat) (shows' : Json → α → Prop) (o : Outcome α)
    (r : HEnd (List Nat)) : Prop where
  answer : ∀ a, o = .ok a → ∃ b, r = .ok b ∧ ReadAs w.f64 b (shows' · a)
  error : ∀ e, o = .err e → r = .throws (pyRaised msg e)
  panic : o = .panic → r = .panic

/-- The questions of a Python program to the engine at an address are answered by the given engine, at any time, whatever
order hash maps have, if texts have no null character, numbers fit in 32 bits, and the numbers of the answer can be
written. -/
structure PyTells (w : Shown.Writing) (meaning : Nat → OValue) (env : CEnv κ) (msg : Err → List Nat) (s : HMem κ)
    (address : Addr) (e : LoadedEngine) : Prop where
  parse : ∀ (c : CCirc) (text : Text) (wl bl : Option (List Text)) (ni ns : Nat), '\x00' ∉ text →
    (∀ l ∈ wl, ∀ t ∈ l, '\x00' ∉ t) → (∀ l ∈ bl, ∀ t ∈ l, '\x00' ∉ t) → ni < 2 ^ 32 → ns < 2 ^ 32 →
    ∀ a, e.answers env.load.names c.time (·.parseWithAlternatives c.order text wl bl ni ns) = a →
    (∀ r, a = .ok r → w.WritesResult meaning r) →
    Told w msg (Shown.Result w.rd meaning) a (pyAsk env msg c address (.parse text wl bl ni ns) s).1
  getSlots : ∀ (c : CCirc) (text intent : Text) (ns : Nat), '\x00' ∉ text → '\x00' ∉ intent → ns < 2 ^ 32 →
    ∀ a, e.answers env.load.names c.time (·.getSlotsWithAlternatives c.order text intent ns) = a →
    (∀ l, a = .ok l → ∀ x ∈ l, w.WritesSlot meaning x) →
    Told w msg (fun j l => ∃ js, j = .arr js ∧ List.Forall₂ (Shown.Slot' w.rd meaning) js l) a
      (pyAsk env msg c address (.getSlots text intent ns) s).1
  getIntents : ∀ (c : CCirc) (text : Text), '\x00' ∉ text →
    ∀ a, e.answers env.load.names c.time (·.getIntents c.order text) = a → (∀ l, a = .ok l → ∀ x ∈ l, w.Writes32 x.score) →
    Told w msg (fun j l => ∃ js, j = .arr js ∧ List.Forall₂ (Shown.Intent w.rd) js l) a
      (pyAsk env msg c address (.getIntents text) s).1

end Snips
