import Verif.Model.Concurrent

/-! # Several threads calling the C interface on one engine

`CSnipsNluEngine` is an engine behind a mutex (ffi/src/lib.rs:18).  A call locks it (`get_nlu_engine!`,
ffi/src/lib.rs:20-27), works, and unlocks it when the guard is dropped, at the end of the function.  The work under
the guard is a `Prog`; it takes the steps it takes when the engine is shared natively (`ThreadStep`). -/

namespace Snips

/-- A thread calling the C interface: before `lock()`, under the guard, or back in C. -/
inductive CThread (α : Type) where
  | waiting (p : Prog α)
  | inside (th : Thread α)
  | done (o : Outcome α)

/-- Whether a call unwound. -/
def Outcome.panicked {α : Type} : Outcome α → Bool
  | .panic => true
  | _ => false

/-- An engine shared by the threads: what the native threads share, and the mutex of the engine. -/
structure CShared where
  shared : Shared
  held : Bool
  poisoned : Bool

/-- One step of a thread whose call was made at time `t`. -/
inductive CThreadStep (x : Ext) (t : Nat) {α : Type} : CThread α → CShared → CThread α → CShared → Prop where
  /-- `lock()` succeeds (ffi/src/lib.rs:22-24) -/
  | lock (p : Prog α) (sh : CShared) : sh.held = false → sh.poisoned = false →
      CThreadStep x t (.waiting p) sh (.inside (.running p)) { sh with held := true }
  /-- `lock()` fails on a poisoned mutex, which is an error (ffi/src/lib.rs:25) -/
  | lockPoisoned (p : Prog α) (sh : CShared) : sh.held = false → sh.poisoned = true →
      CThreadStep x t (.waiting p) sh (.done (.err (.external 241))) sh
  /-- work under the guard -/
  | work (th th' : Thread α) (sh : CShared) (sh' : Shared) : ThreadStep x t th sh.shared th' sh' →
      CThreadStep x t (.inside th) sh (.inside th') { sh with shared := sh' }
  /-- the guard is dropped; unwinding poisons the mutex -/
  | leave (o : Outcome α) (sh : CShared) :
      CThreadStep x t (.inside (.done o)) sh (.done o)
        { sh with held := false, poisoned := sh.poisoned || o.panicked }

/-- A state of the process. -/
structure CSystem (α : Type) where
  shared : CShared
  threads : List (Nat × CThread α)

/-- One step of the process: the scheduler picks any thread that can take a step. -/
inductive CSystemStep (x : Ext) {α : Type} : CSystem α → CSystem α → Prop where
  | step (pre post : List (Nat × CThread α)) (t : Nat) (th th' : CThread α) (sh sh' : CShared) :
      CThreadStep x t th sh th' sh' →
      CSystemStep x ⟨sh, pre ++ (t, th) :: post⟩ ⟨sh', pre ++ (t, th') :: post⟩

/-- States reachable under some schedule. -/
inductive CReachable (x : Ext) {α : Type} (s0 : CSystem α) : CSystem α → Prop where
  | refl : CReachable x s0 s0
  | step {s s' : CSystem α} : CReachable x s0 s → CSystemStep x s s' → CReachable x s0 s'

/-- Initial state: the given calls are all about to be made on an engine with the given caches. -/
def CSystem.start {α : Type} (c : Caches) (poisoned : Bool) (calls : List (Nat × Prog α)) : CSystem α :=
  ⟨⟨⟨c, false, false⟩, false, poisoned⟩, calls.map fun p => (p.1, .waiting p.2)⟩

end Snips
