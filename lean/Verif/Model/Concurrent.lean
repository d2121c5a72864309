import Verif.Model.EntityParser

/-!
# Several threads using one engine

`SnipsNluEngine` is shared between threads (`Send + Sync` parsers); the only shared mutable state are
the two mutex-protected caches.  A thread runs one call (a `Prog`).  A cached extraction takes two
steps, acquiring the mutex and then, holding it, running `try_cache` and releasing it
(builtin_entity_parser.rs:55-65, custom_entity_parser.rs:82-92); everything else is local to the
thread.  Uncached builtin extraction takes no lock (builtin_entity_parser.rs:40-47).
Simplification: the clock seen by one call does not advance during that call.
-/

namespace Snips

/-- A thread: still running some code, waiting nothing and holding nothing; holding the builtin or the
custom cache mutex for the extraction at the head of its code; or finished. -/
inductive Thread (α : Type) where
  | running (p : Prog α)
  | inBuiltin (s : Text) (kinds : Option (List Kind)) (k : List KindMatch → Prog α)
  | inCustom (s : Text) (kinds : Option (List Text)) (n : Nat) (k : List CustomEntity → Prog α)
  | done (o : Outcome α)

/-- Shared state of a running system: the caches, and for each mutex whether it is held. -/
structure Shared where
  caches : Caches
  builtinHeld : Bool
  customHeld : Bool

/-- What a thread does with the outcome of an extraction: `?` on errors, unwinding on panics. -/
def Thread.resume {α β : Type} (r : Outcome β) (k : β → Prog α) : Thread α :=
  match r with
  | .ok v => .running (k v)
  | .err e => .done (.err e)
  | .panic => .done .panic

/-- One step of a thread whose call was made at time `t`. -/
inductive ThreadStep (x : Ext) (t : Nat) {α : Type} :
    Thread α → Shared → Thread α → Shared → Prop where
  /-- the call returns -/
  | ret (a : α) (sh : Shared) : ThreadStep x t (.running (.ret a)) sh (.done (.ok a)) sh
  | fail (e : Err) (sh : Shared) : ThreadStep x t (.running (.fail e)) sh (.done (.err e)) sh
  | panic (sh : Shared) : ThreadStep x t (.running .panic) sh (.done .panic) sh
  /-- uncached builtin extraction -/
  | fresh (s kinds n k) (sh : Shared) :
      ThreadStep x t (.running (.builtinFresh s kinds n k)) sh
        (Thread.resume (x.builtinRaw t (x.lower s) kinds n) k) sh
  /-- `lock()` succeeds on the free builtin mutex -/
  | lockBuiltin (s kinds k) (sh : Shared) : sh.builtinHeld = false →
      sh.caches.builtin.poisoned = false →
      ThreadStep x t (.running (.builtinCached s kinds k)) sh (.inBuiltin s kinds k)
        { sh with builtinHeld := true }
  /-- `lock().unwrap()` panics on a poisoned mutex -/
  | lockBuiltinPoisoned (s kinds k) (sh : Shared) : sh.builtinHeld = false →
      sh.caches.builtin.poisoned = true →
      ThreadStep x t (.running (.builtinCached s kinds k)) sh (.done .panic) sh
  /-- `try_cache` under the builtin mutex, which is then released -/
  | serveBuiltin (s kinds k) (sh : Shared) :
      ThreadStep x t (.inBuiltin s kinds k) sh
        (Thread.resume (x.builtinCachedAccess t s kinds 0 sh.caches).1
          (fun es => k (es.map BuiltinEntity.kindMatch)))
        { sh with caches := (x.builtinCachedAccess t s kinds 0 sh.caches).2, builtinHeld := false }
  | lockCustom (s kinds n k) (sh : Shared) : sh.customHeld = false →
      sh.caches.custom.poisoned = false →
      ThreadStep x t (.running (.custom s kinds n k)) sh (.inCustom s kinds n k)
        { sh with customHeld := true }
  | lockCustomPoisoned (s kinds n k) (sh : Shared) : sh.customHeld = false →
      sh.caches.custom.poisoned = true →
      ThreadStep x t (.running (.custom s kinds n k)) sh (.done .panic) sh
  | serveCustom (s kinds n k) (sh : Shared) :
      ThreadStep x t (.inCustom s kinds n k) sh
        (Thread.resume (x.customCachedAccess s kinds n sh.caches).1 k)
        { sh with caches := (x.customCachedAccess s kinds n sh.caches).2, customHeld := false }

/-- A system state: the shared state and the threads, each with the time of its call. -/
structure System (α : Type) where
  shared : Shared
  threads : List (Nat × Thread α)

/-- One step of the system: the scheduler picks any thread that can take a step. -/
inductive SystemStep (x : Ext) {α : Type} : System α → System α → Prop where
  | step (pre post : List (Nat × Thread α)) (t : Nat) (th th' : Thread α) (sh sh' : Shared) :
      ThreadStep x t th sh th' sh' →
      SystemStep x ⟨sh, pre ++ (t, th) :: post⟩ ⟨sh', pre ++ (t, th') :: post⟩

/-- States reachable under some schedule. -/
inductive Reachable (x : Ext) {α : Type} (s0 : System α) : System α → Prop where
  | refl : Reachable x s0 s0
  | step {s s' : System α} : Reachable x s0 s → SystemStep x s s' → Reachable x s0 s'

/-- Initial state: the given calls are all about to start on an engine with the given caches. -/
def System.start {α : Type} (c : Caches) (calls : List (Nat × Prog α)) : System α :=
  ⟨⟨c, false, false⟩, calls.map (fun p => (p.1, .running p.2))⟩

end Snips
