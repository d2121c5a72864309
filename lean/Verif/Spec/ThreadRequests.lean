import Verif.Spec.Extracting
import Verif.Model.Concurrent
import Verif.Model.EngineShared

/-! # The requests that threads sharing an engine make to the caching entity parsers -/

namespace Snips

/-- The request that a thread makes with its next step: a thread that holds a mutex is served, other steps make none. -/
def Thread.nextRequest {α : Type} (x : Ext) (time : Nat) (caches : Caches) : Thread α → List Access
  | .inBuiltin s kinds _ => (Prog.builtinCached s kinds fun _ => .ret ()).accesses x time caches
  | .inCustom s kinds n _ => (Prog.custom s kinds n fun _ => .ret ()).accesses x time caches
  | _ => []

/-- A state reached under some schedule, with the requests served so far, in order. -/
inductive Traced (x : Ext) {α : Type} (s0 : System α) : List Access → System α → Prop where
  | start : Traced x s0 [] s0
  | step {served : List Access} {pre post : List (Nat × Thread α)} {t : Nat} {th th' : Thread α} {sh sh' : Shared} :
      Traced x s0 served ⟨sh, pre ++ (t, th) :: post⟩ → ThreadStep x t th sh th' sh' →
      Traced x s0 (served ++ th.nextRequest x t sh.caches) ⟨sh', pre ++ (t, th') :: post⟩

/-- All calls have returned. -/
def System.Finished {α : Type} (s : System α) : Prop := ∀ p ∈ s.threads, ∃ o, p.2 = .done o

/-- What is asked and whether it is answered. -/
def Access.asked (a : Access) : (CacheKey Kind ⊕ CacheKey Text) × Bool := (a.key, a.answered)

/-- What a call asks when it is alone on a freshly loaded engine. -/
def Prog.askedAlone {α : Type} (x : Ext) (cap : Nat) (call : Nat × Prog α) : List ((CacheKey Kind ⊕ CacheKey Text) × Bool) :=
  (call.2.accesses x call.1 (Caches.empty cap)).map Access.asked

/-! ### With taggers and an advancing clock -/

/-- The request that a thread makes with its next step, at the time of the clock. -/
def EThread.nextRequest {α : Type} (x : Ext) (time : Nat) (caches : Caches) : EThread α → List Access
  | .inBuiltin s kinds _ => (Prog.builtinCached s kinds fun _ => .ret ()).accesses x time caches
  | .inCustom s kinds n _ => (Prog.custom s kinds n fun _ => .ret ()).accesses x time caches
  | _ => []

/-- A state reached under some schedule, the clock advancing at will, with the requests served so far, in order. -/
inductive ETraced (x : Ext) (libs : Nat → CrfLib) {α : Type} (s0 : ESystem α) : List Access → ESystem α → Prop where
  | start : ETraced x libs s0 [] s0
  | step {served : List Access} {pre post : List (Nat × EThread α)} {th th' : Nat × EThread α} {sh sh' : EShared} :
      ETraced x libs s0 served ⟨sh, pre ++ th :: post⟩ → EThreadStep x libs th sh th' sh' →
      ETraced x libs s0 (served ++ th.2.nextRequest x sh.now sh.shared.caches) ⟨sh', pre ++ th' :: post⟩
  | tick {served : List Access} {s : ESystem α} (d : Nat) : ETraced x libs s0 served s → ETraced x libs s0 served (s.later d)

end Snips
