import Verif.Model.FfiConcurrent

/-! Vocabulary for statements about threads that call the C interface. -/

namespace Snips

/-- One call on an engine with the given caches and mutex, with no other thread around: refused if the mutex is
poisoned, else answered by the engine; a panic poisons the mutex. -/
def callAlone {α : Type} (x : Ext) (call : Nat × Prog α) (c : Caches × Bool) : Outcome α × (Caches × Bool) :=
  if c.2 then (.err (.external 241), c)
  else
    let r := call.2.runCached x call.1 c.1
    (r.1, r.2, r.1.panicked)

/-- Calls one after the other. -/
def callsAlone {α : Type} (x : Ext) : List (Nat × Prog α) → Caches × Bool → List (Outcome α) × (Caches × Bool)
  | [], c => ([], c)
  | call :: calls, c =>
    let r := callAlone x call c
    let rest := callsAlone x calls r.2
    (r.1 :: rest.1, rest.2)

end Snips
