import Verif.Spec.Bindings
import Verif.Spec.FfiDemo

/-! A concrete process that uses a wrapper, used to show that hypotheses are satisfiable. -/

namespace Snips

/-- The environment of `demoCEnv`, with the decoding of UTF-8 of the library. -/
def demoHEnv : CEnv (Option Text) := { demoCEnv with utf8 := utf8OrErr }

/-- Errors have a message without null byte. -/
def demoMsg (_ : Err) : List Nat := [111, 111, 112, 115]

/-- A process that starts, with an engine in the directory `/m` of its disk. -/
def demoHMem : HMem (Option Text) where
  c := { demoCMem with strings := fun _ => none, arrays := fun _ => none, vars := fun _ => none }
  host := 1

/-- After the engine in `/m` has been made, in Python. -/
def demoHMem1 : HMem (Option Text) := (pyInit demoHEnv demoMsg demoCirc (some ['/', 'm']) none demoHMem).2

end Snips
