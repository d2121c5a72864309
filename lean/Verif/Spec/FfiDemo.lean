import Verif.Spec.Ffi
import Verif.Spec.LoadingDemo

/-! A concrete process that uses the C interface, used to show that hypotheses are satisfiable. -/

namespace Snips

/-- Results are converted to the name of the intent. -/
def demoCEnv : CEnv (Option Text) where
  load := demoLoadEnv
  utf8 b := if b.all (fun n => n < 128) then .ok (b.map Char.ofNat) else .err (.external 243)
  readZip _ := .err (.external 244)
  cwd := []
  cResult r := .ok r.intent.name
  cSlots _ := .ok none
  cIntents l := .ok (l.head?.bind IntentResult.name)
  jsonResult _ := .ok [123, 125]
  jsonSlots _ := .ok [91, 93]
  jsonIntents _ := .ok [91, 93]

/-- Nothing goes wrong. -/
def demoCirc : CCirc := ⟨7, HashOrd.insertion, fun _ => none, ["tmp".toList], fun _ => none⟩

/-- The process has the string `/m` at 1, `halt` at 2, a string that is not UTF-8 at 3, `stop` at 5, an array with `halt` at 4,
and variables at 1 and 2. -/
def demoCMem : CMem (Option Text) where
  strings a := if a = 1 then some [47, 109] else if a = 2 then some [104, 97, 108, 116] else if a = 3 then some [200]
    else if a = 5 then some [115, 116, 111, 112] else none
  arrays a := if a = 4 then some [2] else none
  bytes _ := none
  vars a := if a = 1 ∨ a = 2 then some 0 else none
  engines _ := none
  objects _ := none
  lastError := none
  next := 1
  disk := ⟨demoEngineFs 1, 0⟩

theorem demoCMem_session : Session demoCEnv demoCMem := .start _ (by decide) (fun _ => rfl) (fun _ => rfl)

/-- After the engine in `/m` has been created. -/
def demoCMem1 : CMem (Option Text) := ((CCall.createFromDir 1 1).run demoCEnv demoCirc demoCMem).2

theorem demoCMem1_session : Session demoCEnv demoCMem1 :=
  .call demoCMem_session demoCirc _ ⟨.inr (by decide), by unfold ResultArg; decide⟩

end Snips
