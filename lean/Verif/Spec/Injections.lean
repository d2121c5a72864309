import Verif.Spec.InjectedEngine

/-! Vocabulary for statements about several injections. -/

namespace Snips

variable {π : Type}

/-- The injections of the list succeed one after the other, the last one leaving `fs'`. -/
def InTurn (env : InjectEnv π) (o : HashOrd) : List (Injector × Interrupts) → Fs → Fs → Prop
  | [], fs, fs' => fs' = fs
  | i :: rest, fs, fs' => ∃ fs1, i.1.inject env o i.2 fs = (.ok (), fs1) ∧ InTurn env o rest fs1 fs'

/-- The parser of an entity after several injections, each with its stemmer. -/
def AfterInjections (env : InjectEnv π) (d : EngineDesc) (mine : Text → Prop) :
    List (Injector × Option (Text → Text)) → Text × π → Text × π → Prop
  | [], before, after => after = before
  | i :: rest, before, after =>
    ∃ between, AfterInjection env d i.2 i.1 mine before between ∧ AfterInjections env d mine rest between after

/-- The request `k` asks for what `i` and `j` ask for together, under the same conditions. -/
structure Together (i j k : Injector) : Prop where
  dir : i.dir = k.dir ∧ j.dir = k.dir
  vanilla : i.fromVanilla = k.fromVanilla ∧ j.fromVanilla = k.fromVanilla
  stemmer : i.sharedStemmer = k.sharedStemmer ∧ j.sharedStemmer = k.sharedStemmer
  values : k.entityValues.Perm (i.entityValues ++ j.entityValues)

end Snips
