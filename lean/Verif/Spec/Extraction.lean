import Verif.Model.Concurrent

/-! Assumptions on the external extractors, used as hypotheses. -/

namespace Snips

/-- Apply a function to the value of a successful outcome. -/
def Outcome.map {α β : Type} (f : α → β) : Outcome α → Outcome β
  | .ok a => .ok (f a)
  | .err e => .err e
  | .panic => .panic

/-- The ranges and kinds of builtin matches (and whether extraction succeeds) do not depend on the time
of the call; resolved values may. -/
def Ext.TimeStable (x : Ext) : Prop :=
  ∀ (t t' : Nat) (s : Text) (kinds : Option (List Kind)) (n : Nat),
    (x.builtinRaw t s kinds n).map (List.map BuiltinEntity.kindMatch)
      = (x.builtinRaw t' s kinds n).map (List.map BuiltinEntity.kindMatch)

/-- No extraction panics. -/
def Ext.NoPanic (x : Ext) : Prop :=
  (∀ t s kinds n, x.builtinRaw t s kinds n ≠ .panic) ∧ (∀ s kinds n, x.customExtract s kinds n ≠ .panic)

end Snips
