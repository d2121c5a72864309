import Verif.Model.SlotFiller
import Verif.Spec.Ranges

/-! Vocabulary for statements about features. -/

namespace Snips

/-- Value of a feature at a position, in a given world of entity extractors. -/
def Feature.valueAt (fns : TextFns) (w : World) (toks : List Token) (f : Feature) (i : Nat) :
    Outcome (Option Text) := (f.compute fns toks i).run w

/-- `name` for the token itself, `name[+o]` / `name[-o]` for a neighbour. -/
def featureKey (name : Text) (offset : Int) : Text :=
  if offset = 0 then name
  else name ++ ['['] ++ (if offset < 0 then ['-'] else ['+']) ++ (Nat.repr offset.natAbs).toList ++ [']']

/-- Two ranges share a position. -/
def Rng.Meets (a b : Rng) : Prop := ∃ k, a.Has k ∧ b.Has k

/-- Tokens in text order, each spanning as many characters as it has. -/
structure Laid (toks : List Token) : Prop where
  size : ∀ tok ∈ toks, tok.charRange.stop = tok.charRange.start + tok.value.length
  ordered : toks.Pairwise (fun a b => a.charRange.stop ≤ b.charRange.start)

end Snips
