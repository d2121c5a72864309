import Verif.Spec.Trained

/-!
# Matching of trained patterns

A backtracking matcher for the patterns of trained models, with the preferences of crate `regex` (external): `\s*` takes as
much as it can.  It shows that engines as assumed by `LoadEnv.Compiles` exist.
-/

namespace Snips

/-- `\s*` followed by the rest of the pattern. -/
def matchSpaces {α : Type} (white : Char → Bool) (k : Text → Nat → Option α) : Text → Nat → Option α
  | [], pos => k [] pos
  | c :: t, pos =>
    if white c then
      match matchSpaces white k t (pos + 1) with
      | some a => some a
      | none => k (c :: t) pos
    else k (c :: t) pos

/-- Characters of the pattern, case-insensitively: what comes after them. -/
def matchText (same : Char → Char → Bool) : Text → Text → Option Text
  | [], t => some t
  | _ :: _, [] => none
  | c :: body, d :: t => if same c d then matchText same body t else none

/-- The rest of a pattern up to `$`: the groups. -/
def matchItems (cr : CharRules) : List PatItem → Text → Nat → Option (List (Text × Rng))
  | [], [], _ => some []
  | [], _ :: _, _ => none
  | .spaces :: items, t, pos => matchSpaces cr.white (matchItems cr items) t pos
  | .space :: _, [], _ => none
  | .space :: items, c :: t, pos => if cr.white c then matchItems cr items t (pos + 1) else none
  | .lit _ :: _, [], _ => none
  | .lit c :: items, d :: t, pos => if cr.same c d then matchItems cr items t (pos + 1) else none
  | .group name body :: items, t, pos =>
    match matchText cr.same body t with
    | none => none
    | some rest =>
      match matchItems cr items rest (pos + body.length) with
      | none => none
      | some gs => some ((name, ⟨pos, pos + body.length⟩) :: gs)

/-- The regular expression of a trained pattern
(`RegexBuilder::new(&p).case_insensitive(true).build()`, src/intent_parser/deterministic_intent_parser.rs:378). -/
def trainedRegex (cr : CharRules) (items : List PatItem) : Regex where
  isMatch t := (matchItems cr items t 0).isSome
  capturesIter t :=
    match matchItems cr items t 0 with
    | some gs => [some (byteRange t ⟨0, t.length⟩) :: gs.map fun g => some (byteRange t g.2)]
    | none => []
  captureNames := none :: (groupsOf items).map some

end Snips
