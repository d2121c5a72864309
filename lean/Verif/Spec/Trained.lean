import Verif.Spec.SlotOrigin
import Verif.Model.Loading

/-! The patterns found in trained models, and which sentences follow them.

Trained patterns (data/tests/models/*/deterministic_intent_parser/intent_parser.json and the tests of
src/intent_parser/deterministic_intent_parser.rs) are all of the form `^...$`, made of `\s*`, `\s`, characters (escaped if
they mean something else in a regular expression) and groups `(?P<name>characters)`. -/

namespace Snips

/-- A piece of a trained pattern: `\s*`, `\s`, a character, a named group around characters. -/
inductive PatItem where
  | spaces
  | space
  | lit (c : Char)
  | group (name body : Text)
deriving DecidableEq, Repr

/-- Characters written with a backslash before them in a regular expression. -/
def metaChars : List Char := "\\.+*?()|[]{}^$#&-~".toList

/-- A text in which the characters with a meaning in regular expressions are escaped. -/
def escaped (t : Text) : Text := t.flatMap fun c => if c ∈ metaChars then ['\\', c] else [c]

/-- How a piece is written. -/
def PatItem.text : PatItem → Text
  | .spaces => ['\\', 's', '*']
  | .space => ['\\', 's']
  | .lit c => escaped [c]
  | .group name body => "(?P<".toList ++ name ++ ['>'] ++ escaped body ++ [')']

/-- The pattern as it stands in the model file. -/
def patternText (items : List PatItem) : Text := ['^'] ++ items.flatMap PatItem.text ++ ['$']

/-- The names of the groups of a pattern. -/
def groupsOf (items : List PatItem) : List Text :=
  items.filterMap fun i => match i with
    | .group name _ => some name
    | _ => none

/-- Names of groups are made of letters, digits and underscores and are distinct. -/
def WellNamed (items : List PatItem) : Prop :=
  (groupsOf items).Nodup ∧ ∀ n ∈ groupsOf items, n ≠ [] ∧ ∀ c ∈ n, c.isAlphanum = true ∨ c = '_'

/-- What the regular expression engine knows about characters: which ones are white space (`\s`), and which characters
of a text match a character of a pattern when case does not matter. -/
structure CharRules where
  white : Char → Bool
  same : Char → Char → Bool

/-- The text has the characters of the pattern, up to case. -/
def CharRules.SameText (cr : CharRules) (pattern text : Text) : Prop :=
  List.Forall₂ (fun c d => cr.same c d = true) pattern text

/-- The text, which starts at position `pos`, follows the pattern from beginning to end, the groups being at the given
ranges. -/
inductive Follows (cr : CharRules) : List PatItem → Text → Nat → List (Text × Rng) → Prop
  | nil (pos : Nat) : Follows cr [] [] pos []
  | spaces {items : List PatItem} {gap t : Text} {pos : Nat} {gs : List (Text × Rng)}
      (h : ∀ c ∈ gap, cr.white c = true) (rest : Follows cr items t (pos + gap.length) gs) :
      Follows cr (.spaces :: items) (gap ++ t) pos gs
  | space {items : List PatItem} {c : Char} {t : Text} {pos : Nat} {gs : List (Text × Rng)}
      (h : cr.white c = true) (rest : Follows cr items t (pos + 1) gs) :
      Follows cr (.space :: items) (c :: t) pos gs
  | lit {items : List PatItem} {c d : Char} {t : Text} {pos : Nat} {gs : List (Text × Rng)}
      (h : cr.same c d = true) (rest : Follows cr items t (pos + 1) gs) :
      Follows cr (.lit c :: items) (d :: t) pos gs
  | group {items : List PatItem} {name body b t : Text} {pos : Nat} {gs : List (Text × Rng)}
      (h : cr.SameText body b) (rest : Follows cr items t (pos + b.length) gs) :
      Follows cr (.group name body :: items) (b ++ t) pos ((name, ⟨pos, pos + b.length⟩) :: gs)

/-- The bytes of a range of characters. -/
def byteRange (t : Text) (r : Rng) : Rng :=
  ⟨((t.take r.start).map Char.utf8Size).sum, ((t.take r.stop).map Char.utf8Size).sum⟩

/-- The regular expression does what the pattern says: it matches exactly the texts that follow the pattern, and reports
the groups where they are. -/
structure Regex.Implements (cr : CharRules) (r : Regex) (items : List PatItem) : Prop where
  names : r.captureNames = none :: (groupsOf items).map some
  sound : ∀ t, r.isMatch t = true ↔ ∃ gs, Follows cr items t 0 gs
  captures : ∀ t caps, caps ∈ r.capturesIter t → ∃ gs, Follows cr items t 0 gs ∧
    caps = some (byteRange t ⟨0, t.length⟩) :: gs.map fun g => some (byteRange t g.2)
  reports : ∀ t, r.isMatch t = true → r.capturesIter t ≠ []

/-- The regular expression engine (external) compiles trained patterns to what they say. -/
def LoadEnv.Compiles (env : LoadEnv) (cr : CharRules) : Prop :=
  ∀ items, WellNamed items → ∃ r, env.regex (patternText items) = .ok r ∧ r.Implements cr items

/-- Characters and groups of the pattern are solid: not white space, and not matched by white space; groups are not
empty. -/
structure Solid (cr : CharRules) (items : List PatItem) : Prop where
  lit : ∀ c, .lit c ∈ items → ∀ d, cr.same c d = true → cr.white d = false
  group : ∀ name body, .group name body ∈ items → body ≠ [] ∧ ∀ c ∈ body, ∀ d, cr.same c d = true → cr.white d = false

/-- The user's sentence, cut into pieces, says what the pattern says, `shown` being the sentence with the entities replaced
by placeholders and the stop words blanked: white space (or stop words) where the pattern has `\s*`, the characters of the
pattern, and entities where the pattern has groups for their placeholders.  The groups are given with the ranges of the
entities in the user's sentence, which starts at position `o`. -/
inductive Says (cr : CharRules) (placeholder : Text → Text) :
    List PatItem → List Seg → Text → Nat → List (Text × Rng) → Prop
  | nil (o : Nat) : Says cr placeholder [] [] [] o []
  | spaces {items : List PatItem} {segs : List Seg} {typed gap t : Text} {o : Nat} {gs : List (Text × Rng)}
      (hl : typed.length = gap.length) (h : ∀ c ∈ gap, cr.white c = true)
      (rest : Says cr placeholder items segs t (o + typed.length) gs) :
      Says cr placeholder (.spaces :: items) (.plain typed :: segs) (gap ++ t) o gs
  | space {items : List PatItem} {segs : List Seg} {typed c : Char} {t : Text} {o : Nat} {gs : List (Text × Rng)}
      (h : cr.white c = true) (rest : Says cr placeholder items segs t (o + 1) gs) :
      Says cr placeholder (.space :: items) (.plain [typed] :: segs) (c :: t) o gs
  | lit {items : List PatItem} {segs : List Seg} {c typed d : Char} {t : Text} {o : Nat} {gs : List (Text × Rng)}
      (h : cr.same c d = true) (rest : Says cr placeholder items segs t (o + 1) gs) :
      Says cr placeholder (.lit c :: items) (.plain [typed] :: segs) (d :: t) o gs
  | group {items : List PatItem} {segs : List Seg} {name body typed entity b t : Text} {o : Nat}
      {gs : List (Text × Rng)} (hl : b.length = (placeholder entity).length) (h : cr.SameText body b)
      (rest : Says cr placeholder items segs t (o + typed.length) gs) :
      Says cr placeholder (.group name body :: items) (.ent typed entity :: segs) (b ++ t) o
        ((name, ⟨o, o + typed.length⟩) :: gs)

end Snips
