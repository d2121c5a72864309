import Verif.Model.Utils

/-! Vocabulary for statements about replacing parts of a text by placeholders. -/

namespace Snips

/-- A piece of a text: either left as it is, or an entity match (text and entity name). -/
inductive Seg where
  | plain (t : Text)
  | ent (t : Text) (name : Text)

/-- The original characters of a piece. -/
def Seg.orig : Seg → Text
  | .plain t => t
  | .ent t _ => t

/-- The characters of a piece after replacing entity matches by their placeholder. -/
def Seg.repl (placeholder : Text → Text) : Seg → Text
  | .plain t => t
  | .ent _ name => placeholder name

/-- The original text made of the pieces. -/
def origText (segs : List Seg) : Text := (segs.map Seg.orig).flatten

/-- The text with every entity match replaced by its placeholder. -/
def replText (placeholder : Text → Text) (segs : List Seg) : Text :=
  (segs.map (Seg.repl placeholder)).flatten

/-- An entity match, with its range in the original and in the replaced text. -/
structure Occ where
  orig : Rng
  repl : Rng
  name : Text

/-- The entity matches of a list of pieces starting at positions `o` (original) and `n` (replaced). -/
def occs (placeholder : Text → Text) : Nat → Nat → List Seg → List Occ
  | _, _, [] => []
  | o, n, .plain t :: segs => occs placeholder (o + t.length) (n + t.length) segs
  | o, n, .ent t name :: segs =>
    ⟨⟨o, o + t.length⟩, ⟨n, n + (placeholder name).length⟩, name⟩ ::
      occs placeholder (o + t.length) (n + (placeholder name).length) segs

/-- A position as a 16-bit signed integer, taken as an unsigned 64-bit number: itself below 2^15. -/
def pos16 (n : Nat) : Nat := asUsize (wrapI16 n)

/-- A range of which both ends went through 16-bit signed integers. -/
def Rng.as16 (r : Rng) : Rng := ⟨pos16 r.start, pos16 r.stop⟩

/-- However the text is cut into plain pieces and the kept matches (C16), the placeholders end before
position `bound` of the new text. -/
def PlaceholdersEndBefore (bound : Nat) (placeholder : Text → Text) (text : Text) (ms : List MatchedEntity) : Prop :=
  ∀ segs, origText segs = text →
    (occs placeholder 0 0 segs).map (fun o => (⟨o.orig, o.name⟩ : MatchedEntity)) = dedupEntities ms →
    ∀ c ∈ occs placeholder 0 0 segs, c.repl.stop < bound

end Snips
