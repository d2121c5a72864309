import Verif.Model.Crf
import Verif.Spec.Tokens

/-! Vocabulary for statements about tag sequences. -/

namespace Snips

/-- A piece of a segmentation of the tokens: a token outside of all slots, or a slot called `name` over
`more + 1` consecutive tokens. -/
inductive TagSeg where
  | out
  | slot (name : Text) (more : Nat)

/-- Number of tokens of a piece. -/
def TagSeg.len : TagSeg → Nat
  | .out => 1
  | .slot _ more => more + 1

/-- The tags of a piece in a tagging scheme: outside tokens are `O`; IO tags every token of a slot
`I-name`; BIO distinguishes the first (`B-`); BILOU distinguishes the first (`B-`), the last (`L-`) and
single token slots (`U-`). -/
def TagSeg.tags : Scheme → TagSeg → List Text
  | _, .out => [['O']]
  | .io, .slot n m => List.replicate (m + 1) ('I' :: '-' :: n)
  | .bio, .slot n m => ('B' :: '-' :: n) :: List.replicate m ('I' :: '-' :: n)
  | .bilou, .slot n 0 => ['U' :: '-' :: n]
  | .bilou, .slot n (m + 1) =>
    ('B' :: '-' :: n) :: List.replicate m ('I' :: '-' :: n) ++ ['L' :: '-' :: n]

/-- The tags of a segmentation. -/
def encodeTags (sch : Scheme) (segs : List TagSeg) : List Text := segs.flatMap (TagSeg.tags sch)

/-- A slot as a span of tokens: its name, the index of its first and of its last token. -/
structure Span where
  name : Text
  first : Nat
  last : Nat
deriving DecidableEq, Repr

/-- The slots of a segmentation whose first token has index `i`. -/
def segSpans : Nat → List TagSeg → List Span
  | _, [] => []
  | i, .out :: segs => segSpans (i + 1) segs
  | i, .slot n m :: segs => ⟨n, i, i + m⟩ :: segSpans (i + m + 1) segs

/-- No two slots follow each other immediately. -/
def NoAdjacentSlots : List TagSeg → Prop
  | .slot _ _ :: .slot n m :: segs => False ∧ NoAdjacentSlots (.slot n m :: segs)
  | _ :: segs => NoAdjacentSlots segs
  | [] => True

/-- The decoded slot is the given token span: it runs from the start of the first to the end of the last
token, in bytes and in characters. -/
def IsSpan (tokens : List Token) (s : Span) (r : SlotRange) : Prop :=
  r.slotName = s.name ∧ ∃ a b, tokens[s.first]? = some a ∧ tokens[s.last]? = some b ∧
    r.range = ⟨a.range.start, b.range.stop⟩ ∧ r.charRange = ⟨a.charRange.start, b.charRange.stop⟩

/-- A tag of the BIO alphabet. -/
def BioTag (t : Text) : Prop := t = ['O'] ∨ (∃ n, t = 'B' :: '-' :: n) ∨ (∃ n, t = 'I' :: '-' :: n)

/-- Spans are non-empty, within `n` tokens, increasing and pairwise disjoint, cover exactly the tokens
not tagged as outside, and each is named by its last tag (without the two characters of its prefix). -/
structure WellFormedSpans (tags : List Text) (spans : List Span) : Prop where
  nonempty : ∀ s ∈ spans, s.first ≤ s.last ∧ s.last < tags.length
  ordered : spans.Pairwise (fun a b => a.last < b.first)
  cover : ∀ i t, tags[i]? = some t → (t ≠ ['O'] ↔ ∃ s ∈ spans, s.first ≤ i ∧ i ≤ s.last)
  named : ∀ s ∈ spans, ∃ t, tags[s.last]? = some t ∧ s.name = t.drop 2

/-- Byte offset `b` is the boundary before character number `n` of the text. -/
def AtByte (text : Text) (n b : Nat) : Prop :=
  n ≤ text.length ∧ ((text.take n).map Char.utf8Size).sum = b

/-- The byte ranges of the tokens denote the same places as their character ranges. -/
def BytesAgree (text : Text) (toks : List Token) : Prop :=
  ∀ tok ∈ toks, AtByte text tok.charRange.start tok.range.start ∧
    AtByte text tok.charRange.stop tok.range.stop

end Snips
