import Verif.Spec.PatternStopWords
import Verif.Spec.ParserList

/-! A query into which stop words are inserted, and the whole engine. -/

namespace Snips

/-- The extractors find in the longer query what they find in the shorter one, with the same values at the same places, and
nothing that goes across the gap; whatever they are asked for. -/
structure World.SameFindings (w : World) (x : Spot) (words : Text) : Prop where
  builtin : ∀ kinds n bs, w.builtin x.short (some kinds) n = .ok bs →
    (∀ b ∈ bs, x.Beside b.range) ∧
    w.builtin (x.long words) (some kinds) n = .ok (bs.map fun b => { b with range := x.moved words b.range })
  custom : ∀ names n cs, w.custom x.short (some names) n = .ok cs →
    (∀ c ∈ cs, x.Beside c.range) ∧
    w.custom (x.long words) (some names) n = .ok (cs.map fun c => { c with range := x.moved words c.range })

/-- The parser reads in the longer query what it reads in the shorter one. -/
def ParserImpl.ReadsThrough (p : ParserImpl) (w : World) (x : Spot) (words : Text) (filter : Option (List Text)) : Prop :=
  ∀ o out, (p.parse o x.short filter).run w = .ok out → (p.parse o (x.long words) filter).run w = .ok (out.moved x words)

/-- The same for the slots of one intent. -/
def ParserImpl.FindsThrough (p : ParserImpl) (w : World) (x : Spot) (words intent : Text) : Prop :=
  ∀ o out, (p.getSlots o x.short intent).run w = .ok out →
    (p.getSlots o (x.long words) intent).run w = .ok (out.map (InternalSlot.moved x words))

/-- The same slot of the answer, with its place in the longer query. -/
def Slot.moved (x : Spot) (words : Text) (s : Slot) : Slot := { s with range := x.moved words s.range }

/-- The answer to the longer query: the same intent, and the same slots at their places in it. -/
def ParseResult.moved (x : Spot) (words : Text) (r : ParseResult) : ParseResult :=
  { r with input := x.long words, slots := r.slots.map (Slot.moved x words) }

end Snips
