import Verif.Spec.Rule

/-! A query into which stop words are inserted. -/

namespace Snips

/-- Where the words go: in front of a query, behind it, or at a blank in it. -/
inductive Spot
  | front (query : Text)
  | back (query : Text)
  | between (before after : Text)

/-- The query without the words. -/
def Spot.short : Spot → Text
  | .front t => t
  | .back t => t
  | .between a b => a ++ ' ' :: b

/-- The query with the words. -/
def Spot.long (words : Text) : Spot → Text
  | .front t => words ++ ' ' :: t
  | .back t => t ++ ' ' :: words
  | .between a b => a ++ ' ' :: (words ++ ' ' :: b)

/-- The place in the longer query of a position of the shorter one. -/
def Spot.pos (words : Text) : Spot → Nat → Nat
  | .front _, i => i + (words.length + 1)
  | .back _, i => i
  | .between a _, i => if i ≤ a.length then i else i + (words.length + 1)

/-- A range at its place in the longer query. -/
def Spot.moved (x : Spot) (words : Text) (r : Rng) : Rng := ⟨x.pos words r.start, x.pos words r.stop⟩

/-- A range of the shorter query that does not contain the place where the words go. -/
def Spot.Beside : Spot → Rng → Prop
  | .front t, r => r.start ≤ r.stop ∧ r.stop ≤ t.length
  | .back t, r => r.start ≤ r.stop ∧ r.stop ≤ t.length
  | .between a b, r => r.start ≤ r.stop ∧ (r.stop ≤ a.length ∨ (a.length + 1 ≤ r.start ∧ r.stop ≤ a.length + 1 + b.length))

/-- The extractors find in the longer query what they find in the shorter one, and nothing that goes across the gap. -/
structure World.SameMatches (w : World) (x : Spot) (words : Text) : Prop where
  builtin : ∀ kinds bs, w.builtin x.short (some kinds) 0 = .ok bs →
    (∀ b ∈ bs, x.Beside b.range) ∧
    ∃ bs', w.builtin (x.long words) (some kinds) 0 = .ok bs' ∧
      List.Forall₂ (fun b b' => b'.kind = b.kind ∧ b'.range = x.moved words b.range) bs bs'
  custom : ∀ names cs, w.custom x.short (some names) 0 = .ok cs →
    (∀ c ∈ cs, x.Beside c.range) ∧
    ∃ cs', w.custom (x.long words) (some names) 0 = .ok cs' ∧
      List.Forall₂ (fun c c' => c'.identifier = c.identifier ∧ c'.range = x.moved words c.range) cs cs'

/-- Tokens do not reach over blanks. -/
def TextFns.SplitsAtBlanks (fns : TextFns) : Prop :=
  ∀ a b, fns.tokenizeLight (a ++ ' ' :: b) = fns.tokenizeLight a ++ fns.tokenizeLight b

/-- A token is skipped for an intent: it is in the intent's own list of stop words, or in the general one if the intent has
none of its own. -/
def StopWords.Skipped (s : StopWords) (intent token : Text) : Prop :=
  (∀ own, s.specific.get intent = some own → token ∈ own) ∧ (s.specific.get intent = none → token ∈ s.general)

/-- All the words are stop words for all intents of the table that the filter allows. -/
def Lookup.AreStopWords (env : RuleEnv) (p : Lookup) (filter : Option (List Text)) (words : Text) : Prop :=
  ∀ s ∈ p.scopes, ∀ i ∈ s.intentGroup, Permits filter i →
    ∀ t ∈ env.fns.tokenizeLight words, p.stopWords.Skipped i (env.fns.normalize t)

/-- The same slot, with its place in the longer query. -/
def InternalSlot.moved (x : Spot) (words : Text) (s : InternalSlot) : InternalSlot :=
  { s with charRange := x.moved words s.charRange }

def InternalResult.moved (x : Spot) (words : Text) (r : InternalResult) : InternalResult :=
  { r with slots := r.slots.map (InternalSlot.moved x words) }

end Snips
