import Verif.Spec.PlainText
import Verif.Spec.PatternStopWords
import Verif.Model.Probabilistic
import Verif.Spec.Safety

/-! A query with further blanks, and the probabilistic parser. -/

namespace Snips

/-- The extractor of custom entities, asked for all of them, finds in the longer query what it finds in the shorter one, and
nothing that goes across the gap. -/
def World.SameCustom (w : World) (x : Spot) (words : Text) : Prop :=
  ∀ cs, w.custom x.short none 0 = .ok cs →
    (∀ c ∈ cs, x.Beside c.range) ∧
    ∃ cs', w.custom (x.long words) none 0 = .ok cs' ∧
      List.Forall₂ (fun c c' => c'.identifier = c.identifier ∧ c'.range = x.moved words c.range) cs cs'

/-- The words that the classifier reads do not reach over blanks, and there are none in an empty text. -/
def Classifier.WordWise (c : Classifier) : Prop :=
  ∀ f, c.featurizer = some f → (f.tfidf.fns.SplitsAtBlanks ∧ f.tfidf.fns.tokenizeLight [] = []) ∧
    ∀ v, f.cooc = some v → v.fns.SplitsAtBlanks ∧ v.fns.tokenizeLight [] = []

/-- The tokens of the slot filler are pieces of the text, at the places they say, and do not reach over blanks. -/
structure SlotFiller.WordWise (f : SlotFiller) : Prop where
  tokenized : ∀ t, Tokenized t (f.fns.tokenize t)
  bytes : ∀ t, BytesAgree t (f.fns.tokenize t)
  apart : f.fns.TokensApart

/-- No slot that the parser reads in the shorter query goes across the gap. -/
def Prob.SlotsBeside (env : ProbEnv) (p : Prob) (w : World) (x : Spot) : Prop :=
  (∀ o filter out, (p.parse env o x.short filter).run w = .ok out → ∀ s ∈ out.slots, x.Beside s.charRange) ∧
  ∀ o intent out, (p.getSlots env o x.short intent).run w = .ok out → ∀ s ∈ out, x.Beside s.charRange

/-- In a build with overflow checks, the query is small enough for the `i16` positions of `replace_entities`; nothing is asked of
other builds. -/
def Classifier.RoomFor (env : FeatEnv) (c : Classifier) (w : World) (input : Text) : Prop :=
  env.debugAssertions = true → ∀ f, c.featurizer = some f → ∀ v, f.cooc = some v →
    ReplacementFits env.names (coocPlaceholder v.fns) w input v.scope none

end Snips
