import Verif.Model.Parsers
import Verif.Spec.Rule
import Verif.Spec.Slots
import Verif.Spec.Tags
import Verif.Spec.Engine

/-! Vocabulary for statements about engines made of the three kinds of parsers. -/

namespace Snips

/-- The classifier's intent list is one for which the filter is reliable: it is empty or contains the
absent intent.  (The training code produces such lists.) -/
def Classifier.Fair (c : Classifier) : Prop := c.intentList = [] ∨ none ∈ c.intentList

/-- A deterministic parser has the tables its constructor computes; the others have no derived tables. -/
def ParserModel.Constructed : ParserModel → Prop
  | .deterministic env p => p.Built env.names
  | _ => True

/-- A probabilistic parser's classifier is fair. -/
def ParserModel.FairClassifier : ParserModel → Prop
  | .probabilistic _ p => p.classifier.Fair
  | _ => True

/-- The tokenizer (external) reports, for every text, tokens in order with their own text and agreeing byte
and character ranges. -/
def TokenizerOk (fns : TextFns) : Prop :=
  ∀ t, Tokenized t (fns.tokenize t) ∧ BytesAgree t (fns.tokenize t)

/-- The tokenizers the slot fillers of a probabilistic parser use are sensible ones. -/
def ParserModel.TokenizerOk : ParserModel → Prop
  | .probabilistic _ p => ∀ intent f, p.slotFillers.get intent = some f → Snips.TokenizerOk f.fns
  | _ => True

/-- If the filler uses the BIO scheme, its tagger (external) answers with tags of the BIO alphabet only. -/
def SlotFiller.InAlphabet (codec : TagCodec) (f : SlotFiller) : Prop :=
  f.scheme = .bio → ∀ tagger, f.tagger = some tagger → ∀ features encoded,
    tagger.tag features = .ok encoded → ∀ x ∈ encoded, ∀ t, codec.decode x = .ok t → BioTag t

/-- All taggers of a probabilistic parser answer in the alphabet of their scheme. -/
def ParserModel.InAlphabet : ParserModel → Prop
  | .probabilistic env p => ∀ intent f, p.slotFillers.get intent = some f → f.InAlphabet env.codec
  | _ => True

/-- The raw value of every slot of a result is the text of the input at the slot's range. -/
def RawValuesAtRanges (input : Text) (slots : List Slot) : Prop :=
  ∀ s ∈ slots, s.rawValue = (input.drop s.range.start).take (s.range.stop - s.range.start)

/-- No two slots of a result share a character and they come in text order. -/
def DisjointInOrder (slots : List Slot) : Prop :=
  slots.Pairwise fun a b => a.range.Disj b.range ∧ a.range.start ≤ b.range.start

end Snips
