import Verif.Spec.LookupTable
import Verif.Spec.Patterns
import Verif.Spec.Parsers
import Verif.Spec.Features
import Verif.Spec.Engine
import Verif.Spec.Safety

/-! What a sentence means to an engine, in terms of the tables, patterns, scores and tags of its parsers. -/

namespace Snips

/-- The features of tokens: at each token, those of the configuration which have a value at the token in the window. -/
def FeaturesOf (fns : TextFns) (w : World) (os : List Offsetter) (toks : List Token)
    (features : List (List (Text × Text))) : Prop :=
  features.length = toks.length ∧
  ∀ (t : Nat) l, features[t]? = some l → ∀ key v, (key, v) ∈ l ↔
    ∃ f ∈ os, ∃ o ∈ f.offsets, key = featureKey f.feature.name o ∧
      ∃ p : Nat, (p : Int) = t + o ∧ p < toks.length ∧ f.feature.valueAt fns w toks p = .ok (some v)

/-- The slots are the spans of tokens which the tagger marks in the sentence, given its features; there are none without a
tagger, without features, and without tokens. -/
def SlotFiller.Marks (codec : TagCodec) (f : SlotFiller) (w : World) (text : Text) (slots : List InternalSlot) : Prop :=
  (slots = [] ∧ (f.tagger = none ∨ f.processor = none ∨ f.fns.tokenize text = [])) ∨
  ∃ tagger os features encoded tags spans, f.tagger = some tagger ∧ f.processor = some os ∧
    FeaturesOf f.fns w os (f.fns.tokenize text) features ∧ tagger.tag features = .ok encoded ∧
    List.Forall₂ (fun e t => codec.decode e = .ok t) encoded tags ∧ WellFormedSpans tags spans ∧
    List.Forall₂ (fun (s : Span) (o : InternalSlot) =>
      ∃ a b, (f.fns.tokenize text)[s.first]? = some a ∧ (f.fns.tokenize text)[s.last]? = some b ∧
        o.slotName = s.name ∧ f.mapping.get s.name = some o.entity ∧
        o.charRange = ⟨a.charRange.start, b.charRange.stop⟩ ∧
        o.value = (text.drop a.charRange.start).take (b.charRange.stop - a.charRange.start)) spans slots

/-- The classifier gives the intent the score, and no permitted intent, nor the absence of an intent, a greater one.  The
features are those of C41 and C42, the scores those of C39. -/
def Classifier.Prefers (ops : FloatOps ℚ) (env : FeatEnv) (o : HashOrd) (c : Classifier) (w : World) (input : Text)
    (filter : Option (List Text)) (intent : Text) (score : ℚ) : Prop :=
  ∃ f m features scores, c.featurizer = some f ∧ c.logreg = some m ∧
    (f.transform ops env o input).run w = .ok features ∧ m.run ops features = .ok scores ∧
    (some intent, score) ∈ c.intentList.zip scores ∧ Permits filter intent ∧
    ∀ name s, (name, s) ∈ c.intentList.zip scores → (∀ i, name = some i → Permits filter i) → s ≤ score

/-- The sentence means the intent with the slots to a parser: its table says so, the patterns of the intent recognise it, or
the classifier prefers the intent and the tagger of the intent marks the slots. -/
def ParserModel.Means (o : HashOrd) (w : World) (input : Text) (filter : Option (List Text)) (intent : Text) (score : ℚ)
    (slots : List InternalSlot) : ParserModel → Prop
  | .lookup env p => p.Says env w input filter intent slots ∧ 1 / 2 < score ∧ score ≤ 1
  | .deterministic env p => Permits filter intent ∧ p.Recognises env o w input intent slots ∧ 1 / 2 < score ∧ score ≤ 1
  | .probabilistic env p => p.classifier.Prefers env.ops env.feat o w input filter intent score ∧
      ∃ f, p.slotFillers.get intent = some f ∧ f.Marks env.codec w input slots

/-- The same when a parser is asked for the slots of an intent. -/
def ParserModel.MeansSlots (o : HashOrd) (w : World) (input intent : Text) (slots : List InternalSlot) : ParserModel → Prop
  | .lookup env p => p.Says env w input (some [intent]) intent slots
  | .deterministic env p => p.Recognises env o w input intent slots
  | .probabilistic env p => ∃ f, p.slotFillers.get intent = some f ∧ f.Marks env.codec w input slots

/-- To a parser made of a table or of patterns, the sentence means one permitted intent only. -/
def ParserModel.MeansOnly (o : HashOrd) (w : World) (input : Text) (filter : Option (List Text)) (intent : Text) :
    ParserModel → Prop
  | .lookup env p => p.NoRepeats env w input ∧ (∃ slots, p.Says env w input filter intent slots) ∧
      ∀ j slots, p.Says env w input filter j slots → j = intent
  | .deterministic env p => (∃ slots, Permits filter intent ∧ p.Recognises env o w input intent slots) ∧
      ∀ j slots, Permits filter j → p.Recognises env o w input j slots → j = intent
  | .probabilistic _ _ => False

/-- What is assumed of the parsers: tables as they are loaded, entities that lie in the sentence, tokenizers and taggers
that do their work (one tag for each token, in the alphabet of the scheme), and a classifier whose list of intents has the absent one. -/
def ParserModel.Ready (w : World) (input : Text) : ParserModel → Prop
  | .lookup env p => p.Sound ∧ p.GoodMatches env w input
  | .deterministic env p => p.Built env.names
  | .probabilistic env p => p.classifier.Fair ∧ ∀ intent f, p.slotFillers.get intent = some f →
      Snips.TokenizerOk f.fns ∧ f.InAlphabet env.codec ∧
      ∀ tagger, f.tagger = some tagger → ∀ features tags, tagger.tag features = .ok tags → tags.length = features.length

/-- A slot of a parser whose entity is one of the dataset becomes the slot shown to the user, or none: the value of the entity
found at its place in the sentence, else that of the entity found in its text if as long as the text, else the text
itself if the entity is extensible. -/
def ResolvedCustom (w : World) (ns : Nat) (customs : List CustomEntity) (extensible : Bool) (s : InternalSlot)
    (shown : Option Slot) : Prop :=
  (∃ m, customs.find? (fun m => m.identifier = s.entity ∧ m.range = s.charRange) = some m ∧
    shown = some ⟨s.value, .custom m.resolved, m.alternatives.map .custom, s.charRange, s.entity, s.slotName⟩) ∨
  (∀ m ∈ customs, ¬(m.identifier = s.entity ∧ m.range = s.charRange)) ∧
    ∃ own, w.custom s.value (some [s.entity]) ns = .ok own ∧
      ((∃ m, own.getLast? = some m ∧ m.value.length = s.value.length ∧
        shown = some ⟨s.value, .custom m.resolved, m.alternatives.map .custom, s.charRange, s.entity, s.slotName⟩) ∨
      (∀ m, own.getLast? = some m → m.value.length ≠ s.value.length) ∧
        shown = if extensible then some ⟨s.value, .custom s.value, [], s.charRange, s.entity, s.slotName⟩ else none)

/-- The same for the other entities, which must be builtin ones: the entity found at its place, else the last one found in its
text. -/
def ResolvedBuiltin (w : World) (ns : Nat) (builtins : List BuiltinEntity) (kind : Kind) (s : InternalSlot)
    (shown : Option Slot) : Prop :=
  (∃ m, builtins.find? (fun m => m.kind = kind ∧ m.range = s.charRange) = some m ∧
    shown = some ⟨s.value, m.entity, m.alternatives, s.charRange, s.entity, s.slotName⟩) ∨
  (∀ m ∈ builtins, ¬(m.kind = kind ∧ m.range = s.charRange)) ∧
    ∃ own, w.builtin s.value (some [kind]) ns = .ok own ∧
      shown = own.getLast?.map fun m => ⟨s.value, m.entity, m.alternatives, s.charRange, s.entity, s.slotName⟩

/-- The slots shown to the user for the slots of a parser, one by one and in order; some may be left out. -/
def Engine.Resolves (e : Engine) (w : World) (text : Text) (ns : Nat) (slots : List InternalSlot) (out : List Slot) : Prop :=
  slots = [] ∧ out = [] ∨
  slots ≠ [] ∧ ∃ kinds entities builtins customs shown,
    (∀ k, k ∈ kinds ↔ ∃ s ∈ slots, e.names.fromStr s.entity = some k) ∧
    (∀ i, i ∈ entities ↔ ∃ s ∈ slots, e.names.fromStr s.entity = none ∧ s.entity = i) ∧
    w.builtin text (some kinds) ns = .ok builtins ∧ w.custom text (some entities) ns = .ok customs ∧
    out = shown.reduceOption ∧
    List.Forall₂ (fun s x =>
      (∃ extensible, e.dataset.entities.get s.entity = some extensible ∧ ResolvedCustom w ns customs extensible s x) ∨
      e.dataset.entities.get s.entity = none ∧
        ∃ kind, e.names.fromIdentifier s.entity = some kind ∧ ResolvedBuiltin w ns builtins kind s x) slots shown

end Snips
