import Verif.Spec.Parsers

/-! Models whose tables refer to existing entries only. -/

namespace Snips

/-- No extraction of entities panics. -/
def World.NoPanic (w : World) : Prop :=
  (∀ s kinds n, w.builtin s kinds n ≠ .panic) ∧ (∀ s kinds n, w.custom s kinds n ≠ .panic)

/-- Every entry of the lookup table names an intent and slots of the parser's lists. -/
structure Lookup.Sound (p : Lookup) : Prop where
  intents : ∀ e ∈ p.map, 0 ≤ e.2.1 ∧ e.2.1 < p.intentsNames.length
  slots : ∀ e ∈ p.map, ∀ id ∈ e.2.2, 0 ≤ id ∧ id < p.slotsNames.length

/-- Every named group of a pattern denotes (by its part before the first underscore) a slot, and the slot is
declared for the pattern's intent. -/
def Det.Sound (p : Det) : Prop :=
  ∀ intent patterns, p.regexes.get intent = some patterns → ∀ r ∈ patterns, ∀ group, some group ∈ r.captureNames →
    ∃ slot declared entity, p.groupNames.get (group.takeWhile (· ≠ '_')) = some slot ∧
      p.slotEntities.get intent = some declared ∧ Map.get declared slot = some entity

/-- The vocabulary is not empty, every word of it has a weight, and the pairs are numbered below their number. -/
structure Featurizer.Sound {F : Type} (f : Featurizer F) : Prop where
  vocabulary : f.tfidf.vocabulary ≠ []
  weights : ∀ e ∈ f.tfidf.vocabulary, e.2 < f.tfidf.idf.length
  pairs : ∀ c, f.cooc = some c → ∀ e ∈ c.wordPairs, e.2 < c.wordPairs.length

/-- The tagger (external) does not panic and answers with at most one tag per token. -/
structure Tagger.Sound (t : Tagger) : Prop where
  noPanic : ∀ features, t.tag features ≠ .panic
  count : ∀ features tags, t.tag features = .ok tags → tags.length ≤ features.length

/-- The engines below the caches do not panic themselves, the tokenizer is a sensible one, and every match of
the gazetteer is a non-empty range inside the text it was given. -/
structure Ext.Sound (x : Ext) : Prop where
  tokens : ∀ t, Tokenized t (x.tokenize t)
  builtin : ∀ time s kinds n, x.builtinRaw time s kinds n ≠ .panic
  gazetteer : ∀ s kinds n, x.gazetteer s kinds n ≠ .panic
  inside : ∀ s kinds n es, x.gazetteer s kinds n = .ok es →
    ∀ e ∈ es, e.range.start < e.range.stop ∧ e.range.stop ≤ s.length

/-- The window of co-occurrences is not so large that adding it to the number of words of the text, with placeholders for
entities, overflows a machine integer. -/
def Cooc.SmallWindow (names : KindNames) (w : World) (input : Text) (c : Cooc) : Prop :=
  ∀ size, c.windowSize = some size → ∀ bs cs, w.builtin input (some c.scope) 0 = .ok bs →
    w.custom input none 0 = .ok cs →
    (c.fns.tokenizeLight (replaceEntities input (bs.map (fun b => ⟨b.range, names.identifier b.kind⟩) ++
      cs.map fun c => ⟨c.range, c.identifier⟩) (coocPlaceholder c.fns)).2).length + size < 2 ^ 64

/-- No n-gram is so long that adding its length to the number of tokens of the text overflows a machine integer. -/
def SlotFiller.SmallNgrams (input : Text) (f : SlotFiller) : Prop :=
  ∀ os, f.processor = some os → ∀ o ∈ os, ∀ n common stemmer, o.feature = .ngram n common stemmer →
    (f.fns.tokenize input).length + n < 2 ^ 64

/-- The windows and n-grams of a parser are small enough for the text. -/
def ParserModel.Small (w : World) (input : Text) : ParserModel → Prop
  | .lookup _ _ => True
  | .deterministic _ _ => True
  | .probabilistic env p =>
      (∀ f, p.classifier.featurizer = some f → ∀ c, f.cooc = some c → c.SmallWindow env.feat.names w input) ∧
      ∀ intent filler, p.slotFillers.get intent = some filler → filler.SmallNgrams input

/-- A parser of which all tables are sound, with sensible tokenizers. -/
def ParserModel.Sound : ParserModel → Prop
  | .lookup _ p => p.Sound
  | .deterministic env p => Snips.TokenizerOk env.fns ∧ p.Sound
  | .probabilistic env p => (∀ t, env.codec.decode t ≠ .panic) ∧
      (∀ f, p.classifier.featurizer = some f → f.Sound) ∧
      ∀ intent filler, p.slotFillers.get intent = some filler →
        Snips.TokenizerOk filler.fns ∧ ∀ t, filler.tagger = some t → t.Sound

/-- Compiled without debug assertions and overflow checks. -/
def ParserModel.Release : ParserModel → Prop
  | .lookup env _ => env.debugAssertions = false
  | .deterministic env _ => env.debugAssertions = false
  | .probabilistic env _ => env.feat.debugAssertions = false

/-- The entities found in a text are non-empty ranges of it, and it has less than 2^15 characters, before and after
they are replaced by placeholders. -/
def ReplacementFits (names : KindNames) (placeholder : Text → Text) (w : World) (input : Text) (kinds : List Kind)
    (entities : Option (List Text)) : Prop :=
  input.length < 32768 ∧
  ∀ bs cs, w.builtin input (some kinds) 0 = .ok bs → w.custom input entities 0 = .ok cs →
    (∀ b ∈ bs, b.range.NonEmpty ∧ b.range.stop ≤ input.length) ∧
    (∀ c ∈ cs, c.range.NonEmpty ∧ c.range.stop ≤ input.length) ∧
    (replaceEntities input (bs.map (fun b => ⟨b.range, names.identifier b.kind⟩) ++
      cs.map fun c => ⟨c.range, c.identifier⟩) placeholder).2.length < 32768

/-- What a text must satisfy: the windows and n-grams must be small enough for it; and if the parser is compiled with debug
assertions and overflow checks, there is no such text for a lookup parser, and the other parsers must not count beyond 2^15
when they replace entities. -/
def ParserModel.Fits (w : World) (input : Text) : ParserModel → Prop
  | .lookup env _ => env.debugAssertions = false
  | .deterministic env p => env.debugAssertions = true → ∀ s ∈ p.scopes,
      ReplacementFits env.names (entityPlaceholder env.fns) w input s.2.1 (some s.2.2)
  | .probabilistic env p => (ParserModel.probabilistic env p).Small w input ∧
      (env.feat.debugAssertions = true → ∀ f, p.classifier.featurizer = some f →
        ∀ c, f.cooc = some c → ReplacementFits env.feat.names (coocPlaceholder c.fns) w input c.scope none)

end Snips
