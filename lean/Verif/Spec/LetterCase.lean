import Verif.Spec.Clock
import Verif.Spec.Renaming

/-! # Texts that differ in the case of letters -/

namespace Snips

/-- Which characters are taken for the same letter (`a` and `A`, say): any relation that relates every character to itself and
related characters only if they take the same number of bytes and are both digits or both not. -/
structure LetterRel (same : Char → Char → Prop) : Prop where
  refl : ∀ c, same c c
  size : ∀ {c c'}, same c c' → c.utf8Size = c'.utf8Size
  digit : ∀ {c c'}, same c c' → c.isDigit = c'.isDigit

/-- The same letters one by one. -/
def SameLetters (same : Char → Char → Prop) (t t' : Text) : Prop := List.Forall₂ same t t'

/-- Tokens at the same place with the same letters. -/
structure SameToken (same : Char → Char → Prop) (a b : Token) : Prop where
  value : SameLetters same a.value b.value
  range : a.range = b.range
  charRange : a.charRange = b.charRange

/-- What is assumed of the text functions: lower-casing and normalising remove the difference, tokens are cut at the same
places.  (Nothing is assumed of shapes, which are about case.) -/
structure TextFns.CaseBlind (same : Char → Char → Prop) (fns : TextFns) : Prop where
  lower : ∀ {t t'}, SameLetters same t t' → fns.lower t = fns.lower t'
  normalize : ∀ {t t'}, SameLetters same t t' → fns.normalize t = fns.normalize t'
  tokenize : ∀ {t t'}, SameLetters same t t' → List.Forall₂ (SameToken same) (fns.tokenize t) (fns.tokenize t')
  tokenizeLight : ∀ {t t'}, SameLetters same t t' → List.Forall₂ (SameLetters same) (fns.tokenizeLight t) (fns.tokenizeLight t')

/-- A regular expression compiled to ignore case (deterministic_intent_parser.rs:378): it matches at the same places. -/
structure Regex.CaseBlind (same : Char → Char → Prop) (r : Regex) : Prop where
  isMatch : ∀ {t t'}, SameLetters same t t' → r.isMatch t = r.isMatch t'
  captures : ∀ {t t'}, SameLetters same t t' → r.capturesIter t = r.capturesIter t'

/-- Extraction that finds the same in both texts. -/
structure World.CaseBlind (same : Char → Char → Prop) (w : World) : Prop where
  builtin : ∀ {t t'}, SameLetters same t t' → ∀ kinds n, w.builtin t kinds n = w.builtin t' kinds n
  custom : ∀ {t t'}, SameLetters same t t' → ∀ kinds n, w.custom t kinds n = w.custom t' kinds n

/-- The n-grams of the same words are the same. -/
def FeatEnv.CaseBlind (same : Char → Char → Prop) (env : FeatEnv) : Prop :=
  ∀ {l l' : List Text}, List.Forall₂ (SameLetters same) l l' → ∀ n,
    List.Forall₂ (SameLetters same) (env.allNgrams l n) (env.allNgrams l' n)

/-- A feature that is about the shape of words. -/
def Feature.IsShape : Feature → Prop
  | .shapeNgram _ => True
  | _ => False

/-- A slot filler without shape features. -/
structure SlotFiller.CaseBlind (same : Char → Char → Prop) (f : SlotFiller) : Prop where
  fns : f.fns.CaseBlind same
  features : ∀ os, f.processor = some os → ∀ o ∈ os, ¬ o.feature.IsShape

/-- A classifier without features of word pairs. -/
structure Classifier.CaseBlind (same : Char → Char → Prop) (c : Classifier) : Prop where
  fns : ∀ f, c.featurizer = some f → f.tfidf.fns.CaseBlind same
  pairs : ∀ f, c.featurizer = some f → f.cooc = none

/-- A parser of any kind, without word pairs and shape features. -/
def ParserModel.CaseBlind (same : Char → Char → Prop) : ParserModel → Prop
  | .lookup env _ => env.fns.CaseBlind same
  | .deterministic env p => env.fns.CaseBlind same ∧ ∀ e ∈ p.regexes, ∀ r ∈ e.2, r.CaseBlind same
  | .probabilistic env p => env.feat.CaseBlind same ∧ p.classifier.CaseBlind same ∧ ∀ e ∈ p.slotFillers, e.2.CaseBlind same

/-- The same slot found in both texts: the raw values have the same letters; the resolved values are equal, or both are the
raw values. -/
structure CasedSlot (same : Char → Char → Prop) (a b : Slot) : Prop where
  rawValue : SameLetters same a.rawValue b.rawValue
  value : a.value = b.value ∨ a.value = .custom a.rawValue ∧ b.value = .custom b.rawValue
  alternatives : a.alternatives = b.alternatives
  range : a.range = b.range
  entity : a.entity = b.entity
  slotName : a.slotName = b.slotName

/-- The same alternative for both texts. -/
def CasedAlternative (same : Char → Char → Prop) (a b : Alternative) : Prop :=
  a.intent = b.intent ∧ List.Forall₂ (CasedSlot same) a.slots b.slots

/-- The same answer for both texts. -/
structure CasedResult (same : Char → Char → Prop) (a b : ParseResult) : Prop where
  input : SameLetters same a.input b.input
  intent : a.intent = b.intent
  slots : List.Forall₂ (CasedSlot same) a.slots b.slots
  alternatives : List.Forall₂ (CasedAlternative same) a.alternatives b.alternatives

/-- The same question about both texts. -/
inductive CasedCall (same : Char → Char → Prop) : EngineCall → EngineCall → Prop where
  | parse {t t' : Text} (o : HashOrd) (whitelist blacklist : Option (List Text)) (ni ns : Nat) : SameLetters same t t' →
      CasedCall same (.parse o t whitelist blacklist ni ns) (.parse o t' whitelist blacklist ni ns)
  | intents {t t' : Text} (o : HashOrd) : SameLetters same t t' → CasedCall same (.intents o t) (.intents o t')
  | slots {t t' : Text} (o : HashOrd) (intent : Text) (ns : Nat) : SameLetters same t t' →
      CasedCall same (.slots o t intent ns) (.slots o t' intent ns)
  | extract {t t' : Text} (intent slot : Text) (ns : Nat) : SameLetters same t t' →
      CasedCall same (.extract t intent slot ns) (.extract t' intent slot ns)

/-- The same answer of the engine for both texts: intents and scores are equal. -/
inductive CasedAnswer (same : Char → Char → Prop) : EngineAnswer → EngineAnswer → Prop where
  | parse {a b : ParseResult} : CasedResult same a b → CasedAnswer same (.parse a) (.parse b)
  | intents (l : List IntentResult) : CasedAnswer same (.intents l) (.intents l)
  | slots {a b : List Slot} : List.Forall₂ (CasedSlot same) a b → CasedAnswer same (.slots a) (.slots b)
  | noSlot : CasedAnswer same (.extract none) (.extract none)
  | extract {a b : Slot} : CasedSlot same a b → CasedAnswer same (.extract (some a)) (.extract (some b))

/-- Letters that differ in case only, among `a` to `z` (`Char.toLower` changes `A` to `Z` only). -/
def asciiCase (c c' : Char) : Prop := c.toLower = c'.toLower

end Snips
