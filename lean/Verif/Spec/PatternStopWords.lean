import Verif.Spec.StopWords
import Verif.Spec.Trained

/-! A query into which stop words are inserted, and the deterministic parser. -/

namespace Snips

/-- Tokens do not reach over blanks: those of a text with a blank are those of the text before it and those of the text
after it, each at its place. -/
def TextFns.TokensApart (fns : TextFns) : Prop :=
  ∀ a b, (fns.tokenize (a ++ ' ' :: b)).map (fun t => (t.value, t.charRange)) =
    (fns.tokenize a).map (fun t => (t.value, t.charRange)) ++
      (fns.tokenize b).map fun t => (t.value, ⟨t.charRange.start + (a.length + 1), t.charRange.stop + (a.length + 1)⟩)

/-- All the words are stop words for all intents of the parser that the filter allows. -/
def Det.AreStopWords (env : RuleEnv) (p : Det) (filter : Option (List Text)) (words : Text) : Prop :=
  ∀ i ∈ p.scopes.keys, Permits filter i →
    ∀ t ∈ env.fns.tokenize words, p.stopWords.Skipped i (env.fns.normalize t.value)

/-- The pattern begins and ends with `\s*` and has white space only in this form, as all patterns of trained models. -/
structure Loose (items : List PatItem) : Prop where
  any : .space ∉ items
  front : ∃ rest, items = .spaces :: rest
  back : ∃ rest, items = rest ++ [.spaces]

/-- The regular expressions of the parser are patterns of this kind. -/
def Det.Trained (cr : CharRules) (p : Det) : Prop :=
  ∀ intent patterns, p.regexes.get intent = some patterns → ∀ r ∈ patterns,
    ∃ items, r.Implements cr items ∧ Solid cr items ∧ Loose items

/-- When a pattern matches the query with its entities replaced by placeholders, its groups are at these placeholders: the
user did not type one. -/
def Det.NoTypedPlaceholders (env : RuleEnv) (p : Det) (w : World) (input : Text) : Prop :=
  ∀ intent raw shown table patterns, p.Sees env w input intent raw shown table → p.regexes.get intent = some patterns →
    ∀ r ∈ patterns, ∀ caps, r.Captures shown caps → ∀ (i : Nat) bytes, 1 ≤ i → caps[i]? = some (some bytes) →
      convertToCharRange shown bytes ∈ table.keys

/-- The query has less than 2^15 characters, also with placeholders, and the entities found in it are in it. -/
def Det.SmallQuery (env : RuleEnv) (p : Det) (w : World) (input : Text) : Prop :=
  input.length < 32768 ∧
  ∀ s ∈ p.scopes, ∀ bs cs, w.builtin input (some s.2.1) 0 = .ok bs → w.custom input (some s.2.2) 0 = .ok cs →
    (∀ b ∈ bs, b.range.NonEmpty ∧ b.range.stop ≤ input.length) ∧
    (∀ c ∈ cs, c.range.NonEmpty ∧ c.range.stop ≤ input.length) ∧
    (replaceEntities input (bs.map (fun b => ⟨b.range, env.names.identifier b.kind⟩) ++
      cs.map fun c => ⟨c.range, c.identifier⟩) (entityPlaceholder env.fns)).2.length < 32768

end Snips
