import Verif.Spec.Rule
import Verif.Spec.Ranges
import Verif.Spec.Slots

/-! What the patterns of the deterministic parser say of a sentence. -/

namespace Snips

/-- The groups of the first match of a regular expression in a text (group 0 is the whole match). -/
def Regex.Captures (r : Regex) (text : Text) (caps : List (Option Rng)) : Prop :=
  r.isMatch text = true ∧ caps ≠ [] ∧
    ∃ void rest, r.capturesIter text = void ++ caps :: rest ∧ ∀ c ∈ void, c = []

/-- The named groups that took part in a match, by increasing number: number, bytes, name. -/
def Regex.NamedGroups (r : Regex) (caps : List (Option Rng)) (groups : List (Nat × Rng × Text)) : Prop :=
  groups.Pairwise (fun a b => a.1 < b.1) ∧
  ∀ i bytes name, (i, bytes, name) ∈ groups ↔
    1 ≤ i ∧ caps[i]? = some (some bytes) ∧ r.captureNames[i]? = some (some name)

/-- What comes before the first underscore, or everything. -/
def BeforeUnderscore (name key : Text) : Prop := '_' ∉ key ∧ (name = key ∨ ∃ rest, name = key ++ '_' :: rest)

/-- The slot of a named group: its name is that of the table of groups, its entity the one declared for the
intent, its text the characters of the input at its range. -/
def Det.GroupSlot (p : Det) (input intent : Text) (origin : Rng → Rng) (g : Nat × Rng × Text) (s : InternalSlot) :
    Prop :=
  (∃ key, BeforeUnderscore g.2.2 key ∧ p.groupNames.get key = some s.slotName) ∧
  (∃ declared, p.slotEntities.get intent = some declared ∧ declared.get s.slotName = some s.entity) ∧
  s.charRange = origin g.2.1 ∧ s.value = substr input s.charRange

/-- Tokens and characters of the text of a slot: what decides between overlapping slots. -/
def slotSize (fns : TextFns) (s : InternalSlot) : Nat := (fns.tokenize s.value).length + s.value.length

/-- Slots kept among overlapping ones: disjoint, in the order of the text, and one that is left out overlaps
one that is kept and at least as large. -/
structure KeptSlots (fns : TextFns) (all kept : List InternalSlot) : Prop where
  subset : kept.Subperm all
  order : InTextOrder kept
  left : ∀ s ∈ all, s ∈ kept ∨ ∃ k ∈ kept, rangesOverlap k.charRange s.charRange = true ∧
    slotSize fns s ≤ slotSize fns k

/-- The slots read by a regular expression in a text, given how its bytes correspond to ranges of the input. -/
def Det.Reads (p : Det) (fns : TextFns) (input intent : Text) (r : Regex) (text : Text) (origin : Rng → Rng)
    (slots : List InternalSlot) : Prop :=
  ∃ caps groups all, r.Captures text caps ∧ r.NamedGroups caps groups ∧
    List.Forall₂ (p.GroupSlot input intent origin) groups all ∧ KeptSlots fns all slots

/-- The sentence as the parser sees it for an intent: with the stop words of the intent blanked, as it is
(`raw`) and with the entities found in it replaced by placeholders (`formatted`, with the table of ranges). -/
structure Det.Sees (env : RuleEnv) (p : Det) (w : World) (input intent : Text) (raw formatted : Text)
    (table : Map Rng Rng) : Prop where
  views : ∃ kinds entities bs cs new, p.scopes.get intent = some (kinds, entities) ∧
    w.builtin input (some kinds) 0 = .ok bs ∧ w.custom input (some entities) 0 = .ok cs ∧
    replaceChecked env.debugAssertions input
      (bs.map (fun e => ⟨e.range, env.names.identifier e.kind⟩) ++ cs.map fun e => ⟨e.range, e.identifier⟩)
      (entityPlaceholder env.fns) = .ok (table, new) ∧
    p.preprocess env.fns input intent = .ok raw ∧ p.preprocess env.fns new intent = .ok formatted

/-- The patterns of the intent recognise the sentence with the given slots: the first pattern that matches
one of the two views decides, and it reads the sentence as it is if it matches it. -/
def Det.Recognises (env : RuleEnv) (p : Det) (o : HashOrd) (w : World) (input intent : Text)
    (slots : List InternalSlot) : Prop :=
  ∃ raw formatted table patterns before r after,
    p.Sees env w input intent raw formatted table ∧ p.regexes.get intent = some patterns ∧
    patterns = before ++ r :: after ∧
    (∀ q ∈ before, (∀ caps, ¬ q.Captures raw caps) ∧ ∀ caps, ¬ q.Captures formatted caps) ∧
    (p.Reads env.fns input intent r raw (convertToCharRange raw) slots ∨
      (∀ caps, ¬ r.Captures raw caps) ∧
        p.Reads env.fns input intent r formatted
          (fun bytes => originalRange o (some table) (convertToCharRange formatted bytes)) slots)

end Snips
