import Verif.Spec.Patterns
import Verif.Spec.Segments
import Verif.Spec.Tags

/-! Where the slots of the deterministic parser come from. -/

namespace Snips

/-- The second text is the first one, some characters being replaced by spaces. -/
def Blanked (text cleaned : Text) : Prop := List.Forall₂ (fun a b => b = a ∨ b = ' ') text cleaned

/-- The regular expression reports its groups at character boundaries of the text, start before end. -/
def Regex.OnBoundaries (r : Regex) : Prop :=
  ∀ text caps, caps ∈ r.capturesIter text → ∀ (i : Nat) (b : Rng), caps[i]? = some (some b) →
    ∃ n m, n ≤ m ∧ AtByte text n b.start ∧ AtByte text m b.stop

/-- In the first match of the regular expression, a group of the given name captured these characters. -/
def Regex.GroupAt (r : Regex) (text name : Text) (chars : Rng) : Prop :=
  ∃ caps i bytes, r.Captures text caps ∧ 1 ≤ i ∧ caps[i]? = some (some bytes) ∧
    r.captureNames[i]? = some (some name) ∧ chars.start ≤ chars.stop ∧
    AtByte text chars.start bytes.start ∧ AtByte text chars.stop bytes.stop

/-- The slot was captured in the sentence as typed, up to blanked stop words: it has the captured characters'
range, and its text is what was captured (or blanked there). -/
def Det.SlotAsTyped (input : Text) (r : Regex) (name : Text) (s : InternalSlot) : Prop :=
  ∃ raw, Blanked input raw ∧ r.GroupAt raw name s.charRange ∧ Blanked s.value (substr raw s.charRange)

/-- The slot was captured in the sentence with the entities `found` in it replaced by placeholders (the ones
kept by de-duplication, C16), up to blanked stop words.  If a whole placeholder was captured, the slot is the
entity in the user's text; if only plain text was captured, the slot is this text in the user's text,
outside the entities. -/
def Det.SlotFromPlaceholders (placeholder : Text → Text) (input : Text) (found : List MatchedEntity) (r : Regex)
    (name : Text) (s : InternalSlot) : Prop :=
  ∃ segs formatted chars, origText segs = input ∧
    (occs placeholder 0 0 segs).map (fun c => (⟨c.orig, c.name⟩ : MatchedEntity)) = dedupEntities found ∧
    Blanked (replText placeholder segs) formatted ∧ r.GroupAt formatted name chars ∧
    (∀ c ∈ occs placeholder 0 0 segs, chars = c.repl → s.charRange = c.orig ∧ s.value = substr input c.orig) ∧
    (chars.NonEmpty → (∀ c ∈ occs placeholder 0 0 segs, chars.Disj c.repl) →
      s.charRange.Within input.length ∧ Blanked s.value (substr formatted chars) ∧
        ∀ c ∈ occs placeholder 0 0 segs, s.charRange.Disj c.orig)

/-- The slot comes from a named group of a pattern of the intent: it has the name given to the group and the
entity declared for it, and it is what the group captured, as found in the user's text. -/
def Det.ComesFrom (env : RuleEnv) (p : Det) (w : World) (input intent : Text) (s : InternalSlot) : Prop :=
  ∃ patterns r name key declared, p.regexes.get intent = some patterns ∧ r ∈ patterns ∧
    BeforeUnderscore name key ∧ p.groupNames.get key = some s.slotName ∧
    p.slotEntities.get intent = some declared ∧ declared.get s.slotName = some s.entity ∧
    s.value = substr input s.charRange ∧
    (Det.SlotAsTyped input r name s ∨
      ∃ kinds entities bs cs, p.scopes.get intent = some (kinds, entities) ∧
        w.builtin input (some kinds) 0 = .ok bs ∧ w.custom input (some entities) 0 = .ok cs ∧
        Det.SlotFromPlaceholders (entityPlaceholder env.fns) input
          (bs.map (fun e => ⟨e.range, env.names.identifier e.kind⟩) ++ cs.map fun e => ⟨e.range, e.identifier⟩)
          r name s)

end Snips
