import Verif.Model.Deterministic

/-! Vocabulary for statements about the lookup and deterministic parsers. -/

namespace Snips

/-- The caller's list of intents (if any) contains the intent. -/
def Permits (filter : Option (List Text)) (intent : Text) : Prop := ∀ l, filter = some l → intent ∈ l

/-- Exact weight of a match with the given slots. -/
def idealWeight (slots : List InternalSlot) : ℚ := 1 / (1 + slots.length)

/-- Total exact weight of the matches of the other intents. -/
def rivalsWeight (ms : List (Text × List InternalSlot)) (intent : Text) : ℚ :=
  ((ms.filter fun m => m.1 ≠ intent).map fun m => idealWeight m.2).sum

/-- `out` is the decision for the matches `ms` (intent and slots): an intent is returned, with the slots
of its match, exactly when its weight exceeds the total weight of all others; otherwise the answer is
"no intent", with confidence 1 and without slots. -/
structure Verdict (ms : List (Text × List InternalSlot)) (out : InternalResult) : Prop where
  returned : ∀ i, out.intent.name = some i ↔ ∃ sl, (i, sl) ∈ ms ∧ rivalsWeight ms i < idealWeight sl
  slots : ∀ i, out.intent.name = some i → (i, out.slots) ∈ ms
  absent : out.intent.name = none → out = ⟨⟨none, 1⟩, []⟩

/-- What holds of the decision whatever the rounding of floating point operations. -/
structure RoundedVerdict (ms : List (Text × List InternalSlot)) (out : InternalResult) : Prop where
  slots : ∀ i, out.intent.name = some i → (i, out.slots) ∈ ms
  absent : out.intent.name = none → out = ⟨⟨none, 1⟩, []⟩
  single : ∀ i sl, ms = [(i, sl)] → out = ⟨⟨some i, 1⟩, sl⟩
  fewer : ∀ i, out.intent.name = some i → ∀ m ∈ ms, m.1 ≠ i → out.slots.length < m.2.length
  tie : ∀ a b, ms.Perm [a, b] → a.2.length = b.2.length → out.intent.name = none

/-- The deterministic parser recognises the intent, with these slots, when asked about it alone. -/
def Det.MatchesAlone (env : RuleEnv) (p : Det) (o : HashOrd) (w : World) (input intent : Text)
    (slots : List InternalSlot) : Prop :=
  (p.parse env o input (some [intent])).run w = .ok ⟨⟨some intent, 1⟩, slots⟩

/-- The parser's tables are those computed by `DeterministicIntentParser::new`, from a table with
distinct intents. -/
structure Det.Built (names : KindNames) (p : Det) : Prop where
  scopes : p.scopes = detScopes names p.slotEntities
  nodup : p.slotEntities.keys.Nodup

/-- A slot of the lookup parser: the `k`-th slot name, and text, range and entity of the match. -/
def Lookup.IsSlot (p : Lookup) (input : Text) (slotId : Int) (e : MatchedEntity) (s : InternalSlot) : Prop :=
  (∃ k : Nat, slotId = k ∧ p.slotsNames[k]? = some s.slotName) ∧
    s.entity = e.name ∧ s.charRange = e.range ∧ s.value = substr input e.range

/-- The lookup table has an entry for some reading of the input: a choice `es` among the entities found
for a scope with a permitted intent `owner`, the chosen entities being replaced by placeholders and
`owner`'s stop words dropped.  The entry names a permitted `intent` and the slots. -/
def Lookup.Hit (env : RuleEnv) (p : Lookup) (w : World) (input : Text) (filter : Option (List Text))
    (intent : Text) (slots : List InternalSlot) : Prop :=
  ∃ scope ∈ p.scopes, ∃ owner ∈ scope.intentGroup, Permits filter owner ∧
    ∃ found es, (Lookup.allEntities env input scope).run w = .ok found ∧ es.Sublist found ∧
      ∃ (n : Nat) (slotIds : List Int),
        p.map.get (env.fns.hashStr (p.preprocess env (replaceWithPlaceholders env.fns input es) owner))
          = some ((n : Int), slotIds) ∧
        p.intentsNames[n]? = some intent ∧ Permits filter intent ∧
        List.Forall₂ (fun ie s => p.IsSlot input ie.1 ie.2 s) (slotIds.zip es) slots

end Snips
