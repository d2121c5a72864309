import Verif.Model.Engine
import Verif.Spec.Extraction

/-! Vocabulary for statements about the engine. -/

namespace Snips

/-- What the `i`-th configured intent parser answers to `parse(input, filter)` (`none`: no such parser). -/
def Engine.parserAnswer (e : Engine) (o : HashOrd) (w : World) (input : Text)
    (filter : Option (List Text)) (i : Nat) : Option (Outcome InternalResult) :=
  (e.parsers[i]?).map fun p => (p.parse (o.sub i) input filter).run w

/-- What the `i`-th configured intent parser answers to `get_slots(input, intent)`. -/
def Engine.parserSlots (e : Engine) (o : HashOrd) (w : World) (input intent : Text) (i : Nat) :
    Option (Outcome (List InternalSlot)) :=
  (e.parsers[i]?).map fun p => (p.getSlots (o.sub i) input intent).run w

/-- What the `i`-th configured intent parser answers to `get_intents(input)`. -/
def Engine.parserRanking (e : Engine) (o : HashOrd) (w : World) (input : Text) (i : Nat) :
    Option (Outcome (List IntentResult)) :=
  (e.parsers[i]?).map fun p => (p.getIntents (o.sub i) input).run w

/-- The `i`-th parser answers without recognising an intent. -/
def Engine.Abstains (e : Engine) (o : HashOrd) (w : World) (input : Text)
    (filter : Option (List Text)) (i : Nat) : Prop :=
  ∃ r, e.parserAnswer o w input filter i = some (.ok r) ∧ r.intent.name = none

/-- An intent passes the whitelist and the blacklist given by the caller. -/
def Allowed (whitelist blacklist : Option (List Text)) (intent : Text) : Prop :=
  (∀ wl, whitelist = some wl → intent ∈ wl) ∧ (∀ bl, blacklist = some bl → intent ∉ bl)

/-- The intents the engine was trained on. -/
def Engine.intents (e : Engine) : List Text := e.dataset.slotNameMappings.map Prod.fst

/-- `eff` is an effective filter for the caller's lists: no filter if no list is given, else a list of
exactly the trained intents which pass both lists. -/
def Engine.IsFilterFor (e : Engine) (whitelist blacklist eff : Option (List Text)) : Prop :=
  match eff with
  | none => whitelist = none ∧ blacklist = none
  | some l => ¬(whitelist = none ∧ blacklist = none) ∧
      ∀ i, i ∈ l ↔ i ∈ e.intents ∧ Allowed whitelist blacklist i

/-- All intents named in the caller's lists are trained ones. -/
def Engine.FilterKnown (e : Engine) (whitelist blacklist : Option (List Text)) : Prop :=
  ∀ i, i ∈ whitelist.getD [] ∨ i ∈ blacklist.getD [] → i ∈ e.intents

/-- A ranked result passes the caller's lists: the absent intent always does; with a list given, an
intent must be a trained one that passes both lists. -/
def Engine.Passes (e : Engine) (whitelist blacklist : Option (List Text)) (r : IntentResult) : Prop :=
  ∀ n, r.name = some n → Allowed whitelist blacklist n ∧
    (¬(whitelist = none ∧ blacklist = none) → n ∈ e.intents)

/-- A resolved slot keeps the text, range, entity and name of the parser's slot. -/
def SameSlot (s : InternalSlot) (r : Slot) : Prop :=
  r.rawValue = s.value ∧ r.range = s.charRange ∧ r.entity = s.entity ∧ r.slotName = s.slotName

end Snips
