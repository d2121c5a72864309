import Verif.Props.C09_GetSlots

/-! # C10-C13: slot resolution and `extract_slot` -/

namespace Snips

/-- C10: the slots of a parse result are slots of the winning parser: there is a selection (sublist) of
that parser's slots which agrees one to one with the result's slots in raw text, range, entity and slot
name. -/
theorem c10_slot_identity (e : Engine) (o : HashOrd) (w : World) (input : Text)
    (whitelist blacklist : Option (List Text)) (ni ns : Nat) (res : ParseResult)
    (h : (e.parseWithAlternatives o input whitelist blacklist ni ns).run w = .ok res) :
    ∃ eff, e.IsFilterFor whitelist blacklist eff ∧
      (res.slots ≠ [] → ∃ k r, (∀ j < k, e.Abstains (o.sub 1) w input eff j) ∧
        e.parserAnswer (o.sub 1) w input eff k = some (.ok r) ∧ res.intent = r.intent ∧
        ∃ kept, kept.Sublist r.slots ∧ List.Forall₂ SameSlot kept res.slots) := by
  obtain ⟨eff, hf, _, ⟨k, r, h1, h2, _, h4, h5⟩ | ⟨_, _, h3⟩⟩ :=
    c03_result_origin e o w input whitelist blacklist ni ns res h
  · exact ⟨eff, hf, fun _ => ⟨k, r, h1, h2, h4, Engine.resolveSlots_sublist e input r.slots ns w _ h5⟩⟩
  · exact ⟨eff, hf, fun hne => absurd h3 hne⟩

/-- C10 for `get_slots`. -/
theorem c10_slot_identity_get_slots (e : Engine) (o : HashOrd) (w : World) (input intent : Text) (ns : Nat)
    (out : List Slot) (h : (e.getSlotsWithAlternatives o input intent ns).run w = .ok out) (hne : out ≠ []) :
    ∃ k slots, (∀ j < k, e.parserSlots o w input intent j = some (.ok [])) ∧
      e.parserSlots o w input intent k = some (.ok slots) ∧
      ∃ kept, kept.Sublist slots ∧ List.Forall₂ SameSlot kept out := by
  rcases c09_origin e o w input intent ns out h with ⟨_, h1⟩ | ⟨k, slots, h1, h2, _, h4⟩
  · exact absurd h1 hne
  · exact ⟨k, slots, h1, h2, Engine.resolveSlots_sublist e input slots ns w _ h4⟩

/-- Slot resolution treats the slots one by one: `out` lists the outcomes of a per-slot decision `f`, in
order, leaving out the dropped ones.  `customs` and `builtins` are the entities found in the whole
sentence among the entities of the slots at hand. -/
structure Resolution (e : Engine) (w : World) (text : Text) (ns : Nat) (slots : List InternalSlot)
    (out : List Slot) (builtins : List BuiltinEntity) (customs : List CustomEntity)
    (f : InternalSlot → Option Slot) : Prop where
  out_eq : out = slots.filterMap f
  builtins_eq : ∃ scope, w.builtin text (some scope) ns = .ok builtins ∧
    ∀ k, k ∈ scope ↔ ∃ s ∈ slots, e.names.fromStr s.entity = some k
  customs_eq : ∃ scope, w.custom text (some scope) ns = .ok customs ∧
    ∀ i, i ∈ scope ↔ ∃ s ∈ slots, e.names.fromStr s.entity = none ∧ s.entity = i

/-- C11: the decision for a custom slot (its entity is a custom entity of the dataset).
1. a sentence-level match of the entity at exactly the range of the slot decides (the first one);
2. otherwise the last match in the slot's own text, if as long as the raw text;
3. otherwise the slot is kept with its raw text as value if the entity is automatically extensible;
4. and dropped if not. -/
theorem c11_custom_resolution (e : Engine) (w : World) (text : Text) (ns : Nat)
    (slots : List InternalSlot) (hne : slots ≠ []) (out : List Slot)
    (h : (e.resolveSlots text slots ns).run w = .ok out) :
    ∃ builtins customs f, Resolution e w text ns slots out builtins customs f ∧
      ∀ s ∈ slots, ∀ extensible, e.dataset.entities.get s.entity = some extensible →
        (∀ m, customs.find? (fun m => m.identifier = s.entity ∧ m.range = s.charRange) = some m →
          f s = some ⟨s.value, .custom m.resolved, m.alternatives.map .custom, s.charRange, s.entity,
            s.slotName⟩) ∧
        ((∀ m ∈ customs, ¬(m.identifier = s.entity ∧ m.range = s.charRange)) →
          ∃ own, w.custom s.value (some [s.entity]) ns = .ok own ∧
          (∀ m, own.getLast? = some m → m.value.length = s.value.length →
            f s = some ⟨s.value, .custom m.resolved, m.alternatives.map .custom, s.charRange, s.entity,
              s.slotName⟩) ∧
          ((∀ m, own.getLast? = some m → m.value.length ≠ s.value.length) →
            (extensible = true →
              f s = some ⟨s.value, .custom s.value, [], s.charRange, s.entity, s.slotName⟩) ∧
            (extensible = false → f s = none))) := by
  rcases Engine.resolveSlots_run e text slots ns w out h with ⟨h1, _⟩ | ⟨_, builtins, customs, f, hb, hc, ho, hall⟩
  · exact absurd h1 hne
  refine ⟨builtins, customs, f, ⟨ho, ⟨_, hb, ?_⟩, ⟨_, hc, ?_⟩⟩, ?_⟩
  · intro k; simp [Engine.builtinScope]
  · intro i
    simp only [Engine.customScope, List.mem_filterMap]
    constructor
    · rintro ⟨s, hs, h1⟩
      split at h1
      · cases h1
      · rename_i h2
        injection h1 with h1
        exact ⟨s, hs, by simpa using h2, h1⟩
    · rintro ⟨s, hs, h1, h2⟩
      subst h2; exact ⟨s, hs, by simp [h1]⟩
  · intro s hs ext hext
    have hr := hall s hs
    unfold Engine.resolveOne at hr
    simp only [hext] at hr
    rcases Engine.resolveCustomSlot_run _ _ _ _ _ _ hr with ⟨m, hm, hf⟩ | ⟨hm, own, hown, hf⟩
    · refine ⟨fun m' hm' => ?_, fun hnone => ?_⟩
      · rw [hm] at hm'
        injection hm' with hm'
        subst hm'
        exact hf
      · have h1 := List.find?_some hm
        exact absurd (by simpa using h1) (hnone m (List.mem_of_find?_eq_some hm))
    · refine ⟨fun m' hm' => ?_, fun _ => ⟨own, hown, ?_, ?_⟩⟩
      · rw [hm] at hm'; cases hm'
      · intro m hl hlen
        rw [hf, hl]
        simp only [Option.bind_some, hlen, if_true]
        rfl
      · intro hno
        have hb : (own.getLast?.bind fun e => if e.value.length = s.value.length then some e else none)
            = none := by
          cases hl : own.getLast? with
          | none => rfl
          | some m => simp [hno m hl]
        rw [hb] at hf
        refine ⟨fun he => ?_, fun he => ?_⟩
        · subst he; exact hf
        · subst he; exact hf

/-- C12: the decision for a builtin slot (its entity is not a custom entity of the dataset): the call only
succeeds if the entity is a known builtin kind; then
1. a sentence-level match of that kind at exactly the range of the slot decides (the first one);
2. otherwise the last match of that kind in the slot's own text;
3. it is dropped exactly if both find nothing. -/
theorem c12_builtin_resolution (e : Engine) (w : World) (text : Text) (ns : Nat)
    (slots : List InternalSlot) (hne : slots ≠ []) (out : List Slot)
    (h : (e.resolveSlots text slots ns).run w = .ok out) :
    ∃ builtins customs f, Resolution e w text ns slots out builtins customs f ∧
      ∀ s ∈ slots, e.dataset.entities.get s.entity = none →
        ∃ kind, e.names.fromIdentifier s.entity = some kind ∧
        (∀ m, builtins.find? (fun m => m.kind = kind ∧ m.range = s.charRange) = some m →
          f s = some ⟨s.value, m.entity, m.alternatives, s.charRange, s.entity, s.slotName⟩) ∧
        ((∀ m ∈ builtins, ¬(m.kind = kind ∧ m.range = s.charRange)) →
          ∃ own, w.builtin s.value (some [kind]) ns = .ok own ∧
          (∀ m, own.getLast? = some m →
            f s = some ⟨s.value, m.entity, m.alternatives, s.charRange, s.entity, s.slotName⟩) ∧
          (own = [] → f s = none)) := by
  rcases Engine.resolveSlots_run e text slots ns w out h with ⟨h1, _⟩ | ⟨_, builtins, customs, f, hb, hc, ho, hall⟩
  · exact absurd h1 hne
  refine ⟨builtins, customs, f, ⟨ho, ⟨_, hb, ?_⟩, ⟨_, hc, ?_⟩⟩, ?_⟩
  · intro k; simp [Engine.builtinScope]
  · intro i
    simp only [Engine.customScope, List.mem_filterMap]
    constructor
    · rintro ⟨s, hs, h1⟩
      split at h1
      · cases h1
      · rename_i h2
        injection h1 with h1
        exact ⟨s, hs, by simpa using h2, h1⟩
    · rintro ⟨s, hs, h1, h2⟩
      subst h2; exact ⟨s, hs, by simp [h1]⟩
  · intro s hs hent
    have hr := hall s hs
    unfold Engine.resolveOne at hr
    simp only [hent] at hr
    obtain ⟨kind, hk, ⟨m, hm, hf⟩ | ⟨hm, own, hown, hf⟩⟩ := Engine.resolveBuiltinSlot_run _ _ _ _ _ _ hr
    · refine ⟨kind, hk, fun m' hm' => ?_, fun hnone => ?_⟩
      · rw [hm] at hm'
        injection hm' with hm'
        subst hm'
        exact hf
      · have h1 := List.find?_some hm
        exact absurd (by simpa using h1) (hnone m (List.mem_of_find?_eq_some hm))
    · refine ⟨kind, hk, fun m' hm' => ?_, fun _ => ⟨own, hown, ?_, ?_⟩⟩
      · rw [hm] at hm'; cases hm'
      · intro m hl
        rw [hf, hl]
        rfl
      · intro ho
        rw [hf, ho]
        rfl

/-- C12, errors: a slot whose entity is neither a custom entity of the dataset nor a known builtin kind
makes resolution fail: it never succeeds. -/
theorem c12_unknown_entity (e : Engine) (w : World) (text : Text) (ns : Nat) (slots : List InternalSlot)
    (s : InternalSlot) (hs : s ∈ slots) (h1 : e.dataset.entities.get s.entity = none)
    (h2 : e.names.fromIdentifier s.entity = none) (out : List Slot) :
    (e.resolveSlots text slots ns).run w ≠ .ok out := by
  intro h
  have hne : slots ≠ [] := List.ne_nil_of_mem hs
  obtain ⟨_, _, _, _, hall⟩ := c12_builtin_resolution e w text ns slots hne out h
  obtain ⟨kind, hk, _⟩ := hall s hs h1
  rw [h2] at hk; cases hk

/-! ## C13 -/

/-- An unknown intent, or a slot the intent does not have, is an error. -/
theorem c13_unknown (e : Engine) (w : World) (input intent slot : Text) (ns : Nat) :
    (e.dataset.slotNameMappings.get intent = none →
      (e.extractSlotWithAlternatives input intent slot ns).run w = .err (.extractUnknownIntent intent)) ∧
    (∀ m, e.dataset.slotNameMappings.get intent = some m → Map.get m slot = none →
      (e.extractSlotWithAlternatives input intent slot ns).run w = .err (.extractUnknownSlot slot)) := by
  unfold Engine.extractSlotWithAlternatives
  constructor
  · intro h
    rw [h]; rfl
  · intro m h1 h2
    rw [h1, Prog.run_bind', Prog.run_ofOutcome]
    simp only [Outcome.ofOption, Outcome.bind]
    rw [h2]; rfl

/-- For a custom entity: the last match found in the input; else the whole input when the entity is
automatically extensible; else nothing.  An extraction error is the call's. -/
theorem c13_custom (e : Engine) (w : World) (input intent slot : Text) (ns : Nat)
    (m : Map Text Text) (entity : Text) (extensible : Bool)
    (h1 : e.dataset.slotNameMappings.get intent = some m) (h2 : Map.get m slot = some entity)
    (h3 : e.dataset.entities.get entity = some extensible) :
    (∀ es x, w.custom input (some [entity]) ns = .ok (es ++ [x]) →
      (e.extractSlotWithAlternatives input intent slot ns).run w
        = .ok (some ⟨x.value, .custom x.resolved, x.alternatives.map .custom, x.range, entity, slot⟩)) ∧
    (w.custom input (some [entity]) ns = .ok [] → extensible = true →
      (e.extractSlotWithAlternatives input intent slot ns).run w
        = .ok (some ⟨input, .custom input, [], ⟨0, input.length⟩, entity, slot⟩)) ∧
    (w.custom input (some [entity]) ns = .ok [] → extensible = false →
      (e.extractSlotWithAlternatives input intent slot ns).run w = .ok none) ∧
    (∀ er, w.custom input (some [entity]) ns = .err er →
      (e.extractSlotWithAlternatives input intent slot ns).run w = .err er) := by
  have hrun : (e.extractSlotWithAlternatives input intent slot ns).run w
      = (Engine.extractCustomSlot input entity slot extensible ns).run w := by
    unfold Engine.extractSlotWithAlternatives
    rw [h1, Prog.run_bind', Prog.run_ofOutcome]
    simp only [Outcome.ofOption, Outcome.bind]
    rw [h2, Prog.run_bind', Prog.run_ofOutcome]
    simp only [Outcome.bind, h3]
  rw [hrun]
  unfold Engine.extractCustomSlot
  simp only [Prog.run]
  refine ⟨?_, ?_, ?_, ?_⟩
  · intro es x h; rw [h]; simp
  · intro h he; rw [h]; simp [he]
  · intro h he; rw [h]; simp [he]
  · intro er h; rw [h]

/-- For a builtin entity: the first entity found in the input when looking for that kind only, with the
raw text being the input's text at the reported range; nothing if none is found; an entity that is neither
custom nor a known builtin kind is an error. -/
theorem c13_builtin (e : Engine) (w : World) (input intent slot : Text) (ns : Nat)
    (m : Map Text Text) (entity : Text)
    (h1 : e.dataset.slotNameMappings.get intent = some m) (h2 : Map.get m slot = some entity)
    (h3 : e.dataset.entities.get entity = none) :
    (∀ kind, e.names.fromIdentifier entity = some kind →
      (∀ x es, w.builtin input (some [kind]) ns = .ok (x :: es) →
        ∃ res, (e.extractSlotWithAlternatives input intent slot ns).run w = .ok (some res) ∧
          res.range = x.range ∧ res.rawValue = substr input res.range ∧ res.value = x.entity ∧
          res.alternatives = x.alternatives ∧ res.entity = entity ∧ res.slotName = slot) ∧
      (w.builtin input (some [kind]) ns = .ok [] →
        (e.extractSlotWithAlternatives input intent slot ns).run w = .ok none) ∧
      (∀ er, w.builtin input (some [kind]) ns = .err er →
        (e.extractSlotWithAlternatives input intent slot ns).run w = .err er)) ∧
    (e.names.fromIdentifier entity = none →
      (e.extractSlotWithAlternatives input intent slot ns).run w = .err (.unknownBuiltinEntity entity)) := by
  have hrun : (e.extractSlotWithAlternatives input intent slot ns).run w
      = (Engine.extractBuiltinSlot e.names input entity slot ns).run w := by
    unfold Engine.extractSlotWithAlternatives
    rw [h1, Prog.run_bind', Prog.run_ofOutcome]
    simp only [Outcome.ofOption, Outcome.bind]
    rw [h2, Prog.run_bind', Prog.run_ofOutcome]
    simp only [Outcome.bind, h3]
  rw [hrun]
  unfold Engine.extractBuiltinSlot KindNames.fromIdentifierOrErr
  rw [Prog.run_bind', Prog.run_ofOutcome]
  constructor
  · intro kind hk
    rw [hk]
    simp only [Outcome.ofOption, Outcome.bind, Prog.run]
    refine ⟨?_, ?_, ?_⟩
    · intro x es h
      rw [h]
      exact ⟨_, rfl, rfl, rfl, rfl, rfl, rfl, rfl⟩
    · intro h; rw [h]; rfl
    · intro er h; rw [h]
  · intro hk
    rw [hk]; rfl

/-- `extract_slot` is the call without alternatives. -/
theorem c13_extract_slot (e : Engine) (input intent slot : Text) :
    e.extractSlot input intent slot = e.extractSlotWithAlternatives input intent slot 0 := rfl

/-! Non-vacuity. -/

example : (slotDemo.parseWithAlternatives HashOrd.insertion ['x', 'y'] none none 0 0).run numbersEverywhere
    = .ok ⟨['x', 'y'], ⟨some ['a'], 1 / 2⟩, [], []⟩ ∧
    (({ slotDemo with parsers := [wholeInputParser] } : Engine).parseWithAlternatives HashOrd.insertion
      ['x', 'y'] none none 0 0).run numbersEverywhere
    = .ok ⟨['x', 'y'], ⟨some ['a'], 1⟩, [⟨['x', 'y'], .builtin 7, [], ⟨0, 2⟩, ['n'], ['s']⟩], []⟩ := by
  decide +kernel

/-- A sentence with one slot of each sort: builtin, extensible custom (kept raw), strict custom
(dropped). -/
example : (slotDemo.resolveSlots ['x', 'y', 'z']
      [⟨['x'], ⟨0, 1⟩, ['n'], ['s']⟩, ⟨['y'], ⟨1, 2⟩, ['c'], ['t']⟩, ⟨['z'], ⟨2, 3⟩, ['d'], ['u']⟩] 0).run
      numbersEverywhere
    = .ok [⟨['x'], .builtin 7, [], ⟨0, 1⟩, ['n'], ['s']⟩, ⟨['y'], .custom ['y'], [], ⟨1, 2⟩, ['c'], ['t']⟩] := by
  decide +kernel

/-- An unknown entity. -/
example : slotDemo.dataset.entities.get ['q'] = none ∧ slotDemo.names.fromIdentifier ['q'] = none := by
  decide

example : (slotDemo.extractSlot ['x'] ['a'] ['s']).run numbersEverywhere
      = .ok (some ⟨['x'], .builtin 7, [], ⟨0, 1⟩, ['n'], ['s']⟩) ∧
    (slotDemo.extractSlot ['x'] ['a'] ['t']).run numbersEverywhere
      = .ok (some ⟨['x'], .custom ['x'], [], ⟨0, 1⟩, ['c'], ['t']⟩) ∧
    (slotDemo.extractSlot ['x'] ['a'] ['u']).run numbersEverywhere = .ok none ∧
    (slotDemo.extractSlot ['x'] ['b'] ['u']).run numbersEverywhere = .err (.extractUnknownIntent ['b']) ∧
    (slotDemo.extractSlot ['x'] ['a'] ['w']).run numbersEverywhere = .err (.extractUnknownSlot ['w']) := by
  decide +kernel

end Snips
