import Verif.Props.C10_Resolution
import Verif.Props.C21_Cache

/-! # C25: resolved builtin values are fresh

`x.builtinRaw t s kinds n` is what the builtin extractor answers when asked at time `t`. -/

namespace Snips

/-- The value (and alternatives) of a slot come from an extraction made at time `t`. -/
def FreshAt (x : Ext) (t ns : Nat) (s : Slot) : Prop :=
  ∃ text kinds es b, x.builtinRaw t text kinds ns = .ok es ∧ b ∈ es ∧
    s.value = b.entity ∧ s.alternatives = b.alternatives

theorem resolveSlots_fresh (x : Ext) (t : Nat) (e : Engine) (text : Text) (slots : List InternalSlot)
    (ns : Nat) (out : List Slot) (h : (e.resolveSlots text slots ns).run (x.world t) = .ok out) :
    ∀ s ∈ out, e.dataset.entities.get s.entity = none → FreshAt x t ns s := by
  intro s hs hent
  rcases Engine.resolveSlots_run e text slots ns _ out h with ⟨_, rfl⟩ | ⟨_, builtins, customs, f, hb, hc, ho, hall⟩
  · simp at hs
  · subst ho
    obtain ⟨i, hi, hf⟩ := List.mem_filterMap.1 hs
    have hr := hall i hi
    rw [hf] at hr
    have hsame := Engine.resolveOne_same _ _ _ _ _ _ _ hr
    rw [hsame.2.2.1] at hent
    unfold Engine.resolveOne at hr
    simp only [hent] at hr
    obtain ⟨kind, hk, ⟨m, hm, hf⟩ | ⟨hm, own, hown, hf⟩⟩ := Engine.resolveBuiltinSlot_run _ _ _ _ _ _ hr
    · injection hf with hf
      subst hf
      exact ⟨_, _, builtins, m, hb, List.mem_of_find?_eq_some hm, rfl, rfl⟩
    · cases hl : own.getLast? with
      | none => rw [hl] at hf; cases hf
      | some m =>
        rw [hl] at hf
        simp only [Option.map_some, Option.some.injEq] at hf
        subst hf
        exact ⟨_, _, own, m, hown, List.mem_of_getLast? hl, rfl, rfl⟩

/-- After any history of calls, a parse at time `t` reports for every builtin slot, of the main result
and of the alternatives, a value extracted at time `t`. -/
theorem c25_parse_fresh {α : Type} (x : Ext) (hts : x.TimeStable) (hnp : x.NoPanic) (cap : Nat)
    (past : List (Nat × Prog α)) (t : Nat) (e : Engine) (o : HashOrd) (input : Text)
    (whitelist blacklist : Option (List Text)) (ni ns : Nat) (res : ParseResult)
    (h : ((e.parseWithAlternatives o input whitelist blacklist ni ns).runCached x t
      (runHistory x past (Caches.empty cap)).2).1 = .ok res) :
    (∀ s ∈ res.slots, e.dataset.entities.get s.entity = none → FreshAt x t ns s) ∧
    (∀ a ∈ res.alternatives, ∀ s ∈ a.slots, e.dataset.entities.get s.entity = none → FreshAt x t ns s) := by
  obtain ⟨_, h2, h3⟩ := runHistory_spec hts hnp past _ (Caches.empty_sound x cap) (Caches.empty_healthy cap)
  rw [(runCached_spec hts hnp t _ _ h2 h3).1] at h
  constructor
  · obtain ⟨eff, _, _, ⟨k, r, _, _, _, _, h5⟩ | ⟨_, _, h6⟩⟩ := c03_result_origin e o _ input _ _ _ _ _ h
    · exact resolveSlots_fresh x t e input r.slots ns _ h5
    · simp [h6]
  · intro a ha
    obtain ⟨j, hj⟩ := List.getElem?_of_mem ha
    cases hn : a.intent.name with
    | none =>
      have := (c07_alternatives e o _ input _ _ _ _ _ h).2.2.2.1 a ha hn
      simp [this]
    | some n =>
      have := c07_alternative_slots e o _ input _ _ _ _ _ h j a hj n hn
      rcases c09_origin e _ _ input n ns _ this with ⟨_, h1⟩ | ⟨k, slots, _, _, _, h4⟩
      · simp [h1]
      · exact resolveSlots_fresh x t e input slots ns _ h4

/-- The same for `get_slots`. -/
theorem c25_get_slots_fresh {α : Type} (x : Ext) (hts : x.TimeStable) (hnp : x.NoPanic) (cap : Nat)
    (past : List (Nat × Prog α)) (t : Nat) (e : Engine) (o : HashOrd) (input intent : Text) (ns : Nat)
    (out : List Slot)
    (h : ((e.getSlotsWithAlternatives o input intent ns).runCached x t
      (runHistory x past (Caches.empty cap)).2).1 = .ok out) :
    ∀ s ∈ out, e.dataset.entities.get s.entity = none → FreshAt x t ns s := by
  obtain ⟨_, h2, h3⟩ := runHistory_spec hts hnp past _ (Caches.empty_sound x cap) (Caches.empty_healthy cap)
  rw [(runCached_spec hts hnp t _ _ h2 h3).1] at h
  rcases c09_origin e _ _ input intent ns _ h with ⟨_, h1⟩ | ⟨k, slots, _, _, _, h4⟩
  · simp [h1]
  · exact resolveSlots_fresh x t e input slots ns _ h4

/-- The same for `extract_slot`. -/
theorem c25_extract_slot_fresh {α : Type} (x : Ext) (hts : x.TimeStable) (hnp : x.NoPanic) (cap : Nat)
    (past : List (Nat × Prog α)) (t : Nat) (e : Engine) (input intent slot : Text) (ns : Nat) (s : Slot)
    (h : ((e.extractSlotWithAlternatives input intent slot ns).runCached x t
      (runHistory x past (Caches.empty cap)).2).1 = .ok (some s))
    (hent : e.dataset.entities.get s.entity = none) : FreshAt x t ns s := by
  obtain ⟨_, h2, h3⟩ := runHistory_spec hts hnp past _ (Caches.empty_sound x cap) (Caches.empty_healthy cap)
  rw [(runCached_spec hts hnp t _ _ h2 h3).1] at h
  cases h1 : e.dataset.slotNameMappings.get intent with
  | none => rw [(c13_unknown e _ input intent slot ns).1 h1] at h; cases h
  | some m =>
    cases h4 : Map.get m slot with
    | none => rw [(c13_unknown e _ input intent slot ns).2 m h1 h4] at h; cases h
    | some entity =>
      cases h5 : e.dataset.entities.get entity with
      | some ext =>
        exfalso
        have hrun : (e.extractSlotWithAlternatives input intent slot ns).run (x.world t)
            = (Engine.extractCustomSlot input entity slot ext ns).run (x.world t) := by
          unfold Engine.extractSlotWithAlternatives
          rw [h1, Prog.run_bind', Prog.run_ofOutcome]
          simp only [Outcome.ofOption, Outcome.bind]
          rw [h4, Prog.run_bind', Prog.run_ofOutcome]
          simp only [Outcome.bind, h5]
        rw [hrun, Engine.extractCustomSlot, Prog.run_custom_ok] at h
        obtain ⟨es, _, h⟩ := h
        simp only [Prog.run_ret, Outcome.ok.injEq] at h
        cases hl : es.getLast? with
        | some m =>
          simp only [hl, Option.some.injEq] at h
          rw [← h, h5] at hent; cases hent
        | none =>
          simp only [hl] at h
          split at h
          · simp only [Option.some.injEq] at h
            rw [← h, h5] at hent; cases hent
          · cases h
      | none =>
        have hrun : (e.extractSlotWithAlternatives input intent slot ns).run (x.world t)
            = (Engine.extractBuiltinSlot e.names input entity slot ns).run (x.world t) := by
          unfold Engine.extractSlotWithAlternatives
          rw [h1, Prog.run_bind', Prog.run_ofOutcome]
          simp only [Outcome.ofOption, Outcome.bind]
          rw [h4, Prog.run_bind', Prog.run_ofOutcome]
          simp only [Outcome.bind, h5]
        rw [hrun, Engine.extractBuiltinSlot, Prog.run_bind_ok] at h
        obtain ⟨kind, _, h⟩ := h
        rw [Prog.run_builtinFresh_ok] at h
        obtain ⟨es, hes, h⟩ := h
        simp only [Prog.run_ret, Outcome.ok.injEq] at h
        cases es with
        | nil => cases h
        | cons b es =>
          simp only [List.head?_cons, Option.map_some, Option.some.injEq] at h
          subst h
          exact ⟨_, _, _, b, hes, by simp, rfl, rfl⟩

/-! Non-vacuity: with the "now" extractor the value of the slot is the time of the call, on the second
call as well. -/

example :
    let e : Engine := { slotDemo with parsers := [wholeInputParser] }
    let call := e.parse HashOrd.insertion ['x', 'y'] none none
    (runHistory demoExt [(1, call), (2, call)] (Caches.empty 5)).1.map (Outcome.map fun r => r.slots.map Slot.value)
      = [.ok [.builtin 1], .ok [.builtin 2]] := by
  decide +kernel

end Snips
