import Verif.Props.C10_Resolution

/-! # C12: the error for an entity that is neither custom nor builtin -/

namespace Snips

/-- The entity of the slot is neither a custom entity of the dataset nor a builtin one. -/
def Engine.UnknownEntity (e : Engine) (s : InternalSlot) : Prop :=
  e.dataset.entities.get s.entity = none ∧ e.names.fromIdentifier s.entity = none

theorem resolveOne_total (e : Engine) (w : World) (ns : Nat) (builtins : List BuiltinEntity)
    (customs : List CustomEntity) (s : InternalSlot)
    (hb : ∀ t kinds n, ∃ es, w.builtin t kinds n = .ok es) (hc : ∀ t kinds n, ∃ es, w.custom t kinds n = .ok es) :
    (e.UnknownEntity s → (e.resolveOne ns builtins customs s).run w = .err (.unknownBuiltinEntity s.entity)) ∧
    (¬ e.UnknownEntity s → ∃ r, (e.resolveOne ns builtins customs s).run w = .ok r) := by
  unfold Engine.UnknownEntity Engine.resolveOne
  cases h1 : e.dataset.entities.get s.entity with
  | some ext =>
    refine ⟨fun h => absurd h.1 (by simp), fun _ => ?_⟩
    obtain ⟨es, hes⟩ := hc s.value (some [s.entity]) ns
    simp only [resolveCustomSlot]
    cases customs.find? (fun x => x.identifier = s.entity ∧ x.range = s.charRange) with
    | some m => exact ⟨_, rfl⟩
    | none => simp only [Prog.run, hes]; exact ⟨_, rfl⟩
  | none =>
    cases h2 : e.names.fromIdentifier s.entity with
    | none =>
      refine ⟨fun _ => ?_, fun h => absurd ⟨rfl, rfl⟩ h⟩
      unfold resolveBuiltinSlot
      rw [Prog.run_bind', Prog.run_ofOutcome]
      simp [KindNames.fromIdentifierOrErr, h2, Outcome.bind, Outcome.ofOption]
    | some kind =>
      refine ⟨fun h => absurd h.2 (by simp), fun _ => ?_⟩
      obtain ⟨es, hes⟩ := hb s.value (some [kind]) ns
      unfold resolveBuiltinSlot
      rw [Prog.run_bind', Prog.run_ofOutcome]
      simp only [KindNames.fromIdentifierOrErr, h2, Outcome.bind, Outcome.ofOption]
      cases builtins.find? (fun x => x.kind = kind ∧ x.range = s.charRange) with
      | some m => exact ⟨_, rfl⟩
      | none => simp only [Prog.run, hes]; exact ⟨_, rfl⟩

/-- When the extractors answer, resolving the slots `before ++ s :: after`, where `s` is the first slot whose
entity is unknown, fails with the error that names the entity of `s`; and resolving slots whose entities are
all known succeeds. -/
theorem c12_unknown_entity_error (e : Engine) (w : World) (text : Text) (ns : Nat)
    (hb : ∀ t kinds n, ∃ es, w.builtin t kinds n = .ok es) (hc : ∀ t kinds n, ∃ es, w.custom t kinds n = .ok es) :
    (∀ before s after, (∀ s' ∈ before, ¬ e.UnknownEntity s') → e.UnknownEntity s →
      (e.resolveSlots text (before ++ s :: after) ns).run w = .err (.unknownBuiltinEntity s.entity)) ∧
    ∀ slots, (∀ s ∈ slots, ¬ e.UnknownEntity s) → ∃ out, (e.resolveSlots text slots ns).run w = .ok out := by
  have herr : ∀ builtins customs before s after, (∀ s' ∈ before, ¬ e.UnknownEntity s') → e.UnknownEntity s →
      (e.resolveEach ns builtins customs (before ++ s :: after)).run w = .err (.unknownBuiltinEntity s.entity) := by
    intro builtins customs before s after hbef hs
    induction before with
    | nil =>
      rw [List.nil_append, Engine.resolveEach, Prog.run_bind',
        (resolveOne_total e w ns builtins customs s hb hc).1 hs]
      rfl
    | cons x xs ih =>
      obtain ⟨r, hr⟩ := (resolveOne_total e w ns builtins customs x hb hc).2 (hbef x (by simp))
      rw [List.cons_append, Engine.resolveEach, Prog.run_bind', hr]
      simp only [Outcome.bind]
      rw [Prog.run_bind', ih fun s' h' => hbef s' (by simp [h'])]
      rfl
  have hok : ∀ builtins customs slots, (∀ s ∈ slots, ¬ e.UnknownEntity s) →
      ∃ out, (e.resolveEach ns builtins customs slots).run w = .ok out := by
    intro builtins customs slots hs
    induction slots with
    | nil => exact ⟨[], rfl⟩
    | cons x xs ih =>
      obtain ⟨r, hr⟩ := (resolveOne_total e w ns builtins customs x hb hc).2 (hs x (by simp))
      obtain ⟨rest, hrest⟩ := ih fun s' h' => hs s' (by simp [h'])
      rw [Engine.resolveEach, Prog.run_bind', hr]
      simp only [Outcome.bind]
      rw [Prog.run_bind', hrest]
      exact ⟨_, rfl⟩
  constructor
  · intro before s after hbef hs
    unfold Engine.resolveSlots
    rw [if_neg (by simp)]
    obtain ⟨bs, hbs⟩ := hb text (some ((before ++ s :: after).filterMap fun s => e.names.fromStr s.entity)) ns
    obtain ⟨cs, hcs⟩ := hc text (some ((before ++ s :: after).filterMap fun s =>
      if (e.names.fromStr s.entity).isSome then none else some s.entity)) ns
    simp only [Prog.run, hbs, hcs]
    exact herr bs cs before s after hbef hs
  · intro slots hs
    unfold Engine.resolveSlots
    split
    · exact ⟨[], rfl⟩
    · obtain ⟨bs, hbs⟩ := hb text (some (slots.filterMap fun s => e.names.fromStr s.entity)) ns
      obtain ⟨cs, hcs⟩ := hc text (some (slots.filterMap fun s =>
        if (e.names.fromStr s.entity).isSome then none else some s.entity)) ns
      simp only [Prog.run, hbs, hcs]
      exact hok bs cs slots hs

/-! Non-vacuity: the demo engine knows the builtin entity `n`; it does not know `zzz`. -/

example : slotDemo.UnknownEntity ⟨['x'], ⟨0, 1⟩, "zzz".toList, ['s']⟩ ∧
    ¬ slotDemo.UnknownEntity ⟨['x'], ⟨0, 1⟩, ['n'], ['s']⟩ ∧
    (slotDemo.resolveSlots ['x'] [⟨['x'], ⟨0, 1⟩, ['n'], ['s']⟩, ⟨['x'], ⟨0, 1⟩, "zzz".toList, ['s']⟩] 0).run
      noEntities = .err (.unknownBuiltinEntity "zzz".toList) ∧
    (∀ t kinds n, ∃ es, noEntities.builtin t kinds n = .ok es) ∧
    ∀ t kinds n, ∃ es, noEntities.custom t kinds n = .ok es := by
  refine ⟨⟨by decide, by decide⟩, fun h => absurd h.2 (by decide), by decide +kernel, fun _ _ _ => ⟨_, rfl⟩, fun _ _ _ => ⟨_, rfl⟩⟩

end Snips
