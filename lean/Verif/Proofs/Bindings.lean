import Verif.Proofs.Ffi
import Verif.Proofs.Readers
import Verif.Spec.Bindings

/-! Lemmas about the bindings for Python, Kotlin and Swift. -/

namespace Snips

variable {κ : Type}

open CM

/-! ### Engines are poisoned by panics only -/

/-- Code that poisons no engine unless it panics. -/
def CM.Calm {α : Type} (m : CM κ α) : Prop := ∀ s, (m s).1 ≠ .panic → ∀ a h, s.engines a = some h →
  ∃ h', (m s).2.engines a = some h' ∧ h'.poisoned = h.poisoned

theorem CM.calm_same {α : Type} {m : CM κ α} (h : ∀ s, (m s).2 = s) : Calm m := fun s _ a hd hh =>
  ⟨hd, by rw [h]; exact hh, rfl⟩

theorem CM.calm_bind {α β : Type} {m : CM κ α} {f : α → CM κ β} (hm : Calm m) (hf : ∀ a, Calm (f a)) :
    Calm (m >>= f) := by
  intro s hp a h hh
  have hb : (m >>= f) s = CM.bind m f s := rfl
  rw [hb] at hp ⊢
  unfold CM.bind at hp ⊢
  rcases hr : m s with ⟨r, s1⟩
  have h1 := hm s
  rw [hr] at hp h1
  cases r with
  | ok x =>
    obtain ⟨h', e1, e2⟩ := h1 (by simp) a h hh
    obtain ⟨h'', e3, e4⟩ := hf x s1 hp a h' e1
    exact ⟨h'', e3, e4.trans e2⟩
  | err e => exact h1 (by simp) a h hh
  | panic => exact absurd rfl hp
  | undefined => exact h1 (by simp) a h hh

theorem CM.calm_callEngine {α : Type} (c : CCirc) (client : Addr) (p : Prog α) : Calm (callEngine c client p : CM κ α) := by
  intro s _ a h hh
  unfold callEngine
  cases he : s.engines client with
  | none => exact ⟨h, hh, rfl⟩
  | some hd =>
    simp only
    rw [lift_same]
    by_cases ha : a = client
    · subst ha
      rw [he] at hh
      cases hh
      exact ⟨_, if_pos rfl, rfl⟩
    · exact ⟨h, by simp only [if_neg ha]; exact hh, rfl⟩

theorem CM.calm_give (v : Addr) (x : CObj κ) : Calm (give v x) := by
  intro s _ a h hh
  unfold give
  cases s.vars v with
  | none => exact ⟨h, hh, rfl⟩
  | some _ => exact ⟨h, hh, rfl⟩

theorem CM.calm_pointToString (v : Addr) (b : List Nat) : Calm (pointToString v b : CM κ Unit) := by
  intro s hp a h hh
  unfold pointToString at hp ⊢
  by_cases h0 : 0 ∈ b
  · rw [if_pos h0] at hp ⊢
    exact ⟨h, hh, rfl⟩
  · rw [if_neg h0] at hp ⊢
    exact calm_give v _ s hp a h hh

theorem CM.calm_withEngine {client : Addr} {body : Engine → CM κ Unit} (hb : ∀ e, Calm (body e)) :
    Calm (withEngine client body) := by
  intro s hp a h hh
  unfold withEngine at hp ⊢
  by_cases h0 : client = 0
  · rw [if_pos h0] at hp ⊢
    exact ⟨h, hh, rfl⟩
  · rw [if_neg h0] at hp ⊢
    cases he : s.engines client with
    | none => exact ⟨h, hh, rfl⟩
    | some hd =>
      rw [he] at hp
      simp only at hp ⊢
      by_cases hpo : hd.poisoned = true
      · rw [if_pos hpo]
        exact ⟨h, hh, rfl⟩
      · rw [if_neg hpo] at hp ⊢
        unfold withGuard at hp ⊢
        have h1 := hb hd.engine s
        rcases hr : body hd.engine s with ⟨r, s1⟩
        rw [hr] at hp h1
        cases r with
        | ok x => exact h1 (by simp) a h hh
        | err e => exact h1 (by simp) a h hh
        | panic => exact absurd rfl hp
        | undefined => exact h1 (by simp) a h hh

/-- No question poisons an engine unless it panics. -/
theorem query_calm (env : CEnv κ) (c : CCirc) {call : CCall} {client : Addr} (hq : call.client = some client) :
    Calm (call.body env c) := by
  have hs := fun p => calm_same (rustString_same (κ := κ) env p)
  have hf := fun p => calm_same (filterArg_same (κ := κ) env p)
  have hl : ∀ {α : Type} (o : Outcome α), Calm (lift o : CM κ α) := fun o => calm_same (lift_same o)
  have parse : ∀ client input wl bl ni ns v, Calm (runParseWithAlternatives env c client input wl bl ni ns v) := by
    intro client input wl bl ni ns v
    exact calm_bind (hs _) fun _ => calm_withEngine fun _ => calm_bind (hf _) fun _ => calm_bind (hf _) fun _ =>
      calm_bind (calm_callEngine _ _ _) fun _ => calm_bind (hl _) fun _ => calm_give _ _
  have slots : ∀ client input intent ns v, Calm (runGetSlots env c client input intent ns v) := by
    intro client input intent ns v
    exact calm_bind (hs _) fun _ => calm_bind (hs _) fun _ => calm_withEngine fun _ =>
      calm_bind (calm_callEngine _ _ _) fun _ => calm_bind (hl _) fun _ => calm_give _ _
  have intents : ∀ client input v, Calm (runGetIntents env c client input v) := by
    intro client input v
    exact calm_bind (hs _) fun _ => calm_withEngine fun _ =>
      calm_bind (calm_callEngine _ _ _) fun _ => calm_bind (hl _) fun _ => calm_give _ _
  have parse' : ∀ client input wl bl ni ns v, Calm (runParseWithAlternativesIntoJson env c client input wl bl ni ns v) := by
    intro client input wl bl ni ns v
    exact calm_bind (hs _) fun _ => calm_withEngine fun _ => calm_bind (hf _) fun _ => calm_bind (hf _) fun _ =>
      calm_bind (calm_callEngine _ _ _) fun _ => calm_bind (hl _) fun _ => calm_pointToString _ _
  have slots' : ∀ client input intent ns v, Calm (runGetSlotsIntoJson env c client input intent ns v) := by
    intro client input intent ns v
    exact calm_bind (hs _) fun _ => calm_bind (hs _) fun _ => calm_withEngine fun _ =>
      calm_bind (calm_callEngine _ _ _) fun _ => calm_bind (hl _) fun _ => calm_pointToString _ _
  have intents' : ∀ client input v, Calm (runGetIntentsIntoJson env c client input v) := by
    intro client input v
    exact calm_bind (hs _) fun _ => calm_withEngine fun _ =>
      calm_bind (calm_callEngine _ _ _) fun _ => calm_bind (hl _) fun _ => calm_pointToString _ _
  cases call <;> cases hq
  · exact parse _ _ _ _ _ _ _
  · exact parse _ _ _ _ _ _ _
  · exact slots _ _ _ _ _
  · exact slots _ _ _ _ _
  · exact intents _ _ _
  · exact parse' _ _ _ _ _ _ _
  · exact parse' _ _ _ _ _ _ _
  · exact slots' _ _ _ _ _
  · exact slots' _ _ _ _ _
  · exact intents' _ _ _

/-! ### Code of wrappers -/

namespace HM

variable {α β : Type}

theorem bind_ok {m : HM κ α} {f : α → HM κ β} {s s1 : HMem κ} {a : α} (h : m s = (.ok a, s1)) :
    (m >>= f) s = f a s1 := by
  change HM.bind m f s = _
  unfold HM.bind
  rw [h]

theorem bind_throws {m : HM κ α} {f : α → HM κ β} {s s1 : HMem κ} {e : HostError} (h : m s = (.throws e, s1)) :
    (m >>= f) s = (.throws e, s1) := by
  change HM.bind m f s = _
  unfold HM.bind
  rw [h]

theorem bind_panic {m : HM κ α} {f : α → HM κ β} {s s1 : HMem κ} (h : m s = (.panic, s1)) :
    (m >>= f) s = (.panic, s1) := by
  change HM.bind m f s = _
  unfold HM.bind
  rw [h]

theorem bind_undefined {m : HM κ α} {f : α → HM κ β} {s s1 : HMem κ} (h : m s = (.undefined, s1)) :
    (m >>= f) s = (.undefined, s1) := by
  change HM.bind m f s = _
  unfold HM.bind
  rw [h]

theorem bind_trap {m : HM κ α} {f : α → HM κ β} {s s1 : HMem κ} (h : m s = (.trap, s1)) :
    (m >>= f) s = (.trap, s1) := by
  change HM.bind m f s = _
  unfold HM.bind
  rw [h]

theorem finally_ok {m : HM κ α} {f : HM κ Unit} {s s1 s2 : HMem κ} {a : α} (h : m s = (.ok a, s1))
    (hf : f s1 = (.ok (), s2)) : finally' m f s = (.ok a, s2) := by
  unfold finally'
  rw [h]
  simp only
  exact bind_ok (f := fun _ => HM.pure a) hf

theorem finally_throws {m : HM κ α} {f : HM κ Unit} {s s1 s2 : HMem κ} {e : HostError} (h : m s = (.throws e, s1))
    (hf : f s1 = (.ok (), s2)) : finally' m f s = (.throws e, s2) := by
  unfold finally'
  rw [h]
  simp only
  exact bind_ok (f := fun _ => throws e) hf

theorem finally_panic {m : HM κ α} {f : HM κ Unit} {s s1 : HMem κ} (h : m s = (.panic, s1)) :
    finally' m f s = (.panic, s1) := by
  unfold finally'
  rw [h]

theorem readVar_some {v p : Addr} {s : HMem κ} (h : s.c.vars v = some p) : readVar v s = (.ok p, s) := by
  unfold readVar
  rw [h]

theorem readObject_some {sel : CObj κ → Option β} {v p : Addr} {x : β} {s : HMem κ} (h : s.c.vars v = some p)
    {y : CObj κ} (hy : s.c.objects p = some y) (hx : sel y = some x) : readObject sel v s = (.ok x, s) := by
  unfold readObject
  rw [h]
  simp only
  rw [hy]
  simp only [Option.bind_some]
  rw [hx]

end HM

open HM

/-! ### What calls do -/

theorem SameEngines.refl (s : CMem κ) : SameEngines s s := fun _ => ⟨id, fun h hh => ⟨h, hh, rfl, rfl, rfl⟩⟩

theorem SameEngines.trans {s1 s2 s3 : CMem κ} (h : SameEngines s1 s2) (h' : SameEngines s2 s3) : SameEngines s1 s3 :=
  fun a => ⟨fun hn => (h' a).1 ((h a).1 hn), fun hd hh => by
    obtain ⟨h2, e1, e2, e3, e4⟩ := (h a).2 hd hh
    obtain ⟨h3, f1, f2, f3, f4⟩ := (h' a).2 h2 e1
    exact ⟨h3, f1, f2.trans e2, f3.trans e3, f4.trans e4⟩⟩

theorem SameEngines.of_eq {s s' : CMem κ} (h : s'.engines = s.engines) : SameEngines s s' := fun a =>
  ⟨fun hn => by rw [h]; exact hn, fun hd hh => ⟨hd, by rw [h]; exact hh, rfl, rfl, rfl⟩⟩

/-- `Kept` with the bookkeeping of addresses. -/
structure Kept' (s s' : HMem κ) : Prop extends Kept s s' where
  next : s.c.next ≤ s'.c.next
  host : s.host ≤ s'.host

theorem Kept'.refl (s : HMem κ) : Kept' s s :=
  ⟨⟨rfl, rfl, rfl, rfl, rfl, SameEngines.refl _⟩, Nat.le_refl _, Nat.le_refl _⟩

theorem Kept'.trans {s1 s2 s3 : HMem κ} (h : Kept' s1 s2) (h' : Kept' s2 s3) : Kept' s1 s3 :=
  ⟨⟨h'.strings.trans h.strings, h'.arrays.trans h.arrays, h'.bytes.trans h.bytes, h'.vars.trans h.vars,
    h'.objects.trans h.objects, h.engines.trans h'.engines⟩, Nat.le_trans h.next h'.next, Nat.le_trans h.host h'.host⟩

theorem Kept'.tidy {s s' : HMem κ} (h : Kept' s s') (ht : s.Tidy) : s'.Tidy := by
  refine ⟨⟨Nat.lt_of_lt_of_le ht.c.pos h.next, ⟨?_, (h.engines 0).1 ht.c.null.2⟩, fun a ha => ⟨?_, ?_⟩⟩,
    Nat.lt_of_lt_of_le ht.pos h.host, fun a ha => ?_⟩
  · rw [h.objects]; exact ht.c.null.1
  · rw [h.objects]; exact (ht.c.fresh a (Nat.le_trans h.next ha)).1
  · exact (h.engines a).1 (ht.c.fresh a (Nat.le_trans h.next ha)).2
  · rw [h.strings, h.arrays, h.bytes, h.vars]
    exact ht.fresh a (Nat.le_trans h.host ha)

/-! ### Memory for the time of a call -/

theorem tidy_setString {s : HMem κ} (ht : s.Tidy) (v : Option (List Nat)) : (s.taken.setString s.host v).Tidy :=
  ⟨⟨ht.c.pos, ht.c.null, ht.c.fresh⟩, Nat.succ_pos _, fun a ha => by
    have ha' : s.host + 1 ≤ a := ha
    have h := ht.fresh a (Nat.le_trans (Nat.le_succ _) ha')
    refine ⟨?_, h.2⟩
    change (if a = s.host then v else s.c.strings a) = none
    rw [if_neg (Nat.ne_of_gt ha')]; exact h.1⟩

theorem tidy_setArray {s : HMem κ} (ht : s.Tidy) (v : Option (List Addr)) : (s.taken.setArray s.host v).Tidy :=
  ⟨⟨ht.c.pos, ht.c.null, ht.c.fresh⟩, Nat.succ_pos _, fun a ha => by
    have ha' : s.host + 1 ≤ a := ha
    have h := ht.fresh a (Nat.le_trans (Nat.le_succ _) ha')
    refine ⟨h.1, ?_, h.2.2⟩
    change (if a = s.host then v else s.c.arrays a) = none
    rw [if_neg (Nat.ne_of_gt ha')]; exact h.2.1⟩

theorem tidy_setBytes {s : HMem κ} (ht : s.Tidy) (v : Option (List Nat)) : (s.taken.setBytes s.host v).Tidy :=
  ⟨⟨ht.c.pos, ht.c.null, ht.c.fresh⟩, Nat.succ_pos _, fun a ha => by
    have ha' : s.host + 1 ≤ a := ha
    have h := ht.fresh a (Nat.le_trans (Nat.le_succ _) ha')
    refine ⟨h.1, h.2.1, ?_, h.2.2.2⟩
    change (if a = s.host then v else s.c.bytes a) = none
    rw [if_neg (Nat.ne_of_gt ha')]; exact h.2.2.1⟩

theorem tidy_setVar {s : HMem κ} (ht : s.Tidy) (v : Option Addr) : (s.taken.setVar s.host v).Tidy :=
  ⟨⟨ht.c.pos, ht.c.null, ht.c.fresh⟩, Nat.succ_pos _, fun a ha => by
    have ha' : s.host + 1 ≤ a := ha
    have h := ht.fresh a (Nat.le_trans (Nat.le_succ _) ha')
    refine ⟨h.1, h.2.1, h.2.2.1, ?_⟩
    change (if a = s.host then v else s.c.vars a) = none
    rw [if_neg (Nat.ne_of_gt ha')]; exact h.2.2.2⟩

theorem restore {β : Type} {f g : Addr → Option β} {p : Addr} {v : Option β} (hg : g = fun a => if a = p then v else f a)
    (hp : f p = none) : (fun a => if a = p then none else g a) = f := by
  funext a
  by_cases h : a = p
  · rw [if_pos h, h, hp]
  · rw [if_neg h, hg]
    exact if_neg h

theorem kept_string {s s' : HMem κ} (ht : s.Tidy) {v : Option (List Nat)}
    (h : Kept' (s.taken.setString s.host v) s') : Kept' s (s'.setString s.host none) :=
  ⟨⟨restore h.strings (ht.fresh _ (Nat.le_refl _)).1, h.arrays, h.bytes, h.vars, h.objects, h.engines⟩, h.next,
    Nat.le_trans (Nat.le_succ _) h.host⟩

theorem kept_array {s s' : HMem κ} (ht : s.Tidy) {v : Option (List Addr)}
    (h : Kept' (s.taken.setArray s.host v) s') : Kept' s (s'.setArray s.host none) :=
  ⟨⟨h.strings, restore h.arrays (ht.fresh _ (Nat.le_refl _)).2.1, h.bytes, h.vars, h.objects, h.engines⟩, h.next,
    Nat.le_trans (Nat.le_succ _) h.host⟩

theorem kept_bytes {s s' : HMem κ} (ht : s.Tidy) {v : Option (List Nat)}
    (h : Kept' (s.taken.setBytes s.host v) s') : Kept' s (s'.setBytes s.host none) :=
  ⟨⟨h.strings, h.arrays, restore h.bytes (ht.fresh _ (Nat.le_refl _)).2.2.1, h.vars, h.objects, h.engines⟩, h.next,
    Nat.le_trans (Nat.le_succ _) h.host⟩

/-- `Kept'` except for one variable. -/
structure KeptBut (v : Addr) (s s' : HMem κ) : Prop where
  strings : s'.c.strings = s.c.strings
  arrays : s'.c.arrays = s.c.arrays
  bytes : s'.c.bytes = s.c.bytes
  vars : ∀ a, a ≠ v → s'.c.vars a = s.c.vars a
  objects : s'.c.objects = s.c.objects
  engines : SameEngines s.c s'.c
  next : s.c.next ≤ s'.c.next
  host : s.host ≤ s'.host

theorem Kept'.but {s s' : HMem κ} (h : Kept' s s') (v : Addr) : KeptBut v s s' :=
  ⟨h.strings, h.arrays, h.bytes, fun a _ => by rw [h.vars], h.objects, h.engines, h.next, h.host⟩

theorem KeptBut.trans {v : Addr} {s1 s2 s3 : HMem κ} (h : KeptBut v s1 s2) (h' : KeptBut v s2 s3) : KeptBut v s1 s3 :=
  ⟨h'.strings.trans h.strings, h'.arrays.trans h.arrays, h'.bytes.trans h.bytes,
    fun a ha => (h'.vars a ha).trans (h.vars a ha),
    h'.objects.trans h.objects, h.engines.trans h'.engines, Nat.le_trans h.next h'.next, Nat.le_trans h.host h'.host⟩

theorem kept_var {s s' : HMem κ} (ht : s.Tidy) {w : Option Addr} (h : KeptBut s.host (s.taken.setVar s.host w) s') :
    Kept' s (s'.setVar s.host none) := by
  refine ⟨⟨h.strings, h.arrays, h.bytes, ?_, h.objects, h.engines⟩, h.next, Nat.le_trans (Nat.le_succ _) h.host⟩
  funext a
  change (if a = s.host then none else s'.c.vars a) = s.c.vars a
  by_cases ha : a = s.host
  · rw [if_pos ha, ha, (ht.fresh _ (Nat.le_refl _)).2.2.2]
  · rw [if_neg ha, h.vars a ha]
    exact if_neg ha

/-! ### Destruction -/

/-- The call `destroy` destroys objects from which `sel` selects something. -/
structure Destroys (env : CEnv κ) (c : CCirc) {β : Type} (sel : CObj κ → Option β) (destroy : Addr → CCall) : Prop where
  null : ∀ s : CMem κ, (destroy 0).run env c s = (.ko, { s with lastError := some (.external 240) })
  live : ∀ (s : CMem κ) (p : Addr) (y : CObj κ) (x : β), p ≠ 0 → s.objects p = some y → sel y = some x →
    (destroy p).run env c s = (.ok, { s with objects := fun a => if a = p then none else s.objects a })

theorem destroys_of_kind {env : CEnv κ} {c : CCirc} {β : Type} {sel : CObj κ → Option β} {destroy : Addr → CCall}
    (kind : CObj κ → Bool) (hb : ∀ p, (destroy p).body env c = destroyObject kind p)
    (hk : ∀ y x, sel y = some x → kind y = true) : Destroys env c sel destroy := by
  refine ⟨fun s => ?_, fun s p y x hp hy hx => ?_⟩
  · unfold CCall.run
    rw [hb]
    unfold destroyObject
    rw [if_pos rfl]
  · unfold CCall.run
    rw [hb]
    unfold destroyObject
    rw [if_neg hp, hy]
    simp only
    rw [hk y x hx, if_pos rfl]

theorem destroys_string (env : CEnv κ) (c : CCirc) : Destroys env c CObj.string? .destroyString :=
  destroys_of_kind _ (fun _ => rfl) fun y x h => by cases y <;> first | rfl | cases h

theorem destroys_result (env : CEnv κ) (c : CCirc) : Destroys env c CObj.result? .destroyResult :=
  destroys_of_kind _ (fun _ => rfl) fun y x h => by cases y <;> first | rfl | cases h

theorem destroys_slots (env : CEnv κ) (c : CCirc) : Destroys env c CObj.slots? .destroySlots :=
  destroys_of_kind _ (fun _ => rfl) fun y x h => by cases y <;> first | rfl | cases h

theorem destroys_intents (env : CEnv κ) (c : CCirc) : Destroys env c CObj.intents? .destroyIntentClassifierResults :=
  destroys_of_kind _ (fun _ => rfl) fun y x h => by cases y <;> first | rfl | cases h

theorem ccall_of_run {env : CEnv κ} {c : CCirc} {call : CCall} {s : HMem κ} {st : CStatus} {s1 : CMem κ}
    (h : call.run env c s.c = (st, s1)) :
    ccall env c call s = (match (generalizing := false) st with
      | .ok => .ok true
      | .ko => .ok false
      | .panic => .panic
      | .undefined => .undefined, { s with c := s1 }) := by
  unfold ccall
  rw [h]
  cases st <;> rfl

/-- Destroying what a variable points to, when it is null. -/
theorem destroyVar_null {env : CEnv κ} {c : CCirc} {β : Type} {sel : CObj κ → Option β} {destroy : Addr → CCall}
    (hd : Destroys env c sel destroy) {s : HMem κ} {v : Addr} (hv : s.c.vars v = some 0) :
    (do
      let p ← readVar v
      let _ ← ccall env c (destroy p) : HM κ Unit) s =
      (.ok (), { s with c := { s.c with lastError := some (.external 240) } }) := by
  rw [bind_ok (readVar_some hv)]
  exact bind_ok (ccall_of_run (hd.null s.c))

/-- Destroying what a variable points to, when it is live. -/
theorem destroyVar_live {env : CEnv κ} {c : CCirc} {β : Type} {sel : CObj κ → Option β} {destroy : Addr → CCall}
    (hd : Destroys env c sel destroy) {s : HMem κ} {v p : Addr} (hv : s.c.vars v = some p) (hp : p ≠ 0) {y : CObj κ}
    (hy : s.c.objects p = some y) {x : β} (hx : sel y = some x) :
    (do
      let p ← readVar v
      let _ ← ccall env c (destroy p) : HM κ Unit) s =
      (.ok (), { s with c := { s.c with objects := fun a => if a = p then none else s.c.objects a } }) := by
  rw [bind_ok (readVar_some hv)]
  exact bind_ok (ccall_of_run (hd.live s.c p y x hp hy hx))

/-- The memory when an object has been given and destroyed again. -/
theorem objects_restored {s : CMem κ} (ht : s.Tidy) {v : Addr} {x : CObj κ} :
    (fun a => if a = s.next then none else (afterGive v x s).objects a) = s.objects :=
  restore (g := (afterGive v x s).objects) rfl (ht.fresh _ (Nat.le_refl _)).1

/-! ### The last error -/

theorem lastErrorCall_null {msg : Err → List Nat} {s : HMem κ} {v : Addr} {e : Err} (he : s.c.lastError = some e)
    (h0 : 0 ∈ msg e) :
    lastErrorCall msg v s = (.ok false, { s with c := { s.c with lastError := some (.external 242) } }) := by
  unfold lastErrorCall getLastError
  rw [he]
  simp only [pointToString, if_pos h0]

theorem lastErrorCall_ok {msg : Err → List Nat} {s : HMem κ} {v : Addr} {e : Err} (he : s.c.lastError = some e)
    (h0 : 0 ∉ msg e) (hv : s.c.vars v ≠ none) :
    lastErrorCall msg v s = (.ok true,
      { s with c := afterGive v (.string (msg e)) { s.c with lastError := none } }) := by
  unfold lastErrorCall getLastError
  rw [he]
  simp only [pointToString, if_neg h0]
  have hg : give v (.string (msg e)) { s.c with lastError := none } =
      (.ok (), afterGive v (.string (msg e)) { s.c with lastError := none }) :=
    give_writable (by exact hv)
  rw [hg]

theorem pyCheck_false (env : CEnv κ) (msg : Err → List Nat) (c : CCirc) {s : HMem κ} (ht : s.Tidy) {e : Err}
    (he : s.c.lastError = some e) :
    ∃ s', pyCheck env msg c false s = (.throws (pyRaised msg e), s') ∧ Kept' s s' := by
  have key : ∃ s', pyStringPointer env c (fun ptr => do
      let ok ← lastErrorCall msg ptr
      if ok then do
        let b ← readObject CObj.string? ptr
        pure (HostError.library b)
      else pure .seeStderr) s = (.ok (pyRaised msg e), s') ∧ Kept' s s' := by
    unfold pyStringPointer withVar
    simp only
    set s1 := s.taken.setVar s.host (some 0) with hs1
    have ht1 : s1.Tidy := tidy_setVar ht _
    have hv1 : s1.c.vars s.host = some 0 := if_pos rfl
    have he1 : s1.c.lastError = some e := he
    by_cases h0 : 0 ∈ msg e
    · have hm : (do
          let ok ← lastErrorCall msg s.host
          if ok then do
            let b ← readObject CObj.string? s.host
            pure (HostError.library b)
          else pure .seeStderr : HM κ HostError) s1 = (.ok (pyRaised msg e), { s1 with c := { s1.c with lastError := some (.external 242) } }) := by
        rw [bind_ok (lastErrorCall_null he1 h0)]
        unfold pyRaised
        rw [if_pos h0]
        rfl
      rw [finally_ok hm (destroyVar_null (destroys_string env c) hv1)]
      exact ⟨_, rfl, kept_var ht ⟨rfl, rfl, rfl, fun _ _ => rfl, rfl, SameEngines.of_eq rfl, Nat.le_refl _, Nat.le_refl _⟩⟩
    · have hm : (do
          let ok ← lastErrorCall msg s.host
          if ok then do
            let b ← readObject CObj.string? s.host
            pure (HostError.library b)
          else pure .seeStderr : HM κ HostError) s1 = (.ok (pyRaised msg e),
            { s1 with c := afterGive s.host (.string (msg e)) { s1.c with lastError := none } }) := by
        rw [bind_ok (lastErrorCall_ok he1 h0 (by rw [hv1]; simp))]
        simp only [if_true]
        rw [bind_ok (readObject_some (sel := CObj.string?) (v := s.host) (p := s1.c.next) (y := .string (msg e)) (x := msg e) (by exact if_pos rfl) (by exact if_pos rfl) rfl)]
        unfold pyRaised
        rw [if_neg h0]
        rfl
      rw [finally_ok hm (destroyVar_live (destroys_string env c) (p := s1.c.next) (y := .string (msg e)) (if_pos rfl)
        (Nat.ne_of_gt ht1.c.pos) (if_pos rfl) rfl)]
      refine ⟨_, rfl, kept_var ht ⟨rfl, rfl, rfl, fun a ha => if_neg ha, ?_, SameEngines.of_eq rfl, Nat.le_succ _, Nat.le_refl _⟩⟩
      exact objects_restored (s := { s1.c with lastError := none }) ⟨ht1.c.pos, ht1.c.null, ht1.c.fresh⟩
  obtain ⟨s', h1, h2⟩ := key
  refine ⟨s', ?_, h2⟩
  unfold pyCheck
  rw [if_neg (by simp)]
  rw [bind_ok h1]
  rfl

/-! ### Questions -/

/-- The memory after an object has been given, up to what engines have in their caches. -/
structure Gave (v : Addr) (x : CObj κ) (s s1 : HMem κ) : Prop where
  strings : s1.c.strings = s.c.strings
  arrays : s1.c.arrays = s.c.arrays
  bytes : s1.c.bytes = s.c.bytes
  var : s1.c.vars v = some s.c.next
  vars : ∀ a, a ≠ v → s1.c.vars a = s.c.vars a
  objects : s1.c.objects = fun a => if a = s.c.next then some x else s.c.objects a
  engines : SameEngines s.c s1.c
  next : s.c.next ≤ s1.c.next
  host : s.host ≤ s1.host

theorem sameEngines_of_frame {client : Addr} {s s1 : CMem κ} (hf : Frame client s s1)
    (hp : ∀ a h, s.engines a = some h → ∃ h', s1.engines a = some h' ∧ h'.poisoned = h.poisoned) : SameEngines s s1 := by
  intro a
  by_cases ha : a = client
  · subst ha
    refine ⟨hf.dead, fun h hh => ?_⟩
    obtain ⟨h', e1, e2, e3, _⟩ := hf.alive h hh
    obtain ⟨h'', f1, f2⟩ := hp a h hh
    rw [e1] at f1
    cases f1
    exact ⟨h', e1, e2, e3, f2⟩
  · exact ⟨fun hn => by rw [hf.others a ha]; exact hn, fun h hh => ⟨h, by rw [hf.others a ha]; exact hh, rfl, rfl, rfl⟩⟩

/-- How the call of a question ends. -/
theorem question_call {env : CEnv κ} {c : CCirc} {s : HMem κ} {call : CCall} {o : Outcome (CObj κ)}
    (hn : NativeOutcome env c s.c call o) {v : Addr} (hr : call.resultVar = some v) (hv : s.c.vars v ≠ none) :
    ∃ s1, match o with
      | .ok x => ccall env c call s = (.ok true, s1) ∧ Gave v x s s1
      | .err e => ccall env c call s = (.ok false, s1) ∧ s1.c.lastError = some e ∧ Kept' s s1
      | .panic => ccall env c call s = (.panic, s1) := by
  obtain ⟨client, s1, hc, hf, hb⟩ := query_native hn hr hv
  have hcalm := query_calm env c hc s.c
  cases o with
  | ok x =>
    have hrun : call.run env c s.c = (.ok, afterGive v x s1) := by
      unfold CCall.run
      rw [hb]
      rfl
    refine ⟨_, ccall_of_run hrun, hf.strings, hf.arrays, hf.bytes, ?_, fun a ha => ?_, ?_, ?_, ?_, Nat.le_refl _⟩
    · rw [← hf.next]; exact if_pos rfl
    · exact (if_neg ha).trans (congrFun hf.vars a)
    · rw [← hf.next, ← hf.objects]
      rfl
    · refine sameEngines_of_frame (client := client) (s1 := s1) hf fun a h hh => ?_
      rw [hb] at hcalm
      exact hcalm (by simp [finish]) a h hh
    · exact hf.next ▸ Nat.le_succ _
  | err e =>
    have hrun : call.run env c s.c = (.ko, { s1 with lastError := some e }) := by
      unfold CCall.run
      rw [hb]
      rfl
    refine ⟨_, ccall_of_run hrun, rfl, ⟨⟨hf.strings, hf.arrays, hf.bytes, hf.vars, hf.objects, ?_⟩, Nat.le_of_eq hf.next.symm,
      Nat.le_refl _⟩⟩
    refine sameEngines_of_frame (client := client) (s1 := s1) hf fun a h hh => ?_
    rw [hb] at hcalm
    exact hcalm (by simp [finish]) a h hh
  | panic =>
    have hrun : call.run env c s.c = (.panic, poison client s1) := by
      unfold CCall.run
      rw [hb]
      rfl
    exact ⟨_, ccall_of_run hrun⟩

/-- A relation between the end of code of a wrapper, the memory before and the memory after, which does not see
memory that the host takes and releases. -/
structure Local {α : Type} (Q : HEnd α → HMem κ → HMem κ → Prop) : Prop where
  string : ∀ r s s' v, s.Tidy → Q r (s.taken.setString s.host v) s' → Q r s (s'.setString s.host none)
  array : ∀ r s s' v, s.Tidy → Q r (s.taken.setArray s.host v) s' → Q r s (s'.setArray s.host none)
  bytes : ∀ r s s' v, s.Tidy → Q r (s.taken.setBytes s.host v) s' → Q r s (s'.setBytes s.host none)

/-- Code of a wrapper ends as the relation says. -/
def Ends {α : Type} (Q : HEnd α → HMem κ → HMem κ → Prop) (m : HM κ α) (s : HMem κ) : Prop := Q (m s).1 s (m s).2

/-- The end is as the outcome says, and the memory is kept unless it is a panic. -/
def Answer {α : Type} (raised : Err → HostError) (o : Outcome α) (r : HEnd α) (s s' : HMem κ) : Prop :=
  r = o.hosted raised ∧ (o ≠ .panic → Kept' s s')

theorem answer_local {α : Type} (raised : Err → HostError) (o : Outcome α) : Local (κ := κ) (Answer raised o) :=
  ⟨fun _ _ _ _ ht h => ⟨h.1, fun hp => kept_string ht (h.2 hp)⟩,
    fun _ _ _ _ ht h => ⟨h.1, fun hp => kept_array ht (h.2 hp)⟩,
    fun _ _ _ _ ht h => ⟨h.1, fun hp => kept_bytes ht (h.2 hp)⟩⟩

/-- What has been readable stays readable. -/
structure Grew (s s' : HMem κ) : Prop where
  strings : ∀ p b, s.c.strings p = some b → s'.c.strings p = some b
  arrays : ∀ p b, s.c.arrays p = some b → s'.c.arrays p = some b
  bytes : ∀ p b, s.c.bytes p = some b → s'.c.bytes p = some b
  engines : s'.c.engines = s.c.engines
  disk : s'.c.disk = s.c.disk

theorem Grew.refl (s : HMem κ) : Grew s s := ⟨fun _ _ h => h, fun _ _ h => h, fun _ _ h => h, rfl, rfl⟩

theorem Grew.trans {s1 s2 s3 : HMem κ} (h : Grew s1 s2) (h' : Grew s2 s3) : Grew s1 s3 :=
  ⟨fun p b hb => h'.strings p b (h.strings p b hb), fun p b hb => h'.arrays p b (h.arrays p b hb),
    fun p b hb => h'.bytes p b (h.bytes p b hb), h'.engines.trans h.engines, h'.disk.trans h.disk⟩

theorem grew_string {s : HMem κ} (ht : s.Tidy) (v : Option (List Nat)) : Grew s (s.taken.setString s.host v) := by
  refine ⟨fun p b hb => ?_, fun _ _ h => h, fun _ _ h => h, rfl, rfl⟩
  by_cases hp : p = s.host
  · rw [hp, (ht.fresh _ (Nat.le_refl _)).1] at hb
    cases hb
  · exact (if_neg hp).trans hb

theorem grew_array {s : HMem κ} (ht : s.Tidy) (v : Option (List Addr)) : Grew s (s.taken.setArray s.host v) := by
  refine ⟨fun _ _ h => h, fun p b hb => ?_, fun _ _ h => h, rfl, rfl⟩
  by_cases hp : p = s.host
  · rw [hp, (ht.fresh _ (Nat.le_refl _)).2.1] at hb
    cases hb
  · exact (if_neg hp).trans hb

theorem grew_bytes {s : HMem κ} (ht : s.Tidy) (v : Option (List Nat)) : Grew s (s.taken.setBytes s.host v) := by
  refine ⟨fun _ _ h => h, fun _ _ h => h, fun p b hb => ?_, rfl, rfl⟩
  by_cases hp : p = s.host
  · rw [hp, (ht.fresh _ (Nat.le_refl _)).2.2.1] at hb
    cases hb
  · exact (if_neg hp).trans hb

theorem Grew.readsText {s s' : HMem κ} (h : Grew s s') {env : CEnv κ} {p : Addr} {t : Text} (hr : ReadsText env s.c p t) :
    ReadsText env s'.c p t := by
  obtain ⟨h0, b, hb, hu⟩ := hr
  exact ⟨h0, b, h.strings p b hb, hu⟩

theorem Grew.filterIs {s s' : HMem κ} (h : Grew s s') {env : CEnv κ} {p : Addr} {l : Option (List Text)}
    (hr : FilterIs env s.c p l) : FilterIs env s'.c p l := by
  cases l with
  | none => exact hr
  | some l =>
    obtain ⟨h0, ps, hps, hf⟩ := hr
    refine ⟨h0, ps, h.arrays p ps hps, hf.imp ?_⟩
    rintro q t ⟨b, hb, hu⟩
    exact ⟨b, h.strings q b hb, hu⟩

theorem Grew.usable {s s' : HMem κ} (h : Grew s s') {client : Addr} {hd : Handle} (hr : UsableEngine s.c client hd) :
    UsableEngine s'.c client hd := ⟨hr.1, by rw [h.engines]; exact hr.2.1, hr.2.2⟩

theorem ends_string {α : Type} {Q : HEnd α → HMem κ → HMem κ → Prop} (hQ : Local Q) {b : List Nat} {k : Addr → HM κ α}
    {s : HMem κ} (ht : s.Tidy)
    (h : ∀ p s1, s1.Tidy → Grew s s1 → p ≠ 0 → s1.c.strings p = some (cBytes b) → Ends Q (k p) s1) :
    Ends Q (withString b k) s :=
  hQ.string _ _ _ _ ht (h s.host (s.taken.setString s.host (some (cBytes b))) (tidy_setString ht _) (grew_string ht _)
    (Nat.ne_of_gt ht.pos) (if_pos rfl))

theorem ends_string_at {α : Type} {Q : HEnd α → HMem κ → HMem κ → Prop} (hQ : Local Q) {b : List Nat} {k : Addr → HM κ α}
    {s : HMem κ} (ht : s.Tidy) (h : Ends Q (k s.host) (s.taken.setString s.host (some (cBytes b)))) :
    Ends Q (withString b k) s := hQ.string _ _ _ _ ht h

theorem ends_strings {α : Type} {Q : HEnd α → HMem κ → HMem κ → Prop} (hQ : Local Q) {bs : List (List Nat)}
    {k : List Addr → HM κ α} {s : HMem κ} (ht : s.Tidy)
    (h : ∀ ps s1, s1.Tidy → Grew s s1 → List.Forall₂ (fun p b => p ≠ 0 ∧ s1.c.strings p = some (cBytes b)) ps bs →
      Ends Q (k ps) s1) :
    Ends Q (withStrings bs k) s := by
  induction bs generalizing k s with
  | nil => exact h [] s ht (Grew.refl s) .nil
  | cons b bs ih =>
    refine ends_string hQ ht fun p s1 ht1 hg1 hp hs => ih ht1 fun ps s2 ht2 hg2 hps => ?_
    exact h (p :: ps) s2 ht2 (hg1.trans hg2) (.cons ⟨hp, hg2.strings _ _ hs⟩ hps)

theorem ends_array {α : Type} {Q : HEnd α → HMem κ → HMem κ → Prop} (hQ : Local Q) {l : Option (List Addr)}
    {k : Addr → HM κ α} {s : HMem κ} (ht : s.Tidy)
    (h : ∀ p s1, s1.Tidy → Grew s s1 → p ≠ 0 → s1.c.arrays p = l → Ends Q (k p) s1) :
    Ends Q (withArray l k) s :=
  hQ.array _ _ _ _ ht (h s.host (s.taken.setArray s.host l) (tidy_setArray ht _) (grew_array ht _)
    (Nat.ne_of_gt ht.pos) (if_pos rfl))

theorem ends_bytes {α : Type} {Q : HEnd α → HMem κ → HMem κ → Prop} (hQ : Local Q) {l : Option (List Nat)}
    {k : Addr → HM κ α} {s : HMem κ} (ht : s.Tidy)
    (h : ∀ p s1, s1.Tidy → Grew s s1 → p ≠ 0 → s1.c.bytes p = l → Ends Q (k p) s1) :
    Ends Q (withBytes l k) s :=
  hQ.bytes _ _ _ _ ht (h s.host (s.taken.setBytes s.host l) (tidy_setBytes ht _) (grew_bytes ht _)
    (Nat.ne_of_gt ht.pos) (if_pos rfl))

theorem ends_of_eq {α : Type} {Q : HEnd α → HMem κ → HMem κ → Prop} {m : HM κ α} {s s' : HMem κ} {r : HEnd α}
    (h : m s = (r, s')) (hq : Q r s s') : Ends Q m s := by
  unfold Ends
  rw [h]
  exact hq

/-! ### Texts -/

theorem cBytes_encode (t : Text) : cBytes (encodeUtf8 t) = encodeUtf8 (beforeNull t) := by
  induction t with
  | nil => rfl
  | cons ch t ih =>
    by_cases h0 : ch = '\x00'
    · subst h0
      rfl
    · have hne : ∀ x ∈ encodeChar ch, decide (x ≠ 0) = true := by
        intro x hx
        refine decide_eq_true fun hx0 => ?_
        subst hx0
        have h : ('\x00' : Char).toNat ∉ encodeUtf8 [ch] :=
          encode_no_byte (by decide) (by simpa using Ne.symm h0)
        exact h (by rw [encodeUtf8_cons]; exact List.mem_append_left _ hx)
      have hb : beforeNull (ch :: t) = ch :: beforeNull t := List.takeWhile_cons_of_pos (by simpa using h0)
      rw [hb, encodeUtf8_cons, encodeUtf8_cons, ← ih]
      exact List.takeWhile_append_of_pos hne

theorem beforeNull_of_notMem {t : Text} (h : '\x00' ∉ t) : beforeNull t = t :=
  List.takeWhile_eq_self_iff.2 fun x hx => by
    have : x ≠ '\x00' := fun h0 => h (h0 ▸ hx)
    simpa using this

theorem asU32_of_range {n : Int} (h : 0 ≤ n ∧ n < 2 ^ 32) : (asU32 n : Int) = n := by
  unfold asU32
  omega

theorem readsText_of_string {env : CEnv κ} (hu : env.utf8 = utf8OrErr) {s : HMem κ} {p : Addr} (hp : p ≠ 0) {t : Text}
    (hs : s.c.strings p = some (cBytes (encodeUtf8 t))) : ReadsText env s.c p (beforeNull t) :=
  ⟨hp, _, hs, by rw [hu, cBytes_encode]; exact utf8OrErr_encode _⟩

theorem filterIs_of_array {env : CEnv κ} (hu : env.utf8 = utf8OrErr) {s : HMem κ} {p : Addr} (hp : p ≠ 0)
    {l : List Text} {ps : List Addr} (ha : s.c.arrays p = some ps)
    (hs : List.Forall₂ (fun p b => p ≠ 0 ∧ s.c.strings p = some (cBytes b)) ps (l.map encodeUtf8)) :
    FilterIs env s.c p (some (l.map beforeNull)) := by
  refine ⟨hp, ps, ha, ?_⟩
  clear ha
  induction l generalizing ps with
  | nil => cases hs; exact .nil
  | cons t l ih =>
    cases hs with
    | cons h1 h2 => exact .cons ⟨_, h1.2, by rw [hu, cBytes_encode]; exact utf8OrErr_encode _⟩ (ih h2)

/-! ### Python -/

theorem map_string {κ : Type} {α : Type} (a : Outcome α) (f : α → Outcome (List Nat)) :
    (a >>= fun r => f r >>= stringObject) = (a >>= fun r => f r >>= withoutNull).map (CObj.string (κ := κ)) := by
  cases a with
  | ok x =>
    change (f x >>= stringObject) = (f x >>= withoutNull).map _
    cases f x with
    | ok b =>
      change stringObject b = (withoutNull b).map _
      unfold stringObject withoutNull
      by_cases h0 : 0 ∈ b
      · rw [if_pos h0, if_pos h0]; rfl
      · rw [if_neg h0, if_neg h0]; rfl
    | err e => rfl
    | panic => rfl
  | err e => rfl
  | panic => rfl

theorem pyQuery_answers {env : CEnv κ} {msg : Err → List Nat} {c : CCirc} {call : Addr → CCall} {s : HMem κ}
    (ht : s.Tidy) {o : Outcome (List Nat)} (hr : ∀ v, (call v).resultVar = some v)
    (hn : NativeOutcome env c (s.taken.setVar s.host (some 0)).c (call s.host) (o.map .string)) :
    Ends (Answer (pyRaised msg) o) (pyQuery env msg c call) s := by
  set s0 := s.taken.setVar s.host (some 0) with hs0
  have ht0 : s0.Tidy := tidy_setVar ht _
  have hv0 : s0.c.vars s.host = some 0 := if_pos rfl
  obtain ⟨s1, h1⟩ := question_call hn (hr s.host) (by rw [hv0]; simp)
  unfold Ends pyQuery pyStringPointer withVar
  simp only
  rw [← hs0]
  cases o with
  | ok b =>
    obtain ⟨hc, hg⟩ := h1
    have hm : (do
        let ok ← ccall env c (call s.host)
        pyCheck env msg c ok
        readObject CObj.string? s.host : HM κ (List Nat)) s0 = (.ok b, s1) := by
      rw [bind_ok hc]
      have : pyCheck env msg c true s1 = (.ok (), s1) := by
        unfold pyCheck
        rw [if_pos rfl]
        rfl
      rw [bind_ok this]
      exact readObject_some (y := .string b) hg.var (by rw [hg.objects]; exact if_pos rfl) rfl
    rw [finally_ok hm (destroyVar_live (destroys_string env c) (y := .string b) hg.var (Nat.ne_of_gt ht0.c.pos)
      (by rw [hg.objects]; exact if_pos rfl) rfl)]
    refine ⟨rfl, fun _ => kept_var ht ⟨hg.strings, hg.arrays, hg.bytes, hg.vars, ?_, hg.engines, hg.next,
      hg.host⟩⟩
    exact restore hg.objects (ht0.c.fresh _ (Nat.le_refl _)).1
  | err e =>
    obtain ⟨hc, he, hk⟩ := h1
    obtain ⟨s2, hp, hk2⟩ := pyCheck_false env msg c (hk.tidy ht0) he
    have hm : (do
        let ok ← ccall env c (call s.host)
        pyCheck env msg c ok
        readObject CObj.string? s.host : HM κ (List Nat)) s0 = (.throws (pyRaised msg e), s2) := by
      rw [bind_ok hc]
      exact bind_throws hp
    have hk3 := hk.trans hk2
    rw [finally_throws hm (destroyVar_null (destroys_string env c) (by rw [hk3.vars]; exact hv0))]
    refine ⟨rfl, fun _ => kept_var ht ⟨hk3.strings, hk3.arrays, hk3.bytes, fun a _ => congrFun hk3.vars a, hk3.objects,
      hk3.engines, hk3.next, hk3.host⟩⟩
  | panic =>
    have hm : (do
        let ok ← ccall env c (call s.host)
        pyCheck env msg c ok
        readObject CObj.string? s.host : HM κ (List Nat)) s0 = (.panic, s1) := bind_panic h1
    rw [finally_panic hm]
    exact ⟨rfl, fun h => absurd rfl h⟩

theorem pyFilter_ends {α : Type} {env : CEnv κ} (hu : env.utf8 = utf8OrErr) {Q : HEnd α → HMem κ → HMem κ → Prop}
    (hQ : Local Q) {l : Option (List Text)} {k : Addr → HM κ α} {s : HMem κ} (ht : s.Tidy)
    (h : ∀ p s1, s1.Tidy → Grew s s1 → FilterIs env s1.c p (l.map (·.map beforeNull)) → Ends Q (k p) s1) :
    Ends Q (pyFilter l k) s := by
  cases l with
  | none => exact h 0 s ht (Grew.refl s) rfl
  | some l =>
    refine ends_strings hQ ht fun ps s1 ht1 hg1 hps => ends_array hQ ht1 fun p s2 ht2 hg2 hp ha => ?_
    refine h p s2 ht2 (hg1.trans hg2) (filterIs_of_array hu hp ha (hps.imp ?_))
    exact fun q b hq => ⟨hq.1, hg2.strings _ _ hq.2⟩

theorem grew_var (s : HMem κ) (v : Option Addr) : Grew s (s.taken.setVar s.host v) :=
  ⟨fun _ _ h => h, fun _ _ h => h, fun _ _ h => h, rfl, rfl⟩

theorem pyAsk_answers {env : CEnv κ} (hu : env.utf8 = utf8OrErr) (msg : Err → List Nat) (c : CCirc) {engine : Addr}
    {h : Handle} (q : Question) {s : HMem κ} (ht : s.Tidy) (hh : UsableEngine s.c engine h) :
    Ends (Answer (pyRaised msg) (q.json env h c)) (pyAsk env msg c engine q) s := by
  obtain ⟨o, ho⟩ : ∃ o, o = q.json env h c := ⟨_, rfl⟩
  rw [← ho]
  have hQ := answer_local (κ := κ) (pyRaised msg) o
  unfold pyAsk
  cases q with
  | parse text wl bl ni ns =>
    refine pyFilter_ends hu hQ ht fun w s1 ht1 hg1 hw => pyFilter_ends hu hQ ht1 fun b s2 ht2 hg2 hb =>
      ends_string hQ ht2 fun p s3 ht3 hg3 hp hs => pyQuery_answers ht3 (fun _ => rfl) ?_
    have hg4 := grew_var s3 (some 0)
    have hn := NativeOutcome.parseWithAlternativesJson (c := c) (ni := asU32 ni) (ns := asU32 ns) (result := s3.host)
      (hg4.readsText (readsText_of_string hu hp hs)) ((((hg1.trans hg2).trans hg3).trans hg4).usable hh)
      (((hg2.trans hg3).trans hg4).filterIs hw) ((hg3.trans hg4).filterIs hb)
    rw [map_string] at hn
    rw [ho]
    exact hn
  | getSlots text intent ns =>
    refine ends_string hQ ht fun p s1 ht1 hg1 hp hs => ends_string hQ ht1 fun p' s2 ht2 hg2 hp' hs' =>
      pyQuery_answers ht2 (fun _ => rfl) ?_
    have hg3 := grew_var s2 (some 0)
    have hn := NativeOutcome.getSlotsWithAlternativesJson (c := c) (ns := asU32 ns) (result := s2.host)
      ((hg2.trans hg3).readsText (readsText_of_string hu hp hs)) (hg3.readsText (readsText_of_string hu hp' hs'))
      (((hg1.trans hg2).trans hg3).usable hh)
    rw [map_string] at hn
    rw [ho]
    exact hn
  | getIntents text =>
    refine ends_string hQ ht fun p s1 ht1 hg1 hp hs => pyQuery_answers ht1 (fun _ => rfl) ?_
    have hg2 := grew_var s1 (some 0)
    have hn := NativeOutcome.getIntentsJson (c := c) (result := s1.host)
      (hg2.readsText (readsText_of_string hu hp hs)) ((hg1.trans hg2).usable hh)
    rw [map_string] at hn
    rw [ho]
    exact hn

/-! ### Engines -/

/-- An engine has been made, and nothing else. -/
structure Added' (p : Addr) (h : Handle) (s s' : HMem κ) : Prop extends Added p h s s' where
  next : s.c.next ≤ p ∧ p < s'.c.next
  host : s.host ≤ s'.host

theorem Added'.tidy {p : Addr} {h : Handle} {s s' : HMem κ} (hk : Added' p h s s') (ht : s.Tidy) : s'.Tidy := by
  have hle : s.c.next ≤ s'.c.next := Nat.le_trans hk.next.1 (Nat.le_of_lt hk.next.2)
  refine ⟨⟨Nat.lt_of_lt_of_le ht.c.pos hle, ⟨?_, ?_⟩, fun a ha => ⟨?_, ?_⟩⟩,
    Nat.lt_of_lt_of_le ht.pos hk.host, fun a ha => ?_⟩
  · rw [hk.objects]; exact ht.c.null.1
  · rw [hk.others 0 hk.fresh.1.symm]; exact ht.c.null.2
  · rw [hk.objects]; exact (ht.c.fresh a (Nat.le_trans hle ha)).1
  · rw [hk.others a (Nat.ne_of_gt (Nat.lt_of_lt_of_le hk.next.2 ha))]; exact (ht.c.fresh a (Nat.le_trans hle ha)).2
  · rw [hk.strings, hk.arrays, hk.bytes, hk.vars]
    exact ht.fresh a (Nat.le_trans hk.host ha)

/-- The end of code that makes an engine. -/
def Creation (env : CEnv κ) (raised : Err → HostError) (o : Outcome LoadedEngine) (r : HEnd Addr) (s s' : HMem κ) :
    Prop :=
  match o with
  | .ok e => ∃ p, r = .ok p ∧ Added' p (Handle.fresh env e) s s'
  | .err e => r = .throws (raised e) ∧ Kept' s s'
  | .panic => r = .panic

theorem creation_local (env : CEnv κ) (raised : Err → HostError) (o : Outcome LoadedEngine) :
    Local (Creation env raised o) := by
  cases o with
  | ok e =>
    refine ⟨?_, ?_, ?_⟩
    · rintro r s s' v ht ⟨p, hr, hk⟩
      exact ⟨p, hr, ⟨⟨restore hk.strings (ht.fresh _ (Nat.le_refl _)).1, hk.arrays, hk.bytes, hk.vars, hk.objects,
        hk.fresh, hk.engine, hk.others⟩, hk.next, Nat.le_trans (Nat.le_succ _) hk.host⟩⟩
    · rintro r s s' v ht ⟨p, hr, hk⟩
      exact ⟨p, hr, ⟨⟨hk.strings, restore hk.arrays (ht.fresh _ (Nat.le_refl _)).2.1, hk.bytes, hk.vars, hk.objects,
        hk.fresh, hk.engine, hk.others⟩, hk.next, Nat.le_trans (Nat.le_succ _) hk.host⟩⟩
    · rintro r s s' v ht ⟨p, hr, hk⟩
      exact ⟨p, hr, ⟨⟨hk.strings, hk.arrays, restore hk.bytes (ht.fresh _ (Nat.le_refl _)).2.2.1, hk.vars, hk.objects,
        hk.fresh, hk.engine, hk.others⟩, hk.next, Nat.le_trans (Nat.le_succ _) hk.host⟩⟩
  | err e =>
    exact ⟨fun _ _ _ _ ht h => ⟨h.1, kept_string ht h.2⟩, fun _ _ _ _ ht h => ⟨h.1, kept_array ht h.2⟩,
      fun _ _ _ _ ht h => ⟨h.1, kept_bytes ht h.2⟩⟩
  | panic => exact ⟨fun _ _ _ _ _ h => h, fun _ _ _ _ _ h => h, fun _ _ _ _ _ h => h⟩

/-- How a call that makes an engine ends. -/
def Makes (env : CEnv κ) (c : CCirc) (call : CCall) (v : Addr) (s : CMem κ) (o : Outcome LoadedEngine) (d : Disk) : Prop :=
  call.body env c s = match o with
    | .ok e => (.ok (), afterGiveEngine v (Handle.fresh env e) { s with disk := d })
    | .err e => (.err e, { s with disk := d })
    | .panic => (.panic, { s with disk := d })

theorem makes_dir {env : CEnv κ} {c : CCirc} {p v : Addr} {s : CMem κ} {dir : Text} (hp : ReadsText env s p dir)
    (hv : s.vars v ≠ none) : Makes env c (.createFromDir p v) v s
      (loadEngine env.load c.order (joinPath env.cwd dir) s.disk.fs).1 s.disk := by
  unfold Makes
  change createFromDir env c p v s = _
  unfold createFromDir
  rw [bind_of_ok (rustString_ok_iff.2 ⟨hp, rfl⟩)]
  change CM.bind _ _ s = _
  unfold CM.bind loadFromDir lift
  cases (loadEngine env.load c.order (joinPath env.cwd dir) s.disk.fs).1 with
  | ok e => exact giveEngine_ok_iff.2 ⟨hv, rfl⟩
  | err e => rfl
  | panic => rfl

theorem makes_zip {env : CEnv κ} {c : CCirc} {p v : Addr} {s : CMem κ} {b : List Nat} {n : Nat} (hp : s.bytes p = some b)
    (hn : n ≤ b.length) (hv : s.vars v ≠ none) : Makes env c (.createFromZip p n v) v s
      (fromZip env.load c.order c.fault c.left (env.readZip (b.take n)) c.tmp s.disk).1
      (fromZip env.load c.order c.fault c.left (env.readZip (b.take n)) c.tmp s.disk).2 := by
  unfold Makes
  change createFromZip env c p n v s = _
  unfold createFromZip
  rw [bind_of_ok (readBytes_ok_iff.2 ⟨⟨b, hp, hn, rfl⟩, rfl⟩)]
  change CM.bind _ _ s = _
  unfold CM.bind loadFromZip lift
  simp only
  cases (fromZip env.load c.order c.fault c.left (env.readZip (b.take n)) c.tmp s.disk).1 with
  | ok e => exact giveEngine_ok_iff.2 ⟨hv, rfl⟩
  | err e => rfl
  | panic => rfl

/-- The memory when an engine has been given in the variable, and the variable is released. -/
theorem added_var {env : CEnv κ} {s : HMem κ} (ht : s.Tidy) {e : LoadedEngine} {d : Disk} :
    Added' s.c.next (Handle.fresh env e) s
      (HMem.setVar { s.taken.setVar s.host (some 0) with
        c := afterGiveEngine s.host (Handle.fresh env e) { (s.taken.setVar s.host (some 0)).c with disk := d } }
        s.host none) := by
  refine ⟨⟨rfl, rfl, rfl, ?_, rfl, ⟨Nat.ne_of_gt ht.c.pos, (ht.c.fresh _ (Nat.le_refl _)).2⟩, if_pos rfl,
    fun a ha => if_neg ha⟩, ⟨Nat.le_refl _, Nat.lt_succ_self _⟩, Nat.le_succ _⟩
  funext a
  change (if a = s.host then none else if a = s.host then some s.c.next else if a = s.host then some 0 else s.c.vars a) =
    s.c.vars a
  by_cases ha : a = s.host
  · rw [if_pos ha, ha, (ht.fresh _ (Nat.le_refl _)).2.2.2]
  · rw [if_neg ha, if_neg ha, if_neg ha]

theorem pyCreate_ends {env : CEnv κ} {msg : Err → List Nat} {c : CCirc} {call : Addr → CCall} {s : HMem κ}
    (ht : s.Tidy) {o : Outcome LoadedEngine} {d : Disk}
    (hn : Makes env c (call s.host) s.host (s.taken.setVar s.host (some 0)).c o d) :
    Ends (Creation env (pyRaised msg) o) (pyCreate env msg c call) s := by
  set s0 := s.taken.setVar s.host (some 0) with hs0
  have ht0 : s0.Tidy := tidy_setVar ht _
  have hv0 : s0.c.vars s.host = some 0 := if_pos rfl
  unfold Makes at hn
  unfold Ends pyCreate withVar onThrow
  simp only
  rw [← hs0]
  cases o with
  | ok e =>
    have hrun : (call s.host).run env c s0.c = (.ok, afterGiveEngine s.host (Handle.fresh env e) { s0.c with disk := d }) := by
      unfold CCall.run
      rw [hn]
    have hm : (do
        let ok ← ccall env c (call s.host)
        pyCheck env msg c ok
        readVar s.host : HM κ Addr) s0 =
        (.ok s0.c.next, { s0 with c := afterGiveEngine s.host (Handle.fresh env e) { s0.c with disk := d } }) := by
      rw [bind_ok (ccall_of_run hrun)]
      have : ∀ s1 : HMem κ, pyCheck env msg c true s1 = (.ok (), s1) := by
        intro s1
        unfold pyCheck
        rw [if_pos rfl]
        rfl
      rw [bind_ok (this _)]
      exact readVar_some (if_pos rfl)
    rw [hm]
    exact ⟨s0.c.next, rfl, added_var ht⟩
  | err e =>
    have hrun : (call s.host).run env c s0.c = (.ko, { s0.c with disk := d, lastError := some e }) := by
      unfold CCall.run
      rw [hn]
    obtain ⟨s2, hp, hk2⟩ := pyCheck_false env msg c (s := { s0 with c := { s0.c with disk := d, lastError := some e } })
      (e := e) ⟨⟨ht0.c.pos, ht0.c.null, ht0.c.fresh⟩, ht0.pos, ht0.fresh⟩ rfl
    have hm : (do
        let ok ← ccall env c (call s.host)
        pyCheck env msg c ok
        readVar s.host : HM κ Addr) s0 = (.throws (pyRaised msg e), s2) := by
      rw [bind_ok (ccall_of_run hrun)]
      exact bind_throws hp
    rw [hm]
    have hd : (do
        let p ← readVar s.host
        pyDel env c p : HM κ Unit) s2 = (.ok (), { s2 with c := { s2.c with lastError := some (.external 240) } }) := by
      rw [bind_ok (readVar_some (p := 0) (by rw [hk2.vars]; exact hv0))]
      exact bind_ok (ccall_of_run (st := .ko) rfl)
    simp only
    have hd' : HM.bind (do
        let p ← readVar s.host
        pyDel env c p : HM κ Unit) (fun _ => throws (pyRaised msg e) (α := Addr)) s2 =
        (.throws (pyRaised msg e), { s2 with c := { s2.c with lastError := some (.external 240) } }) := bind_ok hd
    rw [hd']
    exact ⟨rfl, kept_var ht ⟨hk2.strings, hk2.arrays, hk2.bytes, fun a _ => congrFun hk2.vars a, hk2.objects,
      hk2.engines, hk2.next, hk2.host⟩⟩
  | panic =>
    have hrun : (call s.host).run env c s0.c = (.panic, { s0.c with disk := d }) := by
      unfold CCall.run
      rw [hn]
    have hm : (do
        let ok ← ccall env c (call s.host)
        pyCheck env msg c ok
        readVar s.host : HM κ Addr) s0 = (.panic, { s0 with c := { s0.c with disk := d } }) :=
      bind_panic (ccall_of_run hrun)
    rw [hm]
    rfl

theorem asU32_length (b : List Nat) : asU32 b.length = b.length % 4294967296 := by
  unfold asU32
  omega

theorem pyInit_ends {env : CEnv κ} (hu : env.utf8 = utf8OrErr) (msg : Err → List Nat) (c : CCirc) {s : HMem κ}
    (ht : s.Tidy) (src : Text ⊕ List Nat) :
    Ends (Creation env (pyRaised msg) (loadSource env c src s.c.disk)) (match src with
      | .inl dir => pyInit env msg c (some dir) none
      | .inr b => pyInit env msg c none (some b)) s := by
  obtain ⟨o, ho⟩ : ∃ o, o = loadSource env c src s.c.disk := ⟨_, rfl⟩
  rw [← ho]
  have hQ := creation_local env (pyRaised msg) o
  cases src with
  | inl dir =>
    refine ends_string hQ ht fun p s1 ht1 hg1 hp hs => pyCreate_ends (d := s1.c.disk) ht1 ?_
    have hm := makes_dir (c := c) (v := s1.host) ((grew_var s1 (some 0)).readsText (readsText_of_string hu hp hs))
      (by rw [show (s1.taken.setVar s1.host (some 0)).c.vars s1.host = some 0 from if_pos rfl]; simp)
    rw [ho]
    unfold loadSource
    rw [← hg1.disk]
    exact hm
  | inr b =>
    refine ends_bytes hQ ht fun p s1 ht1 hg1 hp hs => pyCreate_ends ht1
      (d := (fromZip env.load c.order c.fault c.left (env.readZip (b.take (asU32 b.length))) c.tmp s1.c.disk).2) ?_
    have hm := makes_zip (env := env) (c := c) (v := s1.host) (s := (s1.taken.setVar s1.host (some 0)).c) (n := asU32 b.length)
      hs (by rw [asU32_length]; exact Nat.mod_le _ _)
      (by rw [show (s1.taken.setVar s1.host (some 0)).c.vars s1.host = some 0 from if_pos rfl]; simp)
    rw [ho]
    unfold loadSource
    simp only
    rw [← hg1.disk, ← asU32_length]
    exact hm

/-! ### Kotlin -/

theorem ktParseError_false (env : CEnv κ) (msg : Err → List Nat) (c : CCirc) {s : HMem κ} (ht : s.Tidy) {e : Err}
    (he : s.c.lastError = some e) :
    ∃ s', ktParseError env msg c false s = (.throws (ktRaised msg e), s') ∧ Kept' s s' := by
  unfold ktParseError
  rw [if_neg (by simp)]
  unfold withVar
  simp only
  set s1 := s.taken.setVar s.host (some 0) with hs1
  have ht1 : s1.Tidy := tidy_setVar ht _
  have hv1 : s1.c.vars s.host = some 0 := if_pos rfl
  have he1 : s1.c.lastError = some e := he
  unfold ktRaised
  by_cases h0 : 0 ∈ msg e
  · rw [if_pos h0, bind_ok (lastErrorCall_null he1 h0), bind_ok (readVar_some (v := s.host) (p := 0) (by exact hv1)),
      if_pos rfl]
    exact ⟨_, rfl, kept_var ht ⟨rfl, rfl, rfl, fun _ _ => rfl, rfl, SameEngines.of_eq rfl, Nat.le_refl _, Nat.le_refl _⟩⟩
  · rw [if_neg h0, bind_ok (lastErrorCall_ok he1 h0 (by rw [hv1]; simp)),
      bind_ok (readVar_some (v := s.host) (p := s1.c.next) (by exact if_pos rfl)),
      if_neg (Nat.ne_of_gt ht1.c.pos),
      bind_ok (readObject_some (sel := CObj.string?) (v := s.host) (p := s1.c.next) (y := .string (msg e)) (x := msg e)
        (by exact if_pos rfl) (by exact if_pos rfl) rfl),
      bind_ok (ccall_of_run ((destroys_string env c).live _ s1.c.next (.string (msg e)) (msg e) (Nat.ne_of_gt ht1.c.pos)
        (if_pos rfl) rfl))]
    refine ⟨_, rfl, kept_var ht ⟨rfl, rfl, rfl, fun a ha => if_neg ha, ?_, SameEngines.of_eq rfl, Nat.le_succ _, Nat.le_refl _⟩⟩
    exact objects_restored (s := { s1.c with lastError := none }) ⟨ht1.c.pos, ht1.c.null, ht1.c.fresh⟩

theorem ktParseError_true (env : CEnv κ) (msg : Err → List Nat) (c : CCirc) (s : HMem κ) :
    ktParseError env msg c true s = (.ok (), s) := by
  unfold ktParseError
  rw [if_pos rfl]
  rfl

/-- The end is as the outcome and the conversion say; the memory is kept unless there is a panic or the conversion
throws. -/
def ConvAnswer {β τ : Type} (raised : Err → HostError) (conv : β → Except HostError τ) (o : Outcome β) (r : HEnd τ)
    (s s' : HMem κ) : Prop :=
  r = o.hostedBy raised conv ∧ (o ≠ .panic → (∀ x e, o = .ok x → conv x ≠ .error e) → Kept' s s')

theorem convAnswer_local {β τ : Type} (raised : Err → HostError) (conv : β → Except HostError τ) (o : Outcome β) :
    Local (κ := κ) (ConvAnswer raised conv o) :=
  ⟨fun _ _ _ _ ht h => ⟨h.1, fun hp hc => kept_string ht (h.2 hp hc)⟩,
    fun _ _ _ _ ht h => ⟨h.1, fun hp hc => kept_array ht (h.2 hp hc)⟩,
    fun _ _ _ _ ht h => ⟨h.1, fun hp hc => kept_bytes ht (h.2 hp hc)⟩⟩

theorem ktQuery_ends {β τ : Type} {env : CEnv κ} {msg : Err → List Nat} {c : CCirc} {call : Addr → CCall}
    {sel : CObj κ → Option β} {conv : β → Except HostError τ} {destroy : Addr → CCall} (hd : Destroys env c sel destroy)
    {obj : β → CObj κ} (hobj : ∀ x, sel (obj x) = some x) {s : HMem κ}
    (ht : s.Tidy) {o : Outcome β} (hr : ∀ v, (call v).resultVar = some v)
    (hn : NativeOutcome env c (s.taken.setVar s.host (some 0)).c (call s.host) (o.map obj)) :
    Ends (ConvAnswer (ktRaised msg) conv o) (ktQuery env msg c call sel conv destroy) s := by
  set s0 := s.taken.setVar s.host (some 0) with hs0
  have ht0 : s0.Tidy := tidy_setVar ht _
  have hv0 : s0.c.vars s.host = some 0 := if_pos rfl
  obtain ⟨s1, h1⟩ := question_call hn (hr s.host) (by rw [hv0]; simp)
  unfold Ends ktQuery withVar
  simp only
  rw [← hs0]
  cases o with
  | ok x =>
    obtain ⟨hc, hg⟩ := h1
    have hobjx : s1.c.objects s0.c.next = some (obj x) := by rw [hg.objects]; exact if_pos rfl
    rw [bind_ok hc, bind_ok (ktParseError_true env msg c s1), bind_ok (readObject_some hg.var hobjx (hobj x))]
    unfold ConvAnswer Outcome.hostedBy
    cases hcx : conv x with
    | error e =>
      exact ⟨by simp only [hcx]; rfl, fun _ h => absurd hcx (h x e rfl)⟩
    | ok y =>
      simp only
      rw [bind_ok (readVar_some hg.var), bind_ok (ccall_of_run (hd.live s1.c _ _ x (Nat.ne_of_gt ht0.c.pos) hobjx (hobj x)))]
      refine ⟨by simp only [hcx]; rfl, fun _ _ => kept_var ht ⟨hg.strings, hg.arrays, hg.bytes, hg.vars, ?_, hg.engines, hg.next,
        hg.host⟩⟩
      exact restore hg.objects (ht0.c.fresh _ (Nat.le_refl _)).1
  | err e =>
    obtain ⟨hc, he, hk⟩ := h1
    obtain ⟨s2, hp, hk2⟩ := ktParseError_false env msg c (hk.tidy ht0) he
    have hk3 := hk.trans hk2
    rw [bind_ok hc, bind_throws hp]
    exact ⟨rfl, fun _ _ => kept_var ht ⟨hk3.strings, hk3.arrays, hk3.bytes, fun a _ => congrFun hk3.vars a, hk3.objects,
      hk3.engines, hk3.next, hk3.host⟩⟩
  | panic =>
    rw [bind_panic h1]
    exact ⟨rfl, fun h => absurd rfl h⟩

theorem ktFilter_ends {α : Type} {env : CEnv κ} (hu : env.utf8 = utf8OrErr) {Q : HEnd α → HMem κ → HMem κ → Prop}
    (hQ : Local Q) {l : Option (List Text)} (hl : l ≠ some []) {k : List Addr → Addr → HM κ α} {s : HMem κ} (ht : s.Tidy)
    (h : ∀ ps p s1, s1.Tidy → Grew s s1 → FilterIs env s1.c p (l.map (·.map beforeNull)) → Ends Q (k ps p) s1) :
    Ends Q (ktFilter l k) s := by
  cases l with
  | none => exact h [] 0 s ht (Grew.refl s) rfl
  | some l =>
    refine ends_strings hQ ht fun ps s1 ht1 hg1 hps => ends_array hQ ht1 fun p s2 ht2 hg2 hp ha => ?_
    have hne : ps ≠ [] := by
      rintro rfl
      cases l with
      | nil => exact hl rfl
      | cons t l => cases hps
    rw [if_neg hne] at ha
    refine h ps p s2 ht2 (hg1.trans hg2) (filterIs_of_array hu hp ha (hps.imp ?_))
    exact fun q b hq => ⟨hq.1, hg2.strings _ _ hq.2⟩

theorem collect_nothing (ps : List Addr) (s : HMem κ) : collect (fun _ => false) ps s = (.ok (), s) := by
  unfold collect
  congr 1
  have : (fun a => if a ∈ ps ∧ false = true then none else s.c.strings a) = s.c.strings := by
    funext a
    exact if_neg (by simp)
  rw [this]

theorem map_object {κ : Type} {α β : Type} (a : Outcome α) (f : α → Outcome β) (obj : β → CObj κ) :
    (a >>= fun r => (f r).map obj) = (a >>= f).map obj := by
  cases a <;> rfl

theorem ktAsk_ends {τ : Type} {env : CEnv κ} (hu : env.utf8 = utf8OrErr) (msg : Err → List Nat) (conv : KtConv κ τ) (c : CCirc)
    {client : Addr} {h : Handle} {q : Question} (hq : q.FiltersNotEmpty) {s : HMem κ} (ht : s.Tidy)
    (hh : UsableEngine s.c client h) :
    Ends (ConvAnswer (ktRaised msg) (conv.of q) (q.struct env h c)) (ktAsk env msg conv (fun _ => false) c client q) s := by
  obtain ⟨o, ho⟩ : ∃ o, o = q.struct env h c := ⟨_, rfl⟩
  rw [← ho]
  have hQ := convAnswer_local (κ := κ) (ktRaised msg) (conv.of q) o
  unfold ktAsk
  cases q with
  | parse text wl bl ni ns =>
    refine ends_string hQ ht fun p s1 ht1 hg1 hp hs => ktFilter_ends hu hQ hq.1 ht1 fun ws w s2 ht2 hg2 hw =>
      ktFilter_ends hu hQ hq.2 ht2 fun bs b s3 ht3 hg3 hb => ?_
    unfold Ends
    rw [bind_ok (collect_nothing _ _)]
    refine ktQuery_ends (destroys_result env c) (obj := .result) (fun _ => rfl) ht3 (fun _ => rfl) ?_
    have hg4 := grew_var s3 (some 0)
    have hn := NativeOutcome.parseWithAlternatives (c := c) (ni := asU32 ni) (ns := asU32 ns) (result := s3.host)
      (((hg2.trans hg3).trans hg4).readsText (readsText_of_string hu hp hs))
      ((((hg1.trans hg2).trans hg3).trans hg4).usable hh)
      ((hg3.trans hg4).filterIs hw) (hg4.filterIs hb)
    rw [map_object] at hn
    rw [ho]
    exact hn
  | getSlots text intent ns =>
    refine ends_string hQ ht fun p s1 ht1 hg1 hp hs => ends_string hQ ht1 fun p' s2 ht2 hg2 hp' hs' =>
      ktQuery_ends (destroys_slots env c) (obj := .slots) (fun _ => rfl) ht2 (fun _ => rfl) ?_
    have hg3 := grew_var s2 (some 0)
    have hn := NativeOutcome.getSlotsWithAlternatives (c := c) (ns := asU32 ns) (result := s2.host)
      ((hg2.trans hg3).readsText (readsText_of_string hu hp hs)) (hg3.readsText (readsText_of_string hu hp' hs'))
      (((hg1.trans hg2).trans hg3).usable hh)
    rw [map_object] at hn
    rw [ho]
    exact hn
  | getIntents text =>
    refine ends_string hQ ht fun p s1 ht1 hg1 hp hs =>
      ktQuery_ends (destroys_intents env c) (obj := .intents) (fun _ => rfl) ht1 (fun _ => rfl) ?_
    have hg2 := grew_var s1 (some 0)
    have hn := NativeOutcome.getIntents (c := c) (result := s1.host)
      (hg2.readsText (readsText_of_string hu hp hs)) ((hg1.trans hg2).usable hh)
    rw [map_object] at hn
    rw [ho]
    exact hn

theorem ktAskJson_ends {env : CEnv κ} (hu : env.utf8 = utf8OrErr) (msg : Err → List Nat) (c : CCirc)
    {client : Addr} {h : Handle} {q : Question} (hq : q.FiltersNotEmpty) {s : HMem κ} (ht : s.Tidy)
    (hh : UsableEngine s.c client h) :
    Ends (ConvAnswer (ktRaised msg) .ok (q.json env h c)) (ktAskJson env msg (fun _ => false) c client q) s := by
  obtain ⟨o, ho⟩ : ∃ o, o = q.json env h c := ⟨_, rfl⟩
  rw [← ho]
  have hQ := convAnswer_local (κ := κ) (ktRaised msg) (τ := List Nat) .ok o
  unfold ktAskJson
  cases q with
  | parse text wl bl ni ns =>
    refine ends_string hQ ht fun p s1 ht1 hg1 hp hs => ktFilter_ends hu hQ hq.1 ht1 fun ws w s2 ht2 hg2 hw =>
      ktFilter_ends hu hQ hq.2 ht2 fun bs b s3 ht3 hg3 hb => ?_
    unfold Ends
    rw [bind_ok (collect_nothing _ _)]
    refine ktQuery_ends (destroys_string env c) (obj := .string) (fun _ => rfl) ht3 (fun _ => rfl) ?_
    have hg4 := grew_var s3 (some 0)
    have hn := NativeOutcome.parseWithAlternativesJson (c := c) (ni := asU32 ni) (ns := asU32 ns) (result := s3.host)
      (((hg2.trans hg3).trans hg4).readsText (readsText_of_string hu hp hs))
      ((((hg1.trans hg2).trans hg3).trans hg4).usable hh)
      ((hg3.trans hg4).filterIs hw) (hg4.filterIs hb)
    rw [map_string] at hn
    rw [ho]
    exact hn
  | getSlots text intent ns =>
    refine ends_string hQ ht fun p s1 ht1 hg1 hp hs => ends_string hQ ht1 fun p' s2 ht2 hg2 hp' hs' =>
      ktQuery_ends (destroys_string env c) (obj := .string) (fun _ => rfl) ht2 (fun _ => rfl) ?_
    have hg3 := grew_var s2 (some 0)
    have hn := NativeOutcome.getSlotsWithAlternativesJson (c := c) (ns := asU32 ns) (result := s2.host)
      ((hg2.trans hg3).readsText (readsText_of_string hu hp hs)) (hg3.readsText (readsText_of_string hu hp' hs'))
      (((hg1.trans hg2).trans hg3).usable hh)
    rw [map_string] at hn
    rw [ho]
    exact hn
  | getIntents text =>
    refine ends_string hQ ht fun p s1 ht1 hg1 hp hs =>
      ktQuery_ends (destroys_string env c) (obj := .string) (fun _ => rfl) ht1 (fun _ => rfl) ?_
    have hg2 := grew_var s1 (some 0)
    have hn := NativeOutcome.getIntentsJson (c := c) (result := s1.host)
      (hg2.readsText (readsText_of_string hu hp hs)) ((hg1.trans hg2).usable hh)
    rw [map_string] at hn
    rw [ho]
    exact hn

theorem ktCreate_ends {env : CEnv κ} (hu : env.utf8 = utf8OrErr) (msg : Err → List Nat) (c : CCirc) {s : HMem κ}
    (ht : s.Tidy) (src : Text ⊕ List Nat) :
    Ends (Creation env (ktRaised msg) (loadSource env c src s.c.disk)) (ktCreate env msg c src) s := by
  have key : ∀ {o : Outcome LoadedEngine} {d : Disk} {call : Addr → CCall} {s : HMem κ}, s.Tidy →
      Makes env c (call s.host) s.host (s.taken.setVar s.host (some 0)).c o d →
      Ends (Creation env (ktRaised msg) o) (withVar fun v => do
        let ok ← ccall env c (call v)
        ktParseError env msg c ok
        readVar v : HM κ Addr) s := by
    intro o d call s ht hn
    set s0 := s.taken.setVar s.host (some 0) with hs0
    have ht0 : s0.Tidy := tidy_setVar ht _
    unfold Makes at hn
    unfold Ends withVar
    simp only
    rw [← hs0]
    cases o with
    | ok e =>
      have hrun : (call s.host).run env c s0.c = (.ok, afterGiveEngine s.host (Handle.fresh env e) { s0.c with disk := d }) := by
        unfold CCall.run
        rw [hn]
      rw [bind_ok (ccall_of_run hrun), bind_ok (ktParseError_true env msg c _),
        readVar_some (p := s0.c.next) (by exact if_pos rfl)]
      exact ⟨s0.c.next, rfl, added_var ht⟩
    | err e =>
      have hrun : (call s.host).run env c s0.c = (.ko, { s0.c with disk := d, lastError := some e }) := by
        unfold CCall.run
        rw [hn]
      obtain ⟨s2, hp, hk2⟩ := ktParseError_false env msg c
        (s := { s0 with c := { s0.c with disk := d, lastError := some e } })
        (e := e) ⟨⟨ht0.c.pos, ht0.c.null, ht0.c.fresh⟩, ht0.pos, ht0.fresh⟩ rfl
      rw [bind_ok (ccall_of_run hrun)]
      simp only
      rw [bind_throws hp]
      exact ⟨rfl, kept_var ht ⟨hk2.strings, hk2.arrays, hk2.bytes, fun a _ => congrFun hk2.vars a, hk2.objects,
        hk2.engines, hk2.next, hk2.host⟩⟩
    | panic =>
      have hrun : (call s.host).run env c s0.c = (.panic, { s0.c with disk := d }) := by
        unfold CCall.run
        rw [hn]
      rw [bind_panic (ccall_of_run hrun)]
      rfl
  obtain ⟨o, ho⟩ : ∃ o, o = loadSource env c src s.c.disk := ⟨_, rfl⟩
  rw [← ho]
  have hQ := creation_local env (ktRaised msg) o
  unfold ktCreate
  cases src with
  | inl dir =>
    refine ends_string hQ ht fun p s1 ht1 hg1 hp hs => key (d := s1.c.disk) ht1 ?_
    have hm := makes_dir (c := c) (v := s1.host) ((grew_var s1 (some 0)).readsText (readsText_of_string hu hp hs))
      (by rw [show (s1.taken.setVar s1.host (some 0)).c.vars s1.host = some 0 from if_pos rfl]; simp)
    rw [ho]
    unfold loadSource
    rw [← hg1.disk]
    exact hm
  | inr b =>
    refine ends_bytes hQ ht fun p s1 ht1 hg1 hp hs => key ht1
      (d := (fromZip env.load c.order c.fault c.left (env.readZip (b.take (asU32 b.length))) c.tmp s1.c.disk).2) ?_
    have hm := makes_zip (env := env) (c := c) (v := s1.host) (s := (s1.taken.setVar s1.host (some 0)).c) (n := asU32 b.length)
      hs (by rw [asU32_length]; exact Nat.mod_le _ _)
      (by rw [show (s1.taken.setVar s1.host (some 0)).c.vars s1.host = some 0 from if_pos rfl]; simp)
    rw [ho]
    unfold loadSource
    simp only
    rw [← hg1.disk, ← asU32_length]
    exact hm

/-- The end is undefined behaviour. -/
def Lost {α : Type} (r : HEnd α) (_ _ : HMem κ) : Prop := r = .undefined

theorem lost_local {α : Type} : Local (κ := κ) (Lost (α := α)) :=
  ⟨fun _ _ _ _ _ h => h, fun _ _ _ _ _ h => h, fun _ _ _ _ _ h => h⟩

theorem ktQuery_lost {β τ : Type} {env : CEnv κ} {msg : Err → List Nat} {c : CCirc} {call : Addr → CCall}
    {sel : CObj κ → Option β} {conv : β → Except HostError τ} {destroy : Addr → CCall} {s : HMem κ}
    (h : ((call s.host).body env c (s.taken.setVar s.host (some 0)).c).1 = .undefined) :
    Ends Lost (ktQuery env msg c call sel conv destroy) s := by
  unfold Ends ktQuery withVar
  simp only
  have hrun : (call s.host).run env c (s.taken.setVar s.host (some 0)).c =
      (.undefined, ((call s.host).body env c (s.taken.setVar s.host (some 0)).c).2) := by
    unfold CCall.run
    rcases hb : (call s.host).body env c (s.taken.setVar s.host (some 0)).c with ⟨r, s1⟩
    rw [hb] at h
    cases h
    rfl
  rw [bind_undefined (ccall_of_run hrun)]
  rfl

theorem withEngine_dead {α : Type} {client : Addr} {body : Engine → CM κ α} {s : CMem κ} (h0 : client ≠ 0)
    (h : s.engines client = none) : (withEngine client body s).1 = .undefined := by
  unfold withEngine
  rw [if_neg h0, h]

theorem kt_dead {τ : Type} {env : CEnv κ} (hu : env.utf8 = utf8OrErr) (msg : Err → List Nat) (conv : KtConv κ τ) (c : CCirc)
    {client : Addr} (h0 : client ≠ 0) {q : Question} (hq : q.FiltersNotEmpty) {s : HMem κ} (ht : s.Tidy)
    (hh : s.c.engines client = none) :
    (ktAsk env msg conv (fun _ => false) c client q s).1 = .undefined := by
  change Ends Lost (ktAsk env msg conv (fun _ => false) c client q) s
  unfold ktAsk
  cases q with
  | parse text wl bl ni ns =>
    refine ends_string lost_local ht fun p s1 ht1 hg1 hp hs => ktFilter_ends hu lost_local hq.1 ht1 fun ws w s2 ht2 hg2 hw =>
      ktFilter_ends hu lost_local hq.2 ht2 fun bs b s3 ht3 hg3 hb => ?_
    unfold Ends
    rw [bind_ok (collect_nothing _ _)]
    refine ktQuery_lost ?_
    change (runParseWithAlternatives env c client p w b (asU32 ni) (asU32 ns) s3.host _).1 = .undefined
    unfold runParseWithAlternatives
    rw [bind_of_ok (rustString_ok_iff.2 ⟨((hg2.trans hg3).trans (grew_var s3 (some 0))).readsText
      (readsText_of_string hu hp hs), rfl⟩)]
    exact withEngine_dead h0 (by rw [((hg1.trans hg2).trans hg3 |>.trans (grew_var s3 (some 0))).engines]; exact hh)
  | getSlots text intent ns =>
    refine ends_string lost_local ht fun p s1 ht1 hg1 hp hs => ends_string lost_local ht1 fun p' s2 ht2 hg2 hp' hs' =>
      ktQuery_lost ?_
    change (runGetSlots env c client p p' (asU32 ns) s2.host _).1 = .undefined
    unfold runGetSlots
    rw [bind_of_ok (rustString_ok_iff.2 ⟨(hg2.trans (grew_var s2 (some 0))).readsText
      (readsText_of_string hu hp hs), rfl⟩),
      bind_of_ok (rustString_ok_iff.2 ⟨(grew_var s2 (some 0)).readsText (readsText_of_string hu hp' hs'), rfl⟩)]
    exact withEngine_dead h0 (by rw [((hg1.trans hg2).trans (grew_var s2 (some 0))).engines]; exact hh)
  | getIntents text =>
    refine ends_string lost_local ht fun p s1 ht1 hg1 hp hs => ktQuery_lost ?_
    change (runGetIntents env c client p s1.host _).1 = .undefined
    unfold runGetIntents
    rw [bind_of_ok (rustString_ok_iff.2 ⟨(grew_var s1 (some 0)).readsText (readsText_of_string hu hp hs), rfl⟩)]
    exact withEngine_dead h0 (by rw [(hg1.trans (grew_var s1 (some 0))).engines]; exact hh)

theorem withGuard_lost {α : Type} {client : Addr} {m : CM κ α} {s : CMem κ} (h : (m s).1 = .undefined) :
    (withGuard client m s).1 = .undefined := by
  unfold withGuard
  rcases hr : m s with ⟨r, s1⟩
  rw [hr] at h
  cases h
  rfl

theorem bind_lost {α β : Type} {m : CM κ α} {f : α → CM κ β} {s : CMem κ} (h : (m s).1 = .undefined) :
    ((m >>= f) s).1 = .undefined := by
  change (CM.bind m f s).1 = _
  unfold CM.bind
  rcases hr : m s with ⟨r, s1⟩
  rw [hr] at h
  cases h
  rfl

theorem filterArg_lost {env : CEnv κ} {p : Addr} {s : CMem κ} (hp : p ≠ 0)
    (h : s.arrays p = none ∨ ∃ q qs, s.arrays p = some (q :: qs) ∧ s.strings q = none) :
    (filterArg env p s).1 = .undefined := by
  unfold filterArg
  rw [if_pos hp]
  refine bind_lost ?_
  unfold convertToRustVec
  rcases h with h | ⟨q, qs, h1, h2⟩
  · rw [h]
  · rw [h1]
    simp only
    unfold elements
    refine bind_lost ?_
    simp only [element, h2]

/-- An empty whitelist. -/
theorem kt_empty {τ : Type} {env : CEnv κ} (hu : env.utf8 = utf8OrErr) (msg : Err → List Nat) (conv : KtConv κ τ)
    (gc : Addr → Bool) (c : CCirc) {client : Addr} {h : Handle} {s : HMem κ} (ht : s.Tidy)
    (hh : UsableEngine s.c client h) (text : Text) (ni ns : Int) :
    (ktAsk env msg conv gc c client (.parse text (some []) none ni ns) s).1 = .undefined := by
  change Ends Lost (ktAsk env msg conv gc c client (.parse text (some []) none ni ns)) s
  unfold ktAsk
  refine ends_string lost_local ht fun p s1 ht1 hg1 hp hs => ?_
  unfold ktFilter
  refine ends_array lost_local ht1 fun w s2 ht2 hg2 hw ha => ?_
  unfold Ends
  simp only
  have hcol : collect (κ := κ) gc ([] ++ []) s2 = (.ok (), s2) := by
    unfold collect
    congr 1
  rw [bind_ok hcol]
  refine ktQuery_lost ?_
  change (runParseWithAlternatives env c client p w 0 (asU32 ni) (asU32 ns) s2.host _).1 = .undefined
  unfold runParseWithAlternatives
  rw [bind_of_ok (rustString_ok_iff.2 ⟨(hg2.trans (grew_var s2 (some 0))).readsText
    (readsText_of_string hu hp hs), rfl⟩), withEngine_usable (((hg1.trans hg2).trans (grew_var s2 (some 0))).usable hh)]
  exact withGuard_lost (bind_lost (filterArg_lost hw (.inl ha)))

/-- A whitelist whose strings have been collected. -/
theorem kt_collected {τ : Type} {env : CEnv κ} (hu : env.utf8 = utf8OrErr) (msg : Err → List Nat) (conv : KtConv κ τ)
    (c : CCirc) {client : Addr} {h : Handle} {s : HMem κ} (ht : s.Tidy)
    (hh : UsableEngine s.c client h) (text intent : Text) (intents : List Text) (ni ns : Int) :
    ∃ gc, (ktAsk env msg conv gc c client (.parse text (some (intent :: intents)) none ni ns) s).1 = .undefined := by
  refine ⟨fun a => a ≠ s.host, ?_⟩
  change Ends Lost (ktAsk env msg conv _ c client (.parse text (some (intent :: intents)) none ni ns)) s
  unfold ktAsk
  refine ends_string_at lost_local ht ?_
  set s1 := s.taken.setString s.host (some (cBytes (encodeUtf8 text))) with hs1
  have ht1 : s1.Tidy := tidy_setString ht _
  have hg1 : Grew s s1 := grew_string ht _
  have hst : s1.c.strings s.host = some (cBytes (encodeUtf8 text)) := if_pos rfl
  have hp : s.host ≠ 0 := Nat.ne_of_gt ht.pos
  unfold ktFilter
  change Ends Lost _ s1
  refine ends_string_at lost_local ht1 (k := fun p => withStrings (intents.map encodeUtf8) fun ps => _) ?_
  have hg2 : Grew s1 _ := grew_string ht1 (some (cBytes (encodeUtf8 intent)))
  refine ends_strings lost_local (tidy_setString ht1 _) fun qs s2' ht2 hg2' hqs =>
    ends_array lost_local ht2 fun w s3 ht3 hg3 hw ha => ?_
  rw [if_neg (by simp)] at ha
  unfold Ends
  simp only
  set s4 : HMem κ := { s3 with c := { s3.c with strings := fun a =>
    if a ∈ (s1.host :: qs) ++ [] ∧ (decide (a ≠ s.host)) = true then none else s3.c.strings a } } with hs4
  have hcol : collect (κ := κ) (fun a => decide (a ≠ s.host)) ((s1.host :: qs) ++ []) s3 = (.ok (), s4) := rfl
  rw [bind_ok hcol]
  refine ktQuery_lost ?_
  change (runParseWithAlternatives env c client s.host w 0 (asU32 ni) (asU32 ns) _ (s4.taken.setVar s4.host (some 0)).c).1 =
    .undefined
  unfold runParseWithAlternatives
  have hread : ReadsText env (s4.taken.setVar s4.host (some 0)).c s.host (beforeNull text) := by
    refine readsText_of_string (s := s4.taken.setVar s4.host (some 0)) hu hp ?_
    exact (if_neg (by simp)).trans (((hg2.trans hg2').trans hg3).strings _ _ hst)
  rw [bind_of_ok (rustString_ok_iff.2 ⟨hread, rfl⟩),
    withEngine_usable (h := h) ⟨hh.1, (((hg1.trans hg2).trans hg2').trans hg3).engines ▸ hh.2.1, hh.2.2⟩]
  refine withGuard_lost (bind_lost (filterArg_lost hw (.inr ⟨s1.host, qs, ha, ?_⟩)))
  exact if_pos ⟨by simp, decide_eq_true (Nat.ne_of_gt (Nat.lt_succ_self _))⟩

theorem ktClose_live {env : CEnv κ} {c : CCirc} {client : Addr} {h : Handle} {s : HMem κ} (h0 : client ≠ 0)
    (hh : s.c.engines client = some h) :
    ktClose env c client s = (.ok (), { s with c := { s.c with engines := fun a => if a = client then none else s.c.engines a } }) := by
  have hrun : (CCall.destroyClient client).run env c s.c =
      (.ok, { s.c with engines := fun a => if a = client then none else s.c.engines a }) := by
    unfold CCall.run
    change (match destroyClient client s.c with
      | (.ok (), s) => (CStatus.ok, s)
      | (.err e, s) => (.ko, { s with lastError := some e })
      | (.panic, s) => (.panic, s)
      | (.undefined, s) => (.undefined, s)) = _
    unfold destroyClient
    rw [if_neg h0, hh]
  exact bind_ok (ccall_of_run hrun)

theorem ktClose_dead {env : CEnv κ} {c : CCirc} {client : Addr} {s : HMem κ} (h0 : client ≠ 0)
    (hh : s.c.engines client = none) : (ktClose env c client s).1 = .undefined := by
  have hrun : (CCall.destroyClient client).run env c s.c = (.undefined, s.c) := by
    unfold CCall.run
    change (match destroyClient client s.c with
      | (.ok (), s) => (CStatus.ok, s)
      | (.err e, s) => (.ko, { s with lastError := some e })
      | (.panic, s) => (.panic, s)
      | (.undefined, s) => (.undefined, s)) = _
    unfold destroyClient
    rw [if_neg h0, hh]
  have := bind_undefined (f := fun _ => (pure () : HM κ Unit)) (ccall_of_run hrun)
  unfold ktClose
  rw [this]

theorem map_beforeNull {l : Option (List Text)} (hl : ∀ m ∈ l, ∀ t ∈ m, '\x00' ∉ t) : l.map (·.map beforeNull) = l := by
  cases l with
  | none => rfl
  | some l =>
    refine congrArg some ?_
    exact (List.map_congr_left fun t ht => beforeNull_of_notMem (hl l rfl t ht)).trans (List.map_id _)

theorem asU32_toNat {n : Int} (h : 0 ≤ n ∧ n < 2 ^ 32) : asU32 n = n.toNat := by
  unfold asU32
  omega

theorem struct_of_plain {env : CEnv κ} {h : Handle} {c : CCirc} {q : Question} (hq : q.Plain) :
    q.struct env h c = q.plainStruct env h c := by
  unfold Question.struct Question.native Question.plainStruct
  cases q with
  | parse text wl bl ni ns =>
    obtain ⟨h1, h2, h3, h4, h5⟩ := hq
    simp only
    rw [beforeNull_of_notMem h1, map_beforeNull h2, map_beforeNull h3, asU32_toNat h4, asU32_toNat h5]
  | getSlots text intent ns =>
    obtain ⟨h1, h2, h3⟩ := hq
    simp only
    rw [beforeNull_of_notMem h1, beforeNull_of_notMem h2, asU32_toNat h3]
  | getIntents text =>
    simp only
    rw [beforeNull_of_notMem hq]

theorem ktModelVersion_ends (env : CEnv κ) (msg : Err → List Nat) (c : CCirc) {s : HMem κ} (ht : s.Tidy) :
    Ends (fun r s s' => r = .ok (modelVersion.map Char.toNat) ∧ Kept' s s') (ktModelVersion env msg c) s := by
  set s0 := s.taken.setVar s.host (some 0) with hs0
  have ht0 : s0.Tidy := tidy_setVar ht _
  have hv0 : s0.c.vars s.host = some 0 := if_pos rfl
  obtain ⟨x, hx⟩ : ∃ x, x = modelVersion.map Char.toNat := ⟨_, rfl⟩
  have hx0 : 0 ∉ x := by rw [hx]; decide
  have hrun : (CCall.getModelVersion s.host).run env c s0.c = (.ok, afterGive s.host (.string x) s0.c) := by
    have hb : (CCall.getModelVersion s.host).body env c s0.c = (.ok (), afterGive s.host (.string x) s0.c) := by
      rw [hx]
      change CM.pointToString s.host (modelVersion.map fun ch => ch.toNat) s0.c = _
      unfold CM.pointToString
      rw [if_neg (by decide)]
      unfold CM.give
      rw [hv0]
      rfl
    unfold CCall.run
    rw [hb]
  rw [← hx]
  have hobj : (afterGive s.host (.string x) s0.c).objects s0.c.next = some (.string x) := if_pos rfl
  have hvar : (afterGive s.host (.string x) s0.c).vars s.host = some s0.c.next := if_pos rfl
  unfold Ends ktModelVersion ktQuery withVar
  simp only
  rw [← hs0, bind_ok (ccall_of_run hrun), bind_ok (ktParseError_true env msg c _),
    bind_ok (readObject_some (sel := CObj.string?) (x := x) (y := .string x) hvar hobj rfl),
    bind_ok (readVar_some hvar), bind_ok (ccall_of_run ((destroys_string env c).live _ _ _ x (Nat.ne_of_gt ht0.c.pos) hobj rfl))]
  refine ⟨rfl, kept_var ht ⟨rfl, rfl, rfl, fun a ha => if_neg ha, ?_, SameEngines.of_eq rfl, Nat.le_succ _, Nat.le_refl _⟩⟩
  exact restore rfl (ht0.c.fresh _ (Nat.le_refl _)).1

end Snips
