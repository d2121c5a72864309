import Verif.Proofs.Bindings

/-! Lemmas about leaks in the bindings, and about the binding for Swift. -/

namespace Snips

variable {κ : Type}

open CM HM

/-! ### Kotlin: a conversion that throws -/

/-- The conversion of the answer throws, and the answer is never destroyed. -/
def ConvLeak {τ : Type} (x : CObj κ) (e : HostError) (r : HEnd τ) (s s' : HMem κ) : Prop :=
  r = .throws e ∧ Leaked x s s' ∧ s'.c.vars = s.c.vars

theorem convLeak_local {τ : Type} (x : CObj κ) (e : HostError) : Local (κ := κ) (ConvLeak (τ := τ) x e) :=
  ⟨fun _ _ _ _ ht h => ⟨h.1, ⟨restore h.2.1.strings (ht.fresh _ (Nat.le_refl _)).1, h.2.1.arrays, h.2.1.bytes,
      h.2.1.objects, h.2.1.engines⟩, h.2.2⟩,
    fun _ _ _ _ ht h => ⟨h.1, ⟨h.2.1.strings, restore h.2.1.arrays (ht.fresh _ (Nat.le_refl _)).2.1, h.2.1.bytes,
      h.2.1.objects, h.2.1.engines⟩, h.2.2⟩,
    fun _ _ _ _ ht h => ⟨h.1, ⟨h.2.1.strings, h.2.1.arrays, restore h.2.1.bytes (ht.fresh _ (Nat.le_refl _)).2.2.1,
      h.2.1.objects, h.2.1.engines⟩, h.2.2⟩⟩

theorem ktQuery_leaks {β τ : Type} {env : CEnv κ} {msg : Err → List Nat} {c : CCirc} {call : Addr → CCall}
    {sel : CObj κ → Option β} {conv : β → Except HostError τ} {destroy : Addr → CCall}
    {y : CObj κ} {x : β} (hx : sel y = some x) {e : HostError} (he : conv x = .error e) {s : HMem κ}
    (ht : s.Tidy) (hr : ∀ v, (call v).resultVar = some v)
    (hn : NativeOutcome env c (s.taken.setVar s.host (some 0)).c (call s.host) (.ok y)) :
    Ends (ConvLeak y e) (ktQuery env msg c call sel conv destroy) s := by
  set s0 := s.taken.setVar s.host (some 0) with hs0
  have ht0 : s0.Tidy := tidy_setVar ht _
  have hv0 : s0.c.vars s.host = some 0 := if_pos rfl
  obtain ⟨s1, hc, hg⟩ := question_call hn (hr s.host) (by rw [hv0]; simp)
  unfold Ends ktQuery withVar
  simp only
  rw [← hs0]
  have hobjx : s1.c.objects s0.c.next = some y := by rw [hg.objects]; exact if_pos rfl
  rw [bind_ok hc, bind_ok (ktParseError_true env msg c s1), bind_ok (readObject_some hg.var hobjx hx), he]
  refine ⟨rfl, ⟨hg.strings, hg.arrays, hg.bytes, ⟨s0.c.next, (ht0.c.fresh _ (Nat.le_refl _)).1, hg.objects⟩,
    hg.engines⟩, ?_⟩
  funext a
  change (if a = s.host then none else s1.c.vars a) = s.c.vars a
  by_cases ha : a = s.host
  · rw [if_pos ha, ha, (ht.fresh _ (Nat.le_refl _)).2.2.2]
  · rw [if_neg ha, hg.vars a ha]
    exact if_neg ha

theorem kt_leaks {τ : Type} {env : CEnv κ} (hu : env.utf8 = utf8OrErr) (msg : Err → List Nat) (conv : KtConv κ τ) (c : CCirc)
    {client : Addr} {h : Handle} {text : Text} {s : HMem κ} (ht : s.Tidy) (hh : UsableEngine s.c client h) {x : κ}
    (hx : (Question.getIntents text).struct env h c = .ok x) {e : HostError} (he : conv.intents x = .error e) :
    Ends (ConvLeak (.intents x) e) (ktAsk env msg conv (fun _ => false) c client (.getIntents text)) s := by
  unfold ktAsk
  refine ends_string (convLeak_local _ _) ht fun p s1 ht1 hg1 hp hs => ktQuery_leaks (sel := CObj.intents?) (y := .intents x) (x := x) rfl he ht1 (fun _ => rfl) ?_
  have hg2 := grew_var s1 (some 0)
  have hn := NativeOutcome.getIntents (c := c) (result := s1.host)
    (hg2.readsText (readsText_of_string hu hp hs)) ((hg1.trans hg2).usable hh)
  rw [map_object] at hn
  have hx' : (h.answer c (h.engine.getIntents c.order (beforeNull text)) >>= env.cIntents) = .ok x := hx
  rw [hx'] at hn
  exact hn

/-! ### Swift -/

/-- One more object and one more variable. -/
structure LeakedVar (x : CObj κ) (s s' : HMem κ) : Prop extends Leaked x s s' where
  var : VarLeaked x s s'
  tidy : s'.Tidy

theorem tidy_less {s s' : HMem κ} (ht : s.Tidy) (hs : ∀ a, s.c.strings a = none → s'.c.strings a = none)
    (ha : ∀ a, s.c.arrays a = none → s'.c.arrays a = none) (hb : ∀ a, s.c.bytes a = none → s'.c.bytes a = none)
    (hv : ∀ a, s.c.vars a = none → s'.c.vars a = none) (ho : s'.c.objects = s.c.objects)
    (he : s'.c.engines = s.c.engines) (hn : s'.c.next = s.c.next) (hh : s'.host = s.host) : s'.Tidy := by
  refine ⟨⟨hn ▸ ht.c.pos, ⟨ho ▸ ht.c.null.1, he ▸ ht.c.null.2⟩, fun a h => ?_⟩, hh ▸ ht.pos, fun a h => ?_⟩
  · rw [hn] at h
    rw [ho, he]
    exact ht.c.fresh a h
  · rw [hh] at h
    obtain ⟨h1, h2, h3, h4⟩ := ht.fresh a h
    exact ⟨hs a h1, ha a h2, hb a h3, hv a h4⟩

theorem none_of_set {β : Type} {f : Addr → Option β} {p : Addr} (a : Addr) (h : f a = none) :
    (if a = p then none else f a) = none := by
  by_cases ha : a = p
  · exact if_pos ha
  · rw [if_neg ha]; exact h

theorem tidy_noString {s : HMem κ} (ht : s.Tidy) (p : Addr) : (s.setString p none).Tidy :=
  tidy_less ht (fun a h => none_of_set a h) (fun _ h => h) (fun _ h => h) (fun _ h => h) rfl rfl rfl rfl

theorem tidy_noArray {s : HMem κ} (ht : s.Tidy) (p : Addr) : (s.setArray p none).Tidy :=
  tidy_less ht (fun _ h => h) (fun a h => none_of_set a h) (fun _ h => h) (fun _ h => h) rfl rfl rfl rfl

theorem tidy_noBytes {s : HMem κ} (ht : s.Tidy) (p : Addr) : (s.setBytes p none).Tidy :=
  tidy_less ht (fun _ h => h) (fun _ h => h) (fun a h => none_of_set a h) (fun _ h => h) rfl rfl rfl rfl

theorem tidy_noVar {s : HMem κ} (ht : s.Tidy) (p : Addr) : (s.setVar p none).Tidy :=
  tidy_less ht (fun _ h => h) (fun _ h => h) (fun _ h => h) (fun a h => none_of_set a h) rfl rfl rfl rfl

theorem tidy_error {s : HMem κ} (ht : s.Tidy) (e : Option Err) : ({ s with c := { s.c with lastError := e } } : HMem κ).Tidy :=
  tidy_less ht (fun _ h => h) (fun _ h => h) (fun _ h => h) (fun _ h => h) rfl rfl rfl rfl

/-- The end of the body of a method in Swift, before its result is destroyed. -/
def SwInner {β τ : Type} (msg : Err → List Nat) (conv : β → Except HostError τ) (obj : β → CObj κ) (v : Addr)
    (o : Outcome β) (r : HEnd τ) (s s' : HMem κ) : Prop :=
  match o with
  | .ok x => r = o.hostedBy (fun e => .library (msg e)) conv ∧ Gave v (obj x) s s'
  | .err e => (0 ∉ msg e → r = .throws (.library (msg e)) ∧ LeakedVar (.string (msg e)) s s') ∧ (0 ∈ msg e → r = .undefined)
  | .panic => r = .panic

theorem swInner_local {β τ : Type} (msg : Err → List Nat) (conv : β → Except HostError τ) (obj : β → CObj κ) (v : Addr)
    (o : Outcome β) : Local (κ := κ) (SwInner msg conv obj v o) := by
  cases o with
  | ok x =>
    exact ⟨fun _ _ _ _ ht h => ⟨h.1, ⟨restore h.2.strings (ht.fresh _ (Nat.le_refl _)).1, h.2.arrays, h.2.bytes, h.2.var,
        h.2.vars, h.2.objects, h.2.engines, h.2.next, Nat.le_trans (Nat.le_succ _) h.2.host⟩⟩,
      fun _ _ _ _ ht h => ⟨h.1, ⟨h.2.strings, restore h.2.arrays (ht.fresh _ (Nat.le_refl _)).2.1, h.2.bytes, h.2.var,
        h.2.vars, h.2.objects, h.2.engines, h.2.next, Nat.le_trans (Nat.le_succ _) h.2.host⟩⟩,
      fun _ _ _ _ ht h => ⟨h.1, ⟨h.2.strings, h.2.arrays, restore h.2.bytes (ht.fresh _ (Nat.le_refl _)).2.2.1, h.2.var,
        h.2.vars, h.2.objects, h.2.engines, h.2.next, Nat.le_trans (Nat.le_succ _) h.2.host⟩⟩⟩
  | err e =>
    exact ⟨fun _ _ _ _ ht h => ⟨fun h0 => ⟨(h.1 h0).1, ⟨⟨restore (h.1 h0).2.strings (ht.fresh _ (Nat.le_refl _)).1, (h.1 h0).2.arrays,
        (h.1 h0).2.bytes, (h.1 h0).2.objects, (h.1 h0).2.engines⟩, (h.1 h0).2.var, tidy_noString (h.1 h0).2.tidy _⟩⟩, h.2⟩,
      fun _ _ _ _ ht h => ⟨fun h0 => ⟨(h.1 h0).1, ⟨⟨(h.1 h0).2.strings, restore (h.1 h0).2.arrays (ht.fresh _ (Nat.le_refl _)).2.1,
        (h.1 h0).2.bytes, (h.1 h0).2.objects, (h.1 h0).2.engines⟩, (h.1 h0).2.var, tidy_noArray (h.1 h0).2.tidy _⟩⟩, h.2⟩,
      fun _ _ _ _ ht h => ⟨fun h0 => ⟨(h.1 h0).1, ⟨⟨(h.1 h0).2.strings, (h.1 h0).2.arrays,
        restore (h.1 h0).2.bytes (ht.fresh _ (Nat.le_refl _)).2.2.1, (h.1 h0).2.objects, (h.1 h0).2.engines⟩, (h.1 h0).2.var, tidy_noBytes (h.1 h0).2.tidy _⟩⟩, h.2⟩⟩
  | panic => exact ⟨fun _ _ _ _ _ h => h, fun _ _ _ _ _ h => h, fun _ _ _ _ _ h => h⟩

theorem gave_tidy {v : Addr} {x : CObj κ} {s s1 : HMem κ} (ht : s.Tidy) (hg : Gave v x s s1) (hn : s.c.next < s1.c.next)
    (hv : v < s.host) : s1.Tidy := by
  refine ⟨⟨Nat.lt_of_le_of_lt (Nat.zero_le _) hn, ⟨?_, (hg.engines 0).1 ht.c.null.2⟩, fun a ha => ⟨?_, ?_⟩⟩,
    Nat.lt_of_lt_of_le ht.pos hg.host, fun a ha => ?_⟩
  · rw [hg.objects]
    exact (if_neg (Nat.ne_of_lt ht.c.pos)).trans ht.c.null.1
  · rw [hg.objects]
    exact (if_neg (Nat.ne_of_gt (Nat.lt_of_lt_of_le hn ha))).trans
      (ht.c.fresh a (Nat.le_trans (Nat.le_of_lt hn) ha)).1
  · exact (hg.engines a).1 (ht.c.fresh a (Nat.le_trans (Nat.le_of_lt hn) ha)).2
  · rw [hg.strings, hg.arrays, hg.bytes, hg.vars a (Nat.ne_of_gt (Nat.lt_of_lt_of_le hv (Nat.le_trans hg.host ha)))]
    exact ht.fresh a (Nat.le_trans hg.host ha)

theorem swGetLast_leaks {msg : Err → List Nat} {s : HMem κ} (ht : s.Tidy) {e : Err} (he : s.c.lastError = some e)
    (h0 : 0 ∉ msg e) :
    ∃ s', swGetLast msg s = (.ok (.library (msg e)), s') ∧ LeakedVar (.string (msg e)) s s' := by
  set s1 := s.taken.setVar s.host (some 0) with hs1
  have hnew : newVar s = (.ok s.host, s1) := rfl
  have hv1 : s1.c.vars s.host = some 0 := if_pos rfl
  have he1 : s1.c.lastError = some e := he
  unfold swGetLast
  rw [bind_ok hnew, bind_ok (lastErrorCall_ok he1 h0 (by rw [hv1]; simp))]
  simp only [if_true]
  rw [bind_ok (readObject_some (sel := CObj.string?) (v := s.host) (p := s1.c.next) (y := .string (msg e)) (x := msg e)
        (by exact if_pos rfl) (by exact if_pos rfl) rfl)]
  refine ⟨_, rfl, ⟨⟨rfl, rfl, rfl, ⟨s.c.next, (ht.c.fresh _ (Nat.le_refl _)).1, rfl⟩, SameEngines.of_eq rfl⟩,
    ⟨s.host, s.c.next, (ht.fresh _ (Nat.le_refl _)).2.2.2, ?_, if_pos rfl⟩, ?_⟩⟩
  rotate_left
  · have ht1 : s1.Tidy := tidy_setVar ht _
    exact gave_tidy ht1 ⟨rfl, rfl, rfl, if_pos rfl, fun a ha => if_neg ha, rfl, SameEngines.of_eq rfl, Nat.le_succ _, Nat.le_refl _⟩
      (Nat.lt_succ_self _) (Nat.lt_succ_self _)
  funext a
  change (if a = s.host then some s.c.next else if a = s.host then some 0 else s.c.vars a) = _
  by_cases ha : a = s.host
  · rw [if_pos ha, if_pos ha]
  · rw [if_neg ha, if_neg ha, if_neg ha]

theorem Kept'.leakedVar {x : CObj κ} {s s1 s2 : HMem κ} (h : Kept' s s1) (h' : LeakedVar x s1 s2) : LeakedVar x s s2 := by
  obtain ⟨p, hp, ho⟩ := h'.objects
  obtain ⟨v, q, hv, hvs, hq⟩ := h'.var
  exact ⟨⟨h'.strings.trans h.strings, h'.arrays.trans h.arrays, h'.bytes.trans h.bytes,
    ⟨p, by rw [← h.objects]; exact hp, by rw [← h.objects]; exact ho⟩, h.engines.trans h'.engines⟩,
    ⟨v, q, by rw [← h.vars]; exact hv, by rw [← h.vars]; exact hvs, hq⟩, h'.tidy⟩

theorem swGetLast_null {msg : Err → List Nat} {s : HMem κ} {e : Err} (he : s.c.lastError = some e) (h0 : 0 ∈ msg e) :
    (swGetLast msg s).1 = .undefined := by
  set s1 := s.taken.setVar s.host (some 0) with hs1
  have hnew : newVar s = (.ok s.host, s1) := rfl
  have he1 : s1.c.lastError = some e := he
  unfold swGetLast
  rw [bind_ok hnew, bind_ok (lastErrorCall_null he1 h0)]
  rfl

theorem swQuery_lost {τ : Type} {env : CEnv κ} {msg : Err → List Nat} {c : CCirc} {call : CCall} {v : Addr}
    {sel : CObj κ → Option κ} {conv : κ → Except HostError τ} {s s1 : HMem κ} {e : Err}
    (hc : ccall env c call s = (.ok false, s1)) (he : s1.c.lastError = some e) (h0 : 0 ∈ msg e) :
    (swQuery env msg c call v sel conv s).1 = .undefined := by
  unfold swQuery
  rw [bind_ok hc]
  simp only [Bool.false_eq_true, if_false]
  have := swGetLast_null he h0
  rcases hr : swGetLast msg s1 with ⟨r, s2⟩
  rw [hr] at this
  cases this
  rw [bind_undefined hr]

theorem swQuery_ends {τ : Type} {env : CEnv κ} {msg : Err → List Nat} {c : CCirc} {call : CCall} {v : Addr}
    {sel : CObj κ → Option κ} {conv : κ → Except HostError τ} {obj : κ → CObj κ} (hobj : ∀ x, sel (obj x) = some x)
    {s : HMem κ} (ht : s.Tidy) (hv : s.c.vars v ≠ none) {o : Outcome κ} (hr : call.resultVar = some v)
    (hn : NativeOutcome env c s.c call (o.map obj)) :
    Ends (SwInner msg conv obj v o) (swQuery env msg c call v sel conv) s := by
  obtain ⟨s1, h1⟩ := question_call hn hr hv
  unfold Ends swQuery
  cases o with
  | ok x =>
    obtain ⟨hc, hg⟩ := h1
    have hobjx : s1.c.objects s.c.next = some (obj x) := by rw [hg.objects]; exact if_pos rfl
    rw [bind_ok hc]
    simp only [if_true]
    rw [bind_ok (readVar_some hg.var), if_neg (Nat.ne_of_gt ht.c.pos), bind_ok (readObject_some hg.var hobjx (hobj x))]
    unfold SwInner Outcome.hostedBy
    cases hcx : conv x with
    | error e => exact ⟨by simp only [hcx]; rfl, hg⟩
    | ok y => exact ⟨by simp only [hcx]; rfl, hg⟩
  | err e =>
    obtain ⟨hc, he, hk⟩ := h1
    refine ⟨fun h0 => ?_, fun h0 => swQuery_lost hc he h0⟩
    rw [bind_ok hc]
    simp only [Bool.false_eq_true, if_false]
    obtain ⟨s2, h2, hl⟩ := swGetLast_leaks (hk.tidy ht) he h0
    rw [bind_ok h2]
    exact ⟨rfl, hk.leakedVar hl⟩
  | panic =>
    rw [bind_panic h1]
    rfl

/-- The end of a method in Swift. -/
def SwAnswer {β τ : Type} (msg : Err → List Nat) (conv : β → Except HostError τ)
    (o : Outcome β) (r : HEnd τ) (s s' : HMem κ) : Prop :=
  match o with
  | .ok _ => r = o.hostedBy (fun e => .library (msg e)) conv ∧ Kept' s s'
  | .err e => (0 ∉ msg e → r = .throws (.library (msg e)) ∧ LeakedVar (.string (msg e)) s s') ∧ (0 ∈ msg e → r = .undefined)
  | .panic => r = .panic

theorem leaked_var {x : CObj κ} {s s' : HMem κ} (ht : s.Tidy) {w : Option Addr}
    (h : LeakedVar x (s.taken.setVar s.host w) s') (hw : w ≠ none) : LeakedVar x s (s'.setVar s.host none) := by
  obtain ⟨v, q, hv, hvs, hq⟩ := h.var
  have hne : v ≠ s.host := by
    rintro rfl
    exact hw (by rw [← hv]; exact (if_pos rfl).symm)
  have hv' : s.c.vars v = none := by
    rw [← hv]; exact (if_neg hne).symm
  refine ⟨⟨h.strings, h.arrays, h.bytes, h.objects, h.engines⟩, ⟨v, q, hv', ?_, hq⟩, tidy_noVar h.tidy _⟩
  funext a
  change (if a = s.host then none else s'.c.vars a) = _
  by_cases ha : a = s.host
  · rw [if_pos ha, ha, (ht.fresh _ (Nat.le_refl _)).2.2.2, if_neg (Ne.symm hne)]
  · rw [if_neg ha, hvs]
    simp only
    by_cases hav : a = v
    · rw [if_pos hav, if_pos hav]
    · rw [if_neg hav, if_neg hav]
      exact if_neg ha

/-- The end of a method in Swift, with the memory `F` makes of that after the destruction of the result. -/
def SwDone {β τ : Type} (msg : Err → List Nat) (conv : β → Except HostError τ) (v : Addr) (F : HMem κ → HMem κ)
    (o : Outcome β) (r : HEnd τ) (s s' : HMem κ) : Prop :=
  match o with
  | .ok _ => r = o.hostedBy (fun e => .library (msg e)) conv ∧ ∃ s1, KeptBut v s s1 ∧ s' = F s1
  | .err e => (0 ∉ msg e → r = .throws (.library (msg e)) ∧ ∃ s1, LeakedVar (.string (msg e)) s s1 ∧ s' = F s1) ∧
      (0 ∈ msg e → r = .undefined)
  | .panic => r = .panic

theorem finally_lost {α : Type} {m : HM κ α} {f : HM κ Unit} {s : HMem κ} (h : (m s).1 = .undefined) :
    (finally' m f s).1 = .undefined := by
  unfold finally'
  rcases hr : m s with ⟨r, s1⟩
  rw [hr] at h
  cases h
  rfl

theorem swDone {τ : Type} {env : CEnv κ} {msg : Err → List Nat} {c : CCirc} {conv : κ → Except HostError τ}
    {sel : CObj κ → Option κ} {obj : κ → CObj κ} (hobj : ∀ x, sel (obj x) = some x) {destroy : Addr → CCall}
    (hd : Destroys env c sel destroy) {o : Outcome κ} {s : HMem κ} {v : Addr} (ht : s.Tidy) (hv : s.c.vars v = some 0)
    {m : HM κ τ} {free : HM κ Unit} {F : HMem κ → HMem κ} (hF : ∀ s, free s = (.ok (), F s))
    (hm : Ends (SwInner msg conv obj v o) m s) :
    Ends (SwDone msg conv v F o) (finally' m do
      let p ← readVar v
      let _ ← ccall env c (destroy p)
      free) s := by
  unfold Ends at hm ⊢
  rcases hr : m s with ⟨r, s1⟩
  rw [hr] at hm
  cases o with
  | ok x =>
    obtain ⟨h1, hg⟩ := hm
    have hobjx : s1.c.objects s.c.next = some (obj x) := by rw [hg.objects]; exact if_pos rfl
    have hdes : (do
        let p ← readVar v
        let _ ← ccall env c (destroy p)
        free : HM κ Unit) s1 = (.ok (), F { s1 with c := { s1.c with
          objects := fun a => if a = s.c.next then none else s1.c.objects a } }) := by
      rw [bind_ok (readVar_some hg.var),
        bind_ok (ccall_of_run (hd.live s1.c _ _ x (Nat.ne_of_gt ht.c.pos) hobjx (hobj x)))]
      exact hF _
    have hkept : KeptBut v s { s1 with c := { s1.c with objects := fun a => if a = s.c.next then none else s1.c.objects a } } :=
      ⟨hg.strings, hg.arrays, hg.bytes, hg.vars, restore hg.objects (ht.c.fresh _ (Nat.le_refl _)).1,
        hg.engines, hg.next, hg.host⟩
    unfold SwDone
    cases hcx : conv x with
    | ok y =>
      have h2 : (Outcome.ok x).hostedBy (fun e => HostError.library (msg e)) conv = .ok y := by
        simp only [Outcome.hostedBy, hcx]
      rw [h2] at h1
      subst h1
      rw [finally_ok hr hdes]
      exact ⟨h2.symm, _, hkept, rfl⟩
    | error e =>
      have h2 : (Outcome.ok x).hostedBy (fun e => HostError.library (msg e)) conv = .throws e := by
        simp only [Outcome.hostedBy, hcx]
      rw [h2] at h1
      subst h1
      rw [finally_throws hr hdes]
      exact ⟨h2.symm, _, hkept, rfl⟩
  | err e =>
    refine ⟨fun h0 => ?_, fun h0 => finally_lost (by rw [hr]; exact hm.2 h0)⟩
    obtain ⟨h1, hl⟩ := hm.1 h0
    subst h1
    have hv1 : s1.c.vars v = some 0 := by
      obtain ⟨v', q, hv', hvs, hq⟩ := hl.var
      rw [hvs]
      simp only
      rw [if_neg (by rintro rfl; rw [hv] at hv'; cases hv')]
      exact hv
    have hdes : (do
        let p ← readVar v
        let _ ← ccall env c (destroy p)
        free : HM κ Unit) s1 = (.ok (), F { s1 with c := { s1.c with lastError := some (.external 240) } }) := by
      rw [bind_ok (readVar_some hv1), bind_ok (ccall_of_run (hd.null s1.c))]
      exact hF _
    rw [finally_throws hr hdes]
    exact ⟨rfl, { s1 with c := { s1.c with lastError := some (.external 240) } },
      ⟨⟨hl.strings, hl.arrays, hl.bytes, hl.objects, hl.engines⟩, hl.var, tidy_error hl.tidy _⟩, rfl⟩
  | panic =>
    cases hm
    rw [finally_panic hr]
    rfl

/-- A method in Swift without filters. -/
theorem swMethod {τ : Type} {env : CEnv κ} {msg : Err → List Nat} {c : CCirc} {conv : κ → Except HostError τ}
    {sel : CObj κ → Option κ} {obj : κ → CObj κ} (hobj : ∀ x, sel (obj x) = some x) {destroy : Addr → CCall}
    (hd : Destroys env c sel destroy) {o : Outcome κ} {s : HMem κ} (ht : s.Tidy) {m : Addr → HM κ τ}
    (hm : Ends (SwInner msg conv obj s.host o) (m s.host) (s.taken.setVar s.host (some 0))) :
    Ends (SwAnswer msg conv o) (withVar fun v => finally' (m v) do
      let p ← readVar v
      let _ ← ccall env c (destroy p)) s := by
  have h := swDone hobj hd (tidy_setVar ht (some 0)) (if_pos rfl) (free := (pure () : HM κ Unit)) (F := id) (fun _ => rfl) hm
  unfold Ends withVar
  simp only
  unfold Ends at h
  cases o with
  | ok x =>
    obtain ⟨h1, s1, h2, h3⟩ := h
    exact ⟨h1, by rw [h3]; exact kept_var ht h2⟩
  | err e =>
    refine ⟨fun h0 => ?_, h.2⟩
    obtain ⟨h1, s1, h2, h3⟩ := h.1 h0
    exact ⟨h1, by rw [h3]; exact leaked_var ht h2 (by simp)⟩
  | panic => exact h

/-! ### Filters in Swift -/

/-- What a filter takes. -/
structure Alloc (f : Addr × List Addr) (s s1 : HMem κ) : Prop where
  strings : ∀ a, a ∉ f.2 → s1.c.strings a = s.c.strings a
  fresh : ∀ a ∈ f.2, s.c.strings a = none
  arrays : ∀ a, ¬(a = f.1 ∧ f.1 ≠ 0) → s1.c.arrays a = s.c.arrays a
  freshArray : f.1 ≠ 0 → s.c.arrays f.1 = none
  null : f.1 = 0 → f.2 = []
  bytes : s1.c.bytes = s.c.bytes
  vars : s1.c.vars = s.c.vars
  objects : s1.c.objects = s.c.objects
  engines : s1.c.engines = s.c.engines
  next : s1.c.next = s.c.next
  host : s.host ≤ s1.host

theorem swNewStrings_spec (bs : List (List Nat)) {s : HMem κ} (ht : s.Tidy) :
    ∃ ps s1, swNewStrings bs s = (.ok ps, s1) ∧ s1.Tidy ∧ Grew s s1 ∧
      List.Forall₂ (fun p b => p ≠ 0 ∧ s1.c.strings p = some (cBytes b)) ps bs ∧
      (∀ a, a ∉ ps → s1.c.strings a = s.c.strings a) ∧ (∀ a ∈ ps, s.c.strings a = none) ∧
      s1.c.arrays = s.c.arrays ∧ s1.c.bytes = s.c.bytes ∧ s1.c.vars = s.c.vars ∧ s1.c.objects = s.c.objects ∧
      s1.c.next = s.c.next ∧ s.host ≤ s1.host := by
  induction bs generalizing s with
  | nil =>
    exact ⟨[], s, rfl, ht, Grew.refl s, .nil, fun _ _ => rfl, fun _ h => (nomatch h), rfl, rfl, rfl, rfl, rfl, Nat.le_refl _⟩
  | cons b bs ih =>
    have h0 : newString b s = (.ok s.host, s.taken.setString s.host (some (cBytes b))) := rfl
    obtain ⟨ps, s1, h1, h2, h3, h4, h5, h6, h7, h8, h9, h10, h11, h12⟩ := ih (tidy_setString ht (some (cBytes b)))
    refine ⟨s.host :: ps, s1, ?_, h2, (grew_string ht _).trans h3, .cons ⟨Nat.ne_of_gt ht.pos, h3.strings _ _ (if_pos rfl)⟩ h4,
      fun a ha => ?_, fun a ha => ?_, h7, h8, h9, h10, h11, Nat.le_trans (Nat.le_succ _) h12⟩
    · unfold swNewStrings
      rw [bind_ok h0, bind_ok h1]
      rfl
    · rw [List.mem_cons, not_or] at ha
      exact (h5 a ha.2).trans (if_neg ha.1)
    · rcases List.mem_cons.1 ha with rfl | ha
      · exact (ht.fresh _ (Nat.le_refl _)).1
      · have h := h6 a ha
        by_cases hh : a = s.host
        · rw [hh]; exact (ht.fresh _ (Nat.le_refl _)).1
        · exact (if_neg hh).symm.trans h

theorem swFilter_spec {env : CEnv κ} (hu : env.utf8 = utf8OrErr) (l : Option (List Text)) {s : HMem κ} (ht : s.Tidy) :
    ∃ f s1, swFilter l s = (.ok f, s1) ∧ s1.Tidy ∧ Grew s s1 ∧ FilterIs env s1.c f.1 (l.map (·.map beforeNull)) ∧
      Alloc f s s1 := by
  cases l with
  | none =>
    exact ⟨(0, []), s, rfl, ht, Grew.refl s, rfl, ⟨fun _ _ => rfl, fun _ h => (nomatch h), fun _ _ => rfl,
      fun h => absurd rfl h, fun _ => rfl, rfl, rfl, rfl, rfl, rfl, Nat.le_refl _⟩⟩
  | some l =>
    obtain ⟨ps, s1, h1, h2, h3, h4, h5, h6, h7, h8, h9, h10, h11, h12⟩ := swNewStrings_spec (l.map encodeUtf8) ht
    have ha : newArray ps s1 = (.ok s1.host, s1.taken.setArray s1.host (some ps)) := rfl
    have hg := grew_array h2 (some ps)
    have hpos : s1.host ≠ 0 := Nat.ne_of_gt h2.pos
    refine ⟨(s1.host, ps), _, ?_, tidy_setArray h2 (some ps), h3.trans hg, ?_, ⟨h5, h6, fun a hna => ?_, fun _ => ?_,
      fun h => absurd h hpos, h8, h9, h10, h3.engines, h11, Nat.le_trans h12 (Nat.le_succ _)⟩⟩
    · unfold swFilter
      simp only
      rw [bind_ok h1, bind_ok ha]
      rfl
    · exact filterIs_of_array hu hpos (if_pos rfl) (h4.imp fun _ _ h => ⟨h.1, hg.strings _ _ h.2⟩)
    · have hne : a ≠ s1.host := fun h => hna ⟨h, hpos⟩
      exact (if_neg hne).trans (congrFun h7 a)
    · rw [← h7]
      exact (h2.fresh _ (Nat.le_refl _)).2.1

/-- The memory after a filter is released. -/
def freed (f : Addr × List Addr) (s : HMem κ) : HMem κ :=
  if f.1 = 0 then s else (f.2.foldl (fun s p => s.setString p none) s).setArray f.1 none

theorem foldl_setString (ps : List Addr) (s : HMem κ) :
    ps.foldl (fun s p => s.setString p none) s =
      { s with c := { s.c with strings := fun a => if a ∈ ps then none else s.c.strings a } } := by
  induction ps generalizing s with
  | nil =>
    have : (fun a => if a ∈ ([] : List Addr) then none else s.c.strings a) = s.c.strings := by
      funext a; exact if_neg (by simp)
    rw [this]
    rfl
  | cons p ps ih =>
    rw [List.foldl_cons, ih]
    have : (fun a => if a ∈ ps then none else (s.setString p none).c.strings a) =
        fun a => if a ∈ p :: ps then none else s.c.strings a := by
      funext a
      change (if a ∈ ps then none else if a = p then none else s.c.strings a) = _
      by_cases h1 : a ∈ ps
      · rw [if_pos h1, if_pos (List.mem_cons_of_mem _ h1)]
      · rw [if_neg h1]
        by_cases h2 : a = p
        · rw [if_pos h2, if_pos (List.mem_cons.2 (.inl h2))]
        · rw [if_neg h2, if_neg (by simp [h1, h2])]
    rw [this]
    rfl

theorem freed_eq {f : Addr × List Addr} (hf : f.1 = 0 → f.2 = []) (s : HMem κ) :
    freed f s = { s with c := { s.c with
      strings := fun a => if a ∈ f.2 then none else s.c.strings a,
      arrays := fun a => if a = f.1 ∧ f.1 ≠ 0 then none else s.c.arrays a } } := by
  unfold freed
  by_cases h0 : f.1 = 0
  · rw [if_pos h0, hf h0]
    have h1 : (fun a => if a ∈ ([] : List Addr) then none else s.c.strings a) = s.c.strings := by
      funext a; exact if_neg (by simp)
    have h2 : (fun a => if a = f.1 ∧ f.1 ≠ 0 then none else s.c.arrays a) = s.c.arrays := by
      funext a; exact if_neg (fun h => h.2 h0)
    rw [h1, h2]
  · rw [if_neg h0, foldl_setString]
    have h2 : (fun a => if a = f.1 ∧ f.1 ≠ 0 then none else s.c.arrays a) =
        fun a => if a = f.1 then none else s.c.arrays a := by
      funext a
      by_cases ha : a = f.1
      · rw [if_pos ⟨ha, h0⟩, if_pos ha]
      · rw [if_neg (fun h => ha h.1), if_neg ha]
    rw [h2]
    rfl

theorem tidy_freed {f : Addr × List Addr} (hf : f.1 = 0 → f.2 = []) {s : HMem κ} (ht : s.Tidy) : (freed f s).Tidy := by
  rw [freed_eq hf]
  refine tidy_less ht (fun a h => ?_) (fun a h => ?_) (fun _ h => h) (fun _ h => h) rfl rfl rfl rfl
  · change (if a ∈ f.2 then none else s.c.strings a) = none
    rw [h, ite_self]
  · change (if a = f.1 ∧ f.1 ≠ 0 then none else s.c.arrays a) = none
    rw [h, ite_self]

/-- Releasing two filters gives the strings and arrays from before. -/
theorem freed_both {w b : Addr × List Addr} {s s1 s2 s' : HMem κ} (hw : Alloc w s s1) (hb : Alloc b s1 s2)
    (hs : s'.c.strings = s2.c.strings) (ha : s'.c.arrays = s2.c.arrays) :
    (freed b (freed w s')).c.strings = s.c.strings ∧ (freed b (freed w s')).c.arrays = s.c.arrays ∧
    (freed b (freed w s')).c.bytes = s'.c.bytes ∧ (freed b (freed w s')).c.vars = s'.c.vars ∧
    (freed b (freed w s')).c.objects = s'.c.objects ∧ (freed b (freed w s')).c.engines = s'.c.engines ∧
    (freed b (freed w s')).c.next = s'.c.next ∧ (freed b (freed w s')).host = s'.host := by
  rw [freed_eq hb.null, freed_eq hw.null]
  refine ⟨?_, ?_, rfl, rfl, rfl, rfl, rfl, rfl⟩
  · funext a
    simp only
    rw [hs]
    by_cases h1 : a ∈ b.2
    · rw [if_pos h1]
      have h2 := hb.fresh a h1
      by_cases h3 : a ∈ w.2
      · exact (hw.fresh a h3).symm
      · rw [← hw.strings a h3, h2]
    · rw [if_neg h1]
      by_cases h3 : a ∈ w.2
      · rw [if_pos h3, hw.fresh a h3]
      · rw [if_neg h3, hb.strings a h1, hw.strings a h3]
  · funext a
    simp only
    rw [ha]
    by_cases h1 : a = b.1 ∧ b.1 ≠ 0
    · rw [if_pos h1]
      have h2 := hb.freshArray h1.2
      rw [← h1.1] at h2
      by_cases h3 : a = w.1 ∧ w.1 ≠ 0
      · rw [h3.1, hw.freshArray h3.2]
      · rw [← hw.arrays a h3, h2]
    · rw [if_neg h1]
      by_cases h3 : a = w.1 ∧ w.1 ≠ 0
      · rw [if_pos h3, h3.1, hw.freshArray h3.2]
      · rw [if_neg h3, hb.arrays a h1, hw.arrays a h3]

theorem ends_string_var {α : Type} {Q : HEnd α → HMem κ → HMem κ → Prop} (hQ : Local Q) {b : List Nat} {k : Addr → HM κ α}
    {s : HMem κ} (ht : s.Tidy)
    (h : ∀ p s1, s1.Tidy → Grew s s1 → p ≠ 0 → s1.c.strings p = some (cBytes b) → s1.c.vars = s.c.vars → Ends Q (k p) s1) :
    Ends Q (withString b k) s :=
  ends_string_at hQ ht (h s.host (s.taken.setString s.host (some (cBytes b))) (tidy_setString ht _) (grew_string ht _)
    (Nat.ne_of_gt ht.pos) (if_pos rfl) rfl)

theorem swU32_ok {n : Int} (h : 0 ≤ n ∧ n < 2 ^ 32) (s : HMem κ) : swU32 n s = (.ok (asU32 n), s) := by
  unfold swU32
  rw [if_pos (by omega)]
  have : asU32 n = n.toNat := by
    unfold asU32
    omega
  rw [this]

theorem sw_traps {τ : Type} {n : Int} (h : ¬(0 ≤ n ∧ n < 2 ^ 32)) (k : Nat → HM κ τ) (s : HMem κ) :
    (swU32 n >>= k) s = (.trap, s) := by
  refine bind_trap ?_
  unfold swU32
  rw [if_neg (by omega)]

theorem swAsk_ends {τ : Type} {env : CEnv κ} (hu : env.utf8 = utf8OrErr) (msg : Err → List Nat) (conv : KtConv κ τ) (c : CCirc)
    {client : Addr} {h : Handle} {q : Question} (hq : q.NumbersFit) {s : HMem κ} (ht : s.Tidy)
    (hh : UsableEngine s.c client h) :
    Ends (SwAnswer msg (conv.of q) (q.struct env h c)) (swAsk env msg conv c client q) s := by
  obtain ⟨o, ho⟩ : ∃ o, o = q.struct env h c := ⟨_, rfl⟩
  rw [← ho]
  have hg0 := grew_var s (some 0)
  have ht0 := tidy_setVar ht (some 0)
  have hv0 : (s.taken.setVar s.host (some 0)).c.vars s.host = some 0 := if_pos rfl
  unfold swAsk
  cases q with
  | parse text wl bl ni ns =>
    obtain ⟨w, s1, hw1, ht1, hg1, hw, haw⟩ := swFilter_spec hu wl ht0
    obtain ⟨b, s2, hb1, ht2, hg2, hb, hab⟩ := swFilter_spec hu bl ht1
    have hv2 : s2.c.vars s.host = some 0 := by rw [hab.vars, haw.vars]; exact hv0
    have hbody : Ends (SwInner msg conv.result .result s.host o) (withString (encodeUtf8 text) fun q => do
        let ni ← swU32 ni
        let ns ← swU32 ns
        swQuery env msg c (.runParseWithAlternatives client q w.1 b.1 ni ns s.host) s.host CObj.result? conv.result) s2 := by
      refine ends_string_var (swInner_local _ _ _ _ _) ht2 fun p s3 ht3 hg3 hp hs hvs => ?_
      unfold Ends
      rw [bind_ok (swU32_ok hq.1 s3), bind_ok (swU32_ok hq.2 s3)]
      refine swQuery_ends (obj := .result) (fun _ => rfl) ht3 (by rw [hvs, hv2]; simp) rfl ?_
      have hn := NativeOutcome.parseWithAlternatives (c := c) (ni := asU32 ni) (ns := asU32 ns) (result := s.host)
        (readsText_of_string hu hp hs) ((((hg0.trans hg1).trans hg2).trans hg3).usable hh)
        ((hg2.trans hg3).filterIs hw) (hg3.filterIs hb)
      rw [map_object] at hn
      rw [ho]
      exact hn
    have hdone := swDone (F := fun s => freed b (freed w s)) (free := do
        swFree w
        swFree b) (fun _ => rfl) (destroys_result env c) ht2 hv2 (fun _ => rfl) hbody
    unfold Ends withVar
    simp only
    rw [bind_ok hw1, bind_ok hb1]
    unfold Ends at hdone
    cases o with
    | ok x =>
      obtain ⟨h1, s4, h2, h3⟩ := hdone
      refine ⟨h1, ?_⟩
      obtain ⟨e1, e2, e3, e4, e5, e6, e7, e8⟩ := freed_both haw hab h2.strings h2.arrays
      rw [h3]
      refine kept_var (w := some 0) ht ⟨e1, e2, ?_, fun a ha => ?_, ?_, ?_, ?_, ?_⟩
      · rw [e3, h2.bytes, hab.bytes, haw.bytes]
      · rw [e4, h2.vars a ha, hab.vars, haw.vars]
      · rw [e5, h2.objects, hab.objects, haw.objects]
      · refine SameEngines.trans ?_ (h2.engines.trans (SameEngines.of_eq e6))
        exact SameEngines.of_eq (hab.engines.trans haw.engines)
      · rw [e7, ← haw.next, ← hab.next]; exact h2.next
      · rw [e8]; exact Nat.le_trans haw.host (Nat.le_trans hab.host h2.host)
    | err e =>
      refine ⟨fun h0 => ?_, hdone.2⟩
      obtain ⟨h1, s4, h2, h3⟩ := hdone.1 h0
      refine ⟨h1, ?_⟩
      obtain ⟨e1, e2, e3, e4, e5, e6, e7, e8⟩ := freed_both haw hab h2.strings h2.arrays
      rw [h3]
      obtain ⟨p, hp, hobj⟩ := h2.objects
      obtain ⟨v, p', hv, hvs, hp'⟩ := h2.var
      refine leaked_var (w := some 0) ht ⟨⟨e1, e2, ?_, ⟨p, ?_, ?_⟩, ?_⟩, ⟨v, p', ?_, ?_, ?_⟩, ?_⟩ (by simp)
      · rw [e3, h2.bytes, hab.bytes, haw.bytes]
      · rw [← haw.objects, ← hab.objects]; exact hp
      · rw [e5, hobj, hab.objects, haw.objects]
      · refine SameEngines.trans ?_ (h2.engines.trans (SameEngines.of_eq e6))
        exact SameEngines.of_eq (hab.engines.trans haw.engines)
      · rw [← haw.vars, ← hab.vars]; exact hv
      · rw [e4, hvs, hab.vars, haw.vars]
      · rw [e5]; exact hp'
      · exact tidy_freed hab.null (tidy_freed haw.null h2.tidy)
    | panic => exact hdone
  | getSlots text intent ns =>
    refine swMethod (obj := .slots) (fun _ => rfl) (destroys_slots env c) ht ?_
    refine ends_string_var (swInner_local _ _ _ _ _) ht0 fun p s1 ht1 hg1 hp hs hvs =>
      ends_string_var (swInner_local _ _ _ _ _) ht1 fun p' s2 ht2 hg2 hp' hs' hvs' => ?_
    unfold Ends
    rw [bind_ok (swU32_ok hq s2)]
    refine swQuery_ends (obj := .slots) (fun _ => rfl) ht2 (by rw [hvs', hvs, hv0]; simp) rfl ?_
    have hn := NativeOutcome.getSlotsWithAlternatives (c := c) (ns := asU32 ns) (result := s.host)
      (hg2.readsText (readsText_of_string hu hp hs)) (readsText_of_string hu hp' hs')
      (((hg0.trans hg1).trans hg2).usable hh)
    rw [map_object] at hn
    rw [ho]
    exact hn
  | getIntents text =>
    refine swMethod (obj := .intents) (fun _ => rfl) (destroys_intents env c) ht ?_
    refine ends_string_var (swInner_local _ _ _ _ _) ht0 fun p s1 ht1 hg1 hp hs hvs => ?_
    refine swQuery_ends (obj := .intents) (fun _ => rfl) ht1 (by rw [hvs, hv0]; simp) rfl ?_
    have hn := NativeOutcome.getIntents (c := c) (result := s.host)
      (readsText_of_string hu hp hs) ((hg0.trans hg1).usable hh)
    rw [map_object] at hn
    rw [ho]
    exact hn

/-- The end of code that makes an engine in Swift. -/
def SwCreation (env : CEnv κ) (msg : Err → List Nat) (o : Outcome LoadedEngine) (r : HEnd Addr) (s s' : HMem κ) :
    Prop :=
  match o with
  | .ok e => ∃ p, r = .ok p ∧ Added' p (Handle.fresh env e) s s'
  | .err e => (0 ∉ msg e → r = .throws (.library (msg e)) ∧ LeakedVar (.string (msg e)) s s') ∧ (0 ∈ msg e → r = .undefined)
  | .panic => r = .panic

theorem swCreation_local (env : CEnv κ) (msg : Err → List Nat) (o : Outcome LoadedEngine) :
    Local (SwCreation env msg o) := by
  cases o with
  | ok e => exact creation_local env (fun _ => .noEngine) (.ok e)
  | err e =>
    exact swInner_local msg (fun _ => .ok 0) (fun _ : Unit => CObj.string []) 0 (.err e)
  | panic => exact ⟨fun _ _ _ _ _ h => h, fun _ _ _ _ _ h => h, fun _ _ _ _ _ h => h⟩

theorem swInit_ends {env : CEnv κ} (hu : env.utf8 = utf8OrErr) (msg : Err → List Nat) (c : CCirc) {s : HMem κ}
    (ht : s.Tidy) {src : Text ⊕ List Nat} (hsrc : ∀ b, src = .inr b → b ≠ [] ∧ b.length < 2 ^ 32) :
    Ends (SwCreation env msg (loadSource env c src s.c.disk)) (swInit env msg c src) s := by
  have key : ∀ {o : Outcome LoadedEngine} {d : Disk} {call : Addr → CCall} {s : HMem κ}, s.Tidy →
      Makes env c (call s.host) s.host (s.taken.setVar s.host (some 0)).c o d →
      Ends (SwCreation env msg o) (withVar fun v => do
        let ok ← ccall env c (call v)
        if ok then readVar v
        else do
          let e ← swGetLast msg
          throws e : HM κ Addr) s := by
    intro o d call s ht hn
    set s0 := s.taken.setVar s.host (some 0) with hs0
    have ht0 : s0.Tidy := tidy_setVar ht _
    unfold Makes at hn
    unfold Ends withVar
    simp only
    rw [← hs0]
    cases o with
    | ok e =>
      have hrun : (call s.host).run env c s0.c = (.ok, afterGiveEngine s.host (Handle.fresh env e) { s0.c with disk := d }) := by
        unfold CCall.run
        rw [hn]
      rw [bind_ok (ccall_of_run hrun)]
      simp only [if_true]
      rw [readVar_some (p := s0.c.next) (by exact if_pos rfl)]
      exact ⟨s0.c.next, rfl, added_var ht⟩
    | err e =>
      have hrun : (call s.host).run env c s0.c = (.ko, { s0.c with disk := d, lastError := some e }) := by
        unfold CCall.run
        rw [hn]
      refine ⟨fun h0 => ?_, fun h0 => ?_⟩
      rotate_left
      · rw [bind_ok (ccall_of_run hrun)]
        simp only [Bool.false_eq_true, if_false]
        have hlost := swGetLast_null (msg := msg) (s := { s0 with c := { s0.c with disk := d, lastError := some e } }) rfl h0
        rcases hr : swGetLast msg ({ s0 with c := { s0.c with disk := d, lastError := some e } } : HMem κ) with ⟨r, s2⟩
        rw [hr] at hlost
        cases hlost
        rw [bind_undefined hr]
      obtain ⟨s2, h2, hl⟩ := swGetLast_leaks (msg := msg) (s := { s0 with c := { s0.c with disk := d, lastError := some e } })
        (e := e) ⟨⟨ht0.c.pos, ht0.c.null, ht0.c.fresh⟩, ht0.pos, ht0.fresh⟩ rfl h0
      rw [bind_ok (ccall_of_run hrun)]
      simp only [Bool.false_eq_true, if_false]
      rw [bind_ok h2]
      refine ⟨rfl, leaked_var (w := some 0) ht ?_ (by simp)⟩
      exact ⟨⟨hl.strings, hl.arrays, hl.bytes, hl.objects, hl.engines⟩, hl.var, hl.tidy⟩
    | panic =>
      have hrun : (call s.host).run env c s0.c = (.panic, { s0.c with disk := d }) := by
        unfold CCall.run
        rw [hn]
      rw [bind_panic (ccall_of_run hrun)]
      rfl
  obtain ⟨o, ho⟩ : ∃ o, o = loadSource env c src s.c.disk := ⟨_, rfl⟩
  rw [← ho]
  have hQ := swCreation_local env msg o
  unfold swInit
  cases src with
  | inl dir =>
    refine ends_string hQ ht fun p s1 ht1 hg1 hp hs => key (d := s1.c.disk) ht1 ?_
    have hm := makes_dir (c := c) (v := s1.host) ((grew_var s1 (some 0)).readsText (readsText_of_string hu hp hs))
      (by rw [show (s1.taken.setVar s1.host (some 0)).c.vars s1.host = some 0 from if_pos rfl]; simp)
    rw [ho]
    unfold loadSource
    rw [← hg1.disk]
    exact hm
  | inr b =>
    obtain ⟨hne, hlen⟩ := hsrc b rfl
    simp only
    rw [if_neg hne]
    refine ends_bytes hQ ht fun p s1 ht1 hg1 hp hs => ?_
    unfold Ends
    rw [bind_ok (swU32_ok (n := (b.length : Int)) (by omega) s1)]
    refine key ht1
      (d := (fromZip env.load c.order c.fault c.left (env.readZip (b.take (asU32 b.length))) c.tmp s1.c.disk).2) ?_
    have hm := makes_zip (env := env) (c := c) (v := s1.host) (s := (s1.taken.setVar s1.host (some 0)).c) (n := asU32 b.length)
      hs (by rw [asU32_length]; exact Nat.mod_le _ _)
      (by rw [show (s1.taken.setVar s1.host (some 0)).c.vars s1.host = some 0 from if_pos rfl]; simp)
    rw [ho]
    unfold loadSource
    simp only
    rw [← hg1.disk, ← asU32_length]
    exact hm

theorem swInit_empty {env : CEnv κ} (msg : Err → List Nat) (c : CCirc) (s : HMem κ) :
    (swInit env msg c (.inr []) s).1 = .undefined := by
  unfold swInit withBytes
  simp only [if_true]
  rw [bind_ok (swU32_ok (n := (([] : List Nat).length : Int)) (by decide) _)]
  unfold withVar
  simp only
  set s0 := (s.taken.setBytes s.host none).taken.setVar (s.taken.setBytes s.host none).host (some 0) with hs0
  have hrun : (CCall.createFromZip s.host (asU32 ([] : List Nat).length) (s.taken.setBytes s.host none).host).run env c s0.c =
      (.undefined, s0.c) := by
    have hb : (CCall.createFromZip s.host (asU32 ([] : List Nat).length) (s.taken.setBytes s.host none).host).body env c s0.c =
        (.undefined, s0.c) := by
      have hr : readBytes (κ := κ) s.host (asU32 ([] : List Nat).length) s0.c = (.undefined, s0.c) := by
        unfold readBytes
        rw [show s0.c.bytes s.host = none from if_pos rfl]
      change createFromZip env c _ _ _ s0.c = _
      unfold createFromZip
      change CM.bind _ _ s0.c = _
      unfold CM.bind
      rw [hr]
    unfold CCall.run
    rw [hb]
  rw [bind_undefined (ccall_of_run hrun)]

/-- The code traps. -/
def Trapped {α : Type} (r : HEnd α) (_ _ : HMem κ) : Prop := r = .trap

theorem trapped_local {α : Type} : Local (κ := κ) (Trapped (α := α)) :=
  ⟨fun _ _ _ _ _ h => h, fun _ _ _ _ _ h => h, fun _ _ _ _ _ h => h⟩

theorem finally_trap {α : Type} {m : HM κ α} {f : HM κ Unit} {s : HMem κ} (h : (m s).1 = .trap) :
    (finally' m f s).1 = .trap := by
  unfold finally'
  rcases hr : m s with ⟨r, s1⟩
  rw [hr] at h
  cases h
  rfl

theorem swNewStrings_ok (bs : List (List Nat)) (s : HMem κ) : ∃ ps s', swNewStrings bs s = (.ok ps, s') := by
  induction bs generalizing s with
  | nil => exact ⟨[], s, rfl⟩
  | cons b bs ih =>
    obtain ⟨ps, s', h⟩ := ih (s.taken.setString s.host (some (cBytes b)))
    refine ⟨s.host :: ps, s', ?_⟩
    unfold swNewStrings
    rw [bind_ok (show newString b s = (.ok s.host, _) from rfl), bind_ok h]
    rfl

theorem swFilter_ok (l : Option (List Text)) (s : HMem κ) : ∃ f s', swFilter l s = (.ok f, s') := by
  cases l with
  | none => exact ⟨(0, []), s, rfl⟩
  | some l =>
    obtain ⟨ps, s', h⟩ := swNewStrings_ok (l.map encodeUtf8) s
    refine ⟨(s'.host, ps), s'.taken.setArray s'.host (some ps), ?_⟩
    unfold swFilter
    simp only
    rw [bind_ok h, bind_ok (show newArray ps s' = (.ok s'.host, _) from rfl)]
    rfl

theorem swAsk_traps {τ : Type} (env : CEnv κ) (msg : Err → List Nat) (conv : KtConv κ τ) (c : CCirc) (client : Addr)
    {q : Question} (hq : ¬q.NumbersFit) (s : HMem κ) : (swAsk env msg conv c client q s).1 = .trap := by
  cases q with
  | parse text wl bl ni ns =>
    set s0 := s.taken.setVar s.host (some 0) with hs0
    obtain ⟨w, s1, h1⟩ := swFilter_ok wl s0
    obtain ⟨b, s2, h2⟩ := swFilter_ok bl s1
    unfold swAsk withVar
    simp only
    rw [← hs0, bind_ok h1, bind_ok h2]
    refine finally_trap ?_
    unfold withString
    simp only
    by_cases hni : 0 ≤ ni ∧ ni < 2 ^ 32
    · rw [bind_ok (swU32_ok hni _), sw_traps fun hns => hq ⟨hni, hns⟩]
    · rw [sw_traps hni]
  | getSlots text intent ns =>
    unfold swAsk withVar
    refine finally_trap ?_
    unfold withString
    simp only
    rw [sw_traps hq]
  | getIntents text => exact absurd trivial hq

theorem withBytes_trap {α : Type} {b : Option (List Nat)} {k : Addr → HM κ α} {s : HMem κ} (h : ∀ p s, (k p s).1 = .trap) :
    (withBytes b k s).1 = .trap := h _ _

theorem bind_trap {α β : Type} {m : HM κ α} {k : α → HM κ β} {s : HMem κ} (h : m s = (.trap, s)) :
    ((m >>= k) s).1 = .trap := by
  change (HM.bind m k s).1 = _
  unfold HM.bind
  rw [h]

theorem swU32_trap {n : Nat} (h : 4294967296 ≤ n) (s : HMem κ) : swU32 (n : Int) s = (.trap, s) := by
  unfold swU32
  rw [if_neg (by omega)]

theorem swInit_traps (env : CEnv κ) (msg : Err → List Nat) (c : CCirc) {b : List Nat} (hb : 4294967296 ≤ b.length) (s : HMem κ) :
    (swInit env msg c (.inr b) s).1 = .trap := by
  have hs : ∀ s : HMem κ, swU32 (b.length : Int) s = (.trap, s) := swU32_trap hb
  unfold swInit
  simp only
  exact withBytes_trap fun p s => bind_trap (hs s)

end Snips
