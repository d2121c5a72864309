import Verif.Spec.Python
import Verif.Props.C71_Python

/-! # Engines held by Python programs -/

namespace Snips

open HM CM

variable {κ α β : Type}

/-! ## Caches stay in order -/

theorem CM.effect_good {env : CEnv κ} {call : CCall} {s s' : CMem κ} (h : Effect env call s s') (hg : AllGood s) :
    AllGood s' := by
  cases h with
  | gave hc hr hd h => exact h.allGood hg
  | @gaveEngine v e s1 hc hr hd h =>
    intro a hh hhh
    simp only [afterGiveEngine] at hhh
    by_cases ha : a = s1.next
    · rw [if_pos ha] at hhh
      cases hhh
      exact Handle.fresh_good env e
    · rw [if_neg ha] at hhh
      exact h.allGood hg a hh hhh
  | destroyed hc hr hd hp hx hne => exact hg
  | destroyedClient he hp hx =>
    intro a hh hhh
    simp only at hhh
    split at hhh
    · cases hhh
    · exact hg a hh hhh

/-- Code of a wrapper after which the caches are in order if they were before. -/
def HM.KeepsGood (m : HM κ α) : Prop := ∀ s, AllGood s.c → AllGood (m s).2.c

theorem good_same {m : HM κ α} (h : ∀ s, (m s).2.c.engines = s.c.engines) : m.KeepsGood := fun s hg a hd hh => by
  rw [h] at hh
  exact hg a hd hh

theorem good_bind {m : HM κ α} {f : α → HM κ β} (hm : m.KeepsGood) (hf : ∀ a, (f a).KeepsGood) :
    (m >>= f).KeepsGood := by
  intro s hg
  have h1 := hm s hg
  change AllGood (HM.bind m f s).2.c
  unfold HM.bind
  rcases hr : m s with ⟨r, s1⟩
  rw [hr] at h1
  cases r with
  | ok a => exact hf a s1 h1
  | _ => exact h1

theorem good_finally {m : HM κ α} {f : HM κ Unit} (hm : m.KeepsGood) (hf : f.KeepsGood) : (finally' m f).KeepsGood := by
  intro s hg
  have h1 := hm s hg
  unfold finally'
  rcases hr : m s with ⟨r, s1⟩
  rw [hr] at h1
  cases r with
  | ok a => exact good_bind hf (fun _ => good_same fun _ => rfl) s1 h1
  | throws e => exact good_bind (f := fun _ => throws e) hf (fun _ => good_same fun _ => rfl) s1 h1
  | _ => exact h1

theorem good_onThrow {m : HM κ α} {f : HM κ Unit} (hm : m.KeepsGood) (hf : f.KeepsGood) : (onThrow m f).KeepsGood := by
  intro s hg
  have h1 := hm s hg
  unfold onThrow
  rcases hr : m s with ⟨r, s1⟩
  rw [hr] at h1
  cases r with
  | throws e => exact good_bind (f := fun _ => throws e) hf (fun _ => good_same fun _ => rfl) s1 h1
  | _ => exact h1

theorem good_withString {b : List Nat} {k : Addr → HM κ α} (h : ∀ p, (k p).KeepsGood) : (withString b k).KeepsGood :=
  fun s hg => h _ (s.taken.setString s.host (some (cBytes b))) hg

theorem good_withStrings : ∀ {bs : List (List Nat)} {k : List Addr → HM κ α}, (∀ p, (k p).KeepsGood) →
    (withStrings bs k).KeepsGood
  | [], _, h => h []
  | _ :: _, _, h => good_withString fun p => good_withStrings fun ps => h (p :: ps)

theorem good_withArray {l : Option (List Addr)} {k : Addr → HM κ α} (h : ∀ p, (k p).KeepsGood) :
    (withArray l k).KeepsGood := fun s hg => h _ (s.taken.setArray s.host l) hg

theorem good_withBytes {l : Option (List Nat)} {k : Addr → HM κ α} (h : ∀ p, (k p).KeepsGood) :
    (withBytes l k).KeepsGood := fun s hg => h _ (s.taken.setBytes s.host l) hg

theorem good_withVar {k : Addr → HM κ α} (h : ∀ p, (k p).KeepsGood) : (withVar k).KeepsGood :=
  fun s hg => h _ (s.taken.setVar s.host (some 0)) hg

theorem good_readVar (v : Addr) : (readVar v : HM κ Addr).KeepsGood := good_same fun s => by
  unfold readVar
  split <;> rfl

theorem good_readObject (sel : CObj κ → Option β) (v : Addr) : (readObject sel v).KeepsGood := good_same fun s => by
  unfold readObject
  split
  · rfl
  · split <;> rfl

theorem good_pure (a : α) : (pure a : HM κ α).KeepsGood := good_same fun _ => rfl

theorem good_throws (e : HostError) : (throws e : HM κ α).KeepsGood := good_same fun _ => rfl

theorem good_ccall (env : CEnv κ) (c : CCirc) (call : CCall) : (ccall env c call).KeepsGood := by
  intro s hg
  change AllGood (call.run env c s.c).2
  by_cases hok : (call.run env c s.c).1 = .ok
  · exact effect_good (run_succeeded hok) hg
  · obtain ⟨client, _, hf⟩ := run_failed hok
    exact hf.allGood hg

theorem good_lastError (msg : Err → List Nat) (v : Addr) : (lastErrorCall msg v : HM κ Bool).KeepsGood := good_same fun s => by
  change (getLastError msg v s.c).2.engines = _
  unfold getLastError
  have key : ∀ text, (CM.pointToString v text { s.c with lastError := none }).2.engines = s.c.engines := fun text => by
    unfold CM.pointToString CM.give
    by_cases h : 0 ∈ text
    · simp [h]
    · cases hv : s.c.vars v <;> simp [h, hv]
  simp only
  generalize hr : CM.pointToString v _ _ = r
  have := hr ▸ key _
  rcases r with ⟨r, s1⟩
  cases r <;> exact this

theorem good_stringPointer {env : CEnv κ} {c : CCirc} {k : Addr → HM κ α} (h : ∀ p, (k p).KeepsGood) :
    (pyStringPointer env c k).KeepsGood :=
  good_withVar fun p => good_finally (h p) (good_bind (good_readVar p) fun _ =>
    good_bind (good_ccall _ _ _) fun _ => good_pure _)

theorem good_check (env : CEnv κ) (msg : Err → List Nat) (c : CCirc) (ok : Bool) : (pyCheck env msg c ok).KeepsGood := by
  unfold pyCheck
  split
  · exact good_pure _
  · refine good_bind (good_stringPointer fun p => good_bind (good_lastError _ _) fun ok => ?_) fun m => good_throws m
    split
    · exact good_bind (good_readObject _ _) fun _ => good_pure _
    · exact good_pure _

theorem good_filter {l : Option (List Text)} {k : Addr → HM κ α} (h : ∀ p, (k p).KeepsGood) :
    (pyFilter l k).KeepsGood := by
  unfold pyFilter
  cases l with
  | none => exact h 0
  | some l => exact good_withStrings fun ps => good_withArray h

theorem good_query (env : CEnv κ) (msg : Err → List Nat) (c : CCirc) (call : Addr → CCall) :
    (pyQuery env msg c call).KeepsGood :=
  good_stringPointer fun p => good_bind (good_ccall _ _ _) fun ok => good_bind (good_check _ _ _ _) fun _ => good_readObject _ _

theorem good_pyAsk (env : CEnv κ) (msg : Err → List Nat) (c : CCirc) (engine : Addr) (q : Question) :
    (pyAsk env msg c engine q).KeepsGood := by
  cases q with
  | parse text wl bl ni ns =>
    exact good_filter fun w => good_filter fun b => good_withString fun p => good_query _ _ _ _
  | getSlots text intent ns => exact good_withString fun p => good_withString fun i => good_query _ _ _ _
  | getIntents text => exact good_withString fun p => good_query _ _ _ _

theorem good_pyDel (env : CEnv κ) (c : CCirc) (engine : Addr) : (pyDel env c engine).KeepsGood :=
  good_bind (good_ccall _ _ _) fun _ => good_pure _

theorem good_pyCreate (env : CEnv κ) (msg : Err → List Nat) (c : CCirc) (call : Addr → CCall) :
    (pyCreate env msg c call).KeepsGood :=
  good_withVar fun v => good_onThrow (good_bind (good_ccall _ _ _) fun ok => good_bind (good_check _ _ _ _) fun _ =>
    good_readVar v) (good_bind (good_readVar v) fun p => good_pyDel env c p)

theorem good_pyInit (env : CEnv κ) (msg : Err → List Nat) (c : CCirc) (dir : Option Text) (bytes : Option (List Nat)) :
    (pyInit env msg c dir bytes).KeepsGood := by
  unfold pyInit
  split
  · exact good_withString fun p => good_pyCreate _ _ _ _
  · exact good_withBytes fun p => good_pyCreate _ _ _ _
  · exact good_throws _

/-! ## Histories -/

/-- A history is a run. -/
theorem pyHistory_run {env : CEnv κ} (hu : env.utf8 = utf8OrErr) {msg : Err → List Nat} {s0 s : HMem κ} {l : List PyMade}
    (h : PyHistory env msg s0 s l) : PyRun env msg s0 s (l.map PyMade.address) := by
  induction h with
  | start ht ho he => exact .start ht ho he
  | init h c dir bytes hr ih => exact .init ih c dir bytes hr
  | initThrows h c dir bytes hr ih => exact .initThrows ih c dir bytes hr
  | ask h c hm q hr ih => exact .ask ih c (List.mem_map.2 ⟨_, hm, rfl⟩) q hr
  | askThrows h c hm q hr ih => exact .askThrows ih c (List.mem_map.2 ⟨_, hm, rfl⟩) q hr
  | @del s s' l h c m hm hr ih =>
    have := PyRun.del ih c (List.mem_map.2 ⟨m, hm, rfl⟩) hr
    rw [(c71_invariant hu ih).2.1.erase_eq_filter] at this
    rw [List.filter_map] at this
    convert this using 4
    rename_i x
    by_cases hx : x.address = m.address <;> simp [hx]
  | disk h d ih => exact .disk ih d

theorem pyHistory_good {env : CEnv κ} {msg : Err → List Nat} {s0 s : HMem κ} {l : List PyMade}
    (h : PyHistory env msg s0 s l) : AllGood s.c := by
  induction h with
  | start ht ho he => intro a h hh; rw [he a] at hh; cases hh
  | init h c dir bytes hr ih => have := good_pyInit env msg c dir bytes _ ih; rw [hr] at this; exact this
  | initThrows h c dir bytes hr ih => have := good_pyInit env msg c dir bytes _ ih; rw [hr] at this; exact this
  | @ask s s' l h c m hm q b hr ih => have := good_pyAsk env msg c m.address q _ ih; rw [hr] at this; exact this
  | @askThrows s s' l h c m hm q e hr ih => have := good_pyAsk env msg c m.address q _ ih; rw [hr] at this; exact this
  | @del s s' l h c m hm hr ih => have := good_pyDel env c m.address _ ih; rw [hr] at this; exact this
  | disk h d ih => exact ih

/-- The source of an engine. -/
def PyMade.loads (env : CEnv κ) (m : PyMade) (e : LoadedEngine) : Prop :=
  match m.dir, m.bytes with
  | some dir, _ => loadSource env m.circ (.inl dir) m.disk = .ok e
  | none, some b => loadSource env m.circ (.inr b) m.disk = .ok e
  | none, none => False

/-- A successful `__init__` has loaded the engine. -/
theorem pyInit_loads {env : CEnv κ} (hu : env.utf8 = utf8OrErr) {msg : Err → List Nat} {c : CCirc} {s s' : HMem κ}
    (ht : s.Tidy) {dir : Option Text} {bytes : Option (List Nat)} {p : Addr}
    (hr : pyInit env msg c dir bytes s = (.ok p, s')) :
    ∃ e, PyMade.loads env ⟨p, dir, bytes, c, s.c.disk⟩ e ∧ Added p (Handle.fresh env e) s s' := by
  have key : ∀ src : Text ⊕ List Nat,
      ((∃ d, dir = some d ∧ src = .inl d) ∨ dir = none ∧ ∃ b, bytes = some b ∧ src = .inr b) →
      ∃ e, loadSource env c src s.c.disk = .ok e ∧ Added p (Handle.fresh env e) s s' := by
    intro src hsrc
    have hk := c71_init hu msg c ht hsrc
    cases ho : loadSource env c src s.c.disk with
    | ok e =>
      rw [ho] at hk
      obtain ⟨p', s2, h1, h2, h3⟩ := hk
      rw [hr] at h1
      cases h1
      exact ⟨e, rfl, h2⟩
    | err e =>
      rw [ho] at hk
      obtain ⟨s2, h1, -⟩ := hk
      rw [hr] at h1
      cases h1
    | panic =>
      rw [ho] at hk
      simp only at hk
      rw [hr] at hk
      cases hk
  cases dir with
  | some d => exact key (.inl d) (.inl ⟨d, rfl, rfl⟩)
  | none =>
    cases bytes with
    | some b => exact key (.inr b) (.inr ⟨rfl, b, rfl, rfl⟩)
    | none =>
      rw [c71_no_source] at hr
      cases hr

/-- Every engine that is held is the one which was loaded. -/
theorem pyHistory_engines {env : CEnv κ} (hu : env.utf8 = utf8OrErr) {msg : Err → List Nat} {s0 s : HMem κ}
    {l : List PyMade} (h : PyHistory env msg s0 s l) :
    ∀ m ∈ l, ∃ e hd, m.loads env e ∧ UsableEngine s.c m.address hd ∧ hd.engine = e.engine env.load.names ∧ hd.ext = e.ext := by
  have kept : ∀ {s s' : HMem κ} {l : List PyMade}, SameEngines s.c s'.c →
      (∀ m ∈ l, ∃ e hd, m.loads env e ∧ UsableEngine s.c m.address hd ∧ hd.engine = e.engine env.load.names ∧
        hd.ext = e.ext) →
      ∀ m ∈ l, ∃ e hd, m.loads env e ∧ UsableEngine s'.c m.address hd ∧ hd.engine = e.engine env.load.names ∧
        hd.ext = e.ext := by
    intro s s' l hs ih m hm
    obtain ⟨e, hd, h1, ⟨h2, h3, h4⟩, h5, h6⟩ := ih m hm
    obtain ⟨hd', f1, f2, f3, f4⟩ := (hs m.address).2 hd h3
    exact ⟨e, hd', h1, ⟨h2, f1, f4.trans h4⟩, f2.trans h5, f3.trans h6⟩
  induction h with
  | start ht ho he => simp
  | @init s s' l h c dir bytes p hr ih =>
    have hi := c71_invariant hu (pyHistory_run hu h)
    obtain ⟨e, h1, h2⟩ := pyInit_loads hu hi.1 hr
    intro m hm
    rcases List.mem_cons.1 hm with rfl | hm
    · exact ⟨e, _, h1, ⟨h2.fresh.1, h2.engine, rfl⟩, rfl, rfl⟩
    · obtain ⟨e', hd, g1, ⟨g2, g3, g4⟩, g5, g6⟩ := ih m hm
      have hne : m.address ≠ p := fun he => by
        rw [he, h2.fresh.2] at g3
        cases g3
      exact ⟨e', hd, g1, ⟨g2, by rw [h2.others _ hne]; exact g3, g4⟩, g5, g6⟩
  | @initThrows s s' l h c dir bytes e hr ih =>
    have hi := c71_invariant hu (pyHistory_run hu h)
    have key : ∀ src : Text ⊕ List Nat,
        ((∃ d, dir = some d ∧ src = .inl d) ∨ dir = none ∧ ∃ b, bytes = some b ∧ src = .inr b) →
        SameEngines s.c s'.c := by
      intro src hsrc
      have hk := c71_init hu msg c hi.1 hsrc
      cases ho : loadSource env c src s.c.disk with
      | ok e' =>
        rw [ho] at hk
        obtain ⟨p', s2, h1, h2, h3⟩ := hk
        rw [hr] at h1
        cases h1
      | err e' =>
        rw [ho] at hk
        obtain ⟨s2, h1, h2, -⟩ := hk
        rw [hr] at h1
        cases h1
        exact h2.engines
      | panic =>
        rw [ho] at hk
        simp only at hk
        rw [hr] at hk
        cases hk
    cases dir with
    | some d => exact kept (key (.inl d) (.inl ⟨d, rfl, rfl⟩)) ih
    | none =>
      cases bytes with
      | some b => exact kept (key (.inr b) (.inr ⟨rfl, b, rfl, rfl⟩)) ih
      | none =>
        rw [c71_no_source] at hr
        cases hr
        exact ih
  | @ask s s' l h c m hm q b hr ih =>
    have hi := c71_invariant hu (pyHistory_run hu h)
    obtain ⟨e, hd, -, hh, -, -⟩ := ih m hm
    obtain ⟨h1, h2⟩ := c71_answer hu msg c q hi.1 hh
    rw [hr] at h1 h2
    have hp : q.json env hd c ≠ .panic := fun hp => by rw [hp] at h1; cases h1
    exact kept (h2 hp).1.engines ih
  | @askThrows s s' l h c m hm q e hr ih =>
    have hi := c71_invariant hu (pyHistory_run hu h)
    obtain ⟨e, hd, -, hh, -, -⟩ := ih m hm
    obtain ⟨h1, h2⟩ := c71_answer hu msg c q hi.1 hh
    rw [hr] at h1 h2
    have hp : q.json env hd c ≠ .panic := fun hp => by rw [hp] at h1; cases h1
    exact kept (h2 hp).1.engines ih
  | @del s s' l h c m hm hr ih =>
    obtain ⟨e, hd, -, hh, -, -⟩ := ih m hm
    have hd' := ktClose_live (env := env) (c := c) hh.1 hh.2.1
    rw [show ktClose env c m.address s = pyDel env c m.address s from rfl, hr] at hd'
    cases hd'
    intro m' hm'
    obtain ⟨hm', hne⟩ := List.mem_filter.1 hm'
    have hne : m'.address ≠ m.address := by simpa using hne
    obtain ⟨e', hd', g1, ⟨g2, g3, g4⟩, g5, g6⟩ := ih m' hm'
    exact ⟨e', hd', g1, ⟨g2, (if_neg hne).trans g3, g4⟩, g5, g6⟩
  | disk h d ih => exact ih

end Snips
