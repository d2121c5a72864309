import Verif.Proofs.Ffi
import Verif.Proofs.FfiConcurrent
import Verif.Spec.FfiDemo

/-! # C53: the C interface

A call writes the variable for its result exactly when it reports success, and then what it wrote points to a new
live object; questions are answered as the native engine answers them; a null filter is no filter; calls on a shared
engine are served one at a time. -/

namespace Snips

variable {κ : Type}

open CM

/-- A call that reports success has put the address of a new live object in the variable for its result, and has
written no other variable. -/
theorem c53_success_writes (env : CEnv κ) (c : CCirc) (call : CCall) (s : CMem κ) (v : Addr)
    (hv : call.resultVar = some v) (hok : (call.run env c s).1 = .ok) :
    (call.run env c s).2.vars v = some s.next ∧
    (∀ a, a ≠ v → (call.run env c s).2.vars a = s.vars a) ∧
    ((call.run env c s).2.objects s.next ≠ none ∨ (call.run env c s).2.engines s.next ≠ none) := by
  have h := run_succeeded hok
  generalize (call.run env c s).2 = s' at h
  cases h with
  | @gave client v' x s1 hc hr hd h =>
    rw [hv] at hr
    cases hr
    refine ⟨?_, fun a ha => ?_, .inl ?_⟩
    · simp only [afterGive, if_pos]; rw [h.next]
    · simp only [afterGive, if_neg ha]; rw [h.vars]
    · simp only [afterGive]; rw [if_pos h.next.symm]; simp
  | @gaveEngine v' e s1 hc hr hd h =>
    rw [hv] at hr
    cases hr
    refine ⟨?_, fun a ha => ?_, .inr ?_⟩
    · simp only [afterGiveEngine, if_pos]; rw [h.next]
    · simp only [afterGiveEngine, if_neg ha]; rw [h.vars]
    · simp only [afterGiveEngine]; rw [if_pos h.next.symm]; simp
  | destroyed hc hr hd hp hx hne => rw [hv] at hr; cases hr
  | destroyedClient he hp hx => subst he; cases hv

/-- A call that does not report success has written no variable and has neither made nor destroyed anything. -/
theorem c53_failure_writes_nothing (env : CEnv κ) (c : CCirc) (call : CCall) (s : CMem κ)
    (hfail : (call.run env c s).1 ≠ .ok) :
    (call.run env c s).2.vars = s.vars ∧ (call.run env c s).2.objects = s.objects ∧
    ∀ a, (call.run env c s).2.engines a = none ↔ s.engines a = none := by
  obtain ⟨client, _, hf⟩ := run_failed hfail
  refine ⟨hf.vars, hf.objects, fun a => ⟨fun h => ?_, (hf.engine a).1⟩⟩
  cases he : s.engines a with
  | none => rfl
  | some hd =>
    obtain ⟨h', h1, _⟩ := (hf.engine a).2 hd he
    rw [h] at h1
    cases h1

/-- The variable changes exactly when the call reports success, if it did not hold the new address already. -/
theorem c53_written_iff_success (env : CEnv κ) (c : CCirc) (call : CCall) (s : CMem κ) (v : Addr)
    (hv : call.resultVar = some v) (hold : s.vars v ≠ some s.next) :
    (call.run env c s).2.vars v ≠ s.vars v ↔ (call.run env c s).1 = .ok := by
  constructor
  · intro h
    by_contra hfail
    exact h (congrFun (c53_failure_writes_nothing env c call s hfail).1 v)
  · intro h
    rw [(c53_success_writes env c call s v hv h).1]
    exact hold.symm

/-- In a process that uses the interface as it should, the address of a new object was not in use. -/
theorem c53_new_address (env : CEnv κ) (s : CMem κ) (hs : Session env s) :
    s.next ≠ 0 ∧ s.objects s.next = none ∧ s.engines s.next = none := by
  have h := (session_inv hs).1
  exact ⟨Nat.ne_of_gt h.pos, h.fresh _ (Nat.le_refl _)⟩

/-- A question whose arguments can be read is answered as the native engine answers it: an answer becomes an object,
an error is reported and kept as last error, a panic unwinds and poisons the engine. -/
theorem c53_native (env : CEnv κ) (c : CCirc) (call : CCall) (s : CMem κ) (o : Outcome (CObj κ)) (v : Addr)
    (hn : NativeOutcome env c s call o) (hv : call.resultVar = some v) (hw : s.vars v ≠ none) :
    match o with
    | .ok x => (call.run env c s).1 = .ok ∧ (call.run env c s).2.vars v = some s.next ∧
        (call.run env c s).2.objects s.next = some x
    | .err e => (call.run env c s).1 = .ko ∧ (call.run env c s).2.lastError = some e
    | .panic => (call.run env c s).1 = .panic ∧ ∃ client h, call.client = some client ∧
        (call.run env c s).2.engines client = some h ∧ h.poisoned = true := by
  obtain ⟨client, s1, hc, hf, hb⟩ := query_native hn hv hw
  have hlive : ∃ h, s.engines client = some h := by
    cases hn <;> cases hc <;> exact ⟨_, (‹UsableEngine s _ _›).2.1⟩
  unfold CCall.run
  rw [hb]
  cases o with
  | ok x =>
    refine ⟨rfl, ?_, ?_⟩
    · simp only [finish, afterGive, if_pos]; rw [hf.next]
    · simp only [finish, afterGive]; rw [if_pos hf.next.symm]
  | err e => exact ⟨rfl, rfl⟩
  | panic =>
    obtain ⟨h, hh⟩ := hlive
    obtain ⟨h', h1, _⟩ := hf.alive h hh
    refine ⟨rfl, client, { h' with poisoned := true }, hc, ?_, rfl⟩
    simp only [finish, poison, if_pos]
    rw [h1]
    rfl

/-- Questions succeed only with a native answer. -/
theorem c53_success_is_native (env : CEnv κ) (hu : ∀ b, env.utf8 b ≠ .panic) (c : CCirc) (call : CCall) (s : CMem κ)
    (hval : call.Valid s) (client : Addr) (hq : call.client = some client) (hok : (call.run env c s).1 = .ok) :
    ∃ x, NativeOutcome env c s call (.ok x) ∧ (call.run env c s).2.objects s.next = some x := by
  rcases query_total hu c hval hq with ⟨o, ho⟩ | ⟨e, he⟩
  · obtain ⟨v, hv, _⟩ := query_gives env c hq
    have hw : s.vars v ≠ none := by
      cases ho <;> cases hv <;>
        first | exact hval.2.2.2.2 | exact hval.2.2.2 | exact hval.2.2
    have h := c53_native env c call s o v ho hv hw
    cases o with
    | ok x => exact ⟨x, ho, h.2.2⟩
    | err e => rw [h.1] at hok; cases hok
    | panic => rw [h.1] at hok; cases hok
  · unfold CCall.run at hok
    rw [he] at hok
    cases hok

/-- A question with valid arguments that has no native answer (a string is null or not UTF-8, the engine is null or
poisoned) is refused with an error. -/
theorem c53_refused (env : CEnv κ) (hu : ∀ b, env.utf8 b ≠ .panic) (c : CCirc) (call : CCall) (s : CMem κ)
    (hval : call.Valid s) (client : Addr) (hq : call.client = some client)
    (hno : ∀ o, ¬ NativeOutcome env c s call o) : (call.run env c s).1 = .ko := by
  rcases query_total hu c hval hq with ⟨o, ho⟩ | ⟨e, he⟩
  · exact absurd ho (hno o)
  · unfold CCall.run
    rw [he]

/-- After a panic under the guard every question to that engine is refused. -/
theorem c53_poisoned_refused (env : CEnv κ) (hu : ∀ b, env.utf8 b ≠ .panic) (c : CCirc) (call : CCall) (s : CMem κ)
    (hval : call.Valid s) (client : Addr) (hq : call.client = some client) (h : Handle)
    (hh : s.engines client = some h) (hp : h.poisoned = true) : (call.run env c s).1 = .ko := by
  refine c53_refused env hu c call s hval client hq fun o ho => ?_
  have : ∃ h', UsableEngine s client h' := by
    cases ho <;> cases hq <;> exact ⟨_, by assumption⟩
  obtain ⟨h', _, h1, h2⟩ := this
  rw [hh] at h1
  cases h1
  rw [hp] at h2
  cases h2

/-- Parsing with null filters is parsing without filters. -/
theorem c53_null_filters (env : CEnv κ) (c : CCirc) (s : CMem κ) (client input result : Addr) (text : Text) (h : Handle)
    (ht : ReadsText env s input text) (hh : UsableEngine s client h) :
    NativeOutcome env c s (.runParse client input 0 0 result)
      (h.answer c (h.engine.parse c.order text none none) >>= fun r => (env.cResult r).map .result) :=
  .parse ht hh rfl rfl

/-- No call with valid arguments is undefined behaviour. -/
theorem c53_defined (env : CEnv κ) (hu : ∀ b, env.utf8 b ≠ .panic) (c : CCirc) (call : CCall) (s : CMem κ)
    (hval : call.Valid s) : (call.run env c s).1 ≠ .undefined := by
  have key : ∀ {r : CEnd Unit × CMem κ}, call.body env c s = r → r.1 ≠ .undefined →
      (call.run env c s).1 ≠ .undefined := by
    rintro ⟨r, s'⟩ hr hne
    unfold CCall.run
    rw [hr]
    cases r with
    | ok => simp
    | err => simp
    | panic => simp
    | undefined => exact absurd rfl hne
  have hgive : ∀ {v : Addr} {h : Handle} {s : CMem κ}, s.vars v ≠ none → (giveEngine v h s).1 ≠ .undefined := by
    intro v h s hv
    unfold giveEngine
    cases hs : s.vars v with
    | none => exact absurd hs hv
    | some _ => simp
  cases hq : call.client with
  | some client =>
    rcases query_total hu c hval hq with ⟨o, ho⟩ | ⟨e, he⟩
    · obtain ⟨v, hv, _⟩ := query_gives env c hq
      have hw : s.vars v ≠ none := by
        cases ho <;> cases hv <;>
          first | exact hval.2.2.2.2 | exact hval.2.2.2 | exact hval.2.2
      have h := c53_native env c call s o v ho hv hw
      cases o with
      | ok x => rw [h.1]; simp
      | err e => rw [h.1]; simp
      | panic => rw [h.1]; simp
    · exact key he (by simp)
  | none =>
    have hdes : ∀ {kind : CObj κ → Bool} {p : Addr}, (p = 0 ∨ ∃ x, s.objects p = some x ∧ kind x = true) →
        (destroyObject kind p s).1 ≠ .undefined := by
      intro kind p h
      rcases destroyObject_cases kind p s with ⟨_, _, _, _, h4⟩ | ⟨_, h4⟩ | ⟨hp, hk, h4⟩
      · rw [h4]; simp
      · rw [h4]; simp
      · obtain ⟨x, hx, hxk⟩ := h.resolve_left hp
        rw [hk x hx] at hxk
        cases hxk
    cases call <;> first | (cases hq; done) | skip
    case createFromDir root v =>
      obtain ⟨h1, h2⟩ := hval
      refine key rfl ?_
      change (createFromDir env c root v s).1 ≠ _
      unfold createFromDir
      rcases rustString_total hu h1 with ⟨t, ht⟩ | ⟨e, he⟩
      · rw [bind_of_ok (rustString_ok_iff.2 ⟨ht, rfl⟩)]
        refine bind_defined (lift_defined _ _) fun e s1 h3 => ?_
        obtain ⟨_, rfl⟩ := loadFromDir_ok_iff.1 h3
        exact hgive h2
      · rw [bind_of_err he]; simp
    case createFromZip zip size v =>
      obtain ⟨⟨b, hb1, hb2⟩, h2⟩ := hval
      refine key rfl ?_
      change (createFromZip env c zip size v s).1 ≠ _
      unfold createFromZip
      rw [bind_of_ok (readBytes_ok_iff.2 ⟨⟨b, hb1, hb2, rfl⟩, rfl⟩)]
      refine bind_defined (lift_defined _ _) fun e s1 h3 => ?_
      obtain ⟨_, h4⟩ := loadFromZip_ok_iff.1 h3
      rw [h4]
      exact hgive h2
    case getModelVersion v =>
      refine key rfl ?_
      change (pointToString v _ s).1 ≠ _
      unfold pointToString
      split
      · simp
      · rw [give_writable hval]; simp
    case destroyClient p =>
      refine key rfl ?_
      change (destroyClient p s).1 ≠ _
      rcases destroyClient_cases p s with ⟨_, _, _, h4⟩ | ⟨_, h4⟩ | ⟨hp, hk, h4⟩
      · rw [h4]; simp
      · rw [h4]; simp
      · exact absurd hk (hval.resolve_left hp)
    case destroyString p => exact key rfl (hdes (hval.imp id fun ⟨b, hb⟩ => ⟨_, hb, rfl⟩))
    case destroyResult p => exact key rfl (hdes (hval.imp id fun ⟨b, hb⟩ => ⟨_, hb, rfl⟩))
    case destroySlots p => exact key rfl (hdes (hval.imp id fun ⟨b, hb⟩ => ⟨_, hb, rfl⟩))
    case destroyIntentClassifierResults p => exact key rfl (hdes (hval.imp id fun ⟨b, hb⟩ => ⟨_, hb, rfl⟩))

/-- Whatever was called before, an engine answers through the interface as it answers natively without caches. -/
theorem c53_history_independent (env : CEnv κ) (s : CMem κ) (hs : Session env s) (client : Addr) (h : Handle)
    (hh : s.engines client = some h) (hts : h.ext.TimeStable) (hnp : h.ext.NoPanic) (c : CCirc) {α : Type} (p : Prog α) :
    h.answer c p = p.run (h.ext.world c.time) := by
  obtain ⟨h1, h2⟩ := (session_inv hs).2 client h hh hts hnp
  exact (runCached_spec hts hnp c.time p h.caches h1 h2).1

/-- A question touches no engine but the one it is put to, and that one stays the engine it is. -/
theorem c53_other_engines (env : CEnv κ) (c : CCirc) (call : CCall) (s : CMem κ) (client : Addr)
    (hq : call.client = some client) :
    (∀ a, a ≠ client → (call.run env c s).2.engines a = s.engines a) ∧
    ∀ h, s.engines client = some h → ∃ h', (call.run env c s).2.engines client = some h' ∧
      h'.engine = h.engine ∧ h'.ext = h.ext := by
  have key : ∀ {s1 : CMem κ}, Frame client s s1 → (∀ a, a ≠ client → s1.engines a = s.engines a) ∧
      ∀ h, s.engines client = some h → ∃ h', s1.engines client = some h' ∧ h'.engine = h.engine ∧ h'.ext = h.ext :=
    fun hf => ⟨hf.others, fun h hh => (hf.alive h hh).imp fun h' ⟨a, b, c, _⟩ => ⟨a, b, c⟩⟩
  by_cases hok : (call.run env c s).1 = .ok
  · have h := run_succeeded hok
    generalize (call.run env c s).2 = s' at h
    cases h with
    | gave hc hr hd h =>
      cases hc client hq
      exact ⟨(key h).1, (key h).2⟩
    | gaveEngine hc hr hd h => rw [hq] at hc; cases hc
    | destroyed hc hr hd hp hx hne => rw [hq] at hc; cases hc
    | destroyedClient he hp hx => subst he; cases hq
  · obtain ⟨client', hc, hf⟩ := run_failed hok
    cases hc client hq
    exact key hf

/-- Objects stay what they are until they are destroyed. -/
theorem c53_objects_kept (env : CEnv κ) (c : CCirc) (call : CCall) (s : CMem κ) (hs : Session env s) (p : Addr)
    (x : CObj κ) (hx : s.objects p = some x) (hd : call.destroys ≠ some p) :
    (call.run env c s).2.objects p = some x := by
  have ht := (session_inv hs).1
  have hne : p ≠ s.next := by
    rintro rfl
    rw [(ht.fresh _ (Nat.le_refl _)).1] at hx
    cases hx
  by_cases hok : (call.run env c s).1 = .ok
  · have h := run_succeeded hok
    generalize (call.run env c s).2 = s' at h
    cases h with
    | gave hc hr _ h =>
      simp only [afterGive]
      rw [if_neg (h.next ▸ hne), h.objects, hx]
    | gaveEngine hc hr _ h =>
      simp only [afterGiveEngine]
      rw [h.objects, hx]
    | @destroyed q _ hc hr hd' hp hx' hne' =>
      have : p ≠ q := fun hpq => hd (hpq ▸ hd')
      simp only
      rw [if_neg this, hx]
    | destroyedClient he hp hx' => exact hx
  · obtain ⟨client', hc, hf⟩ := run_failed hok
    rw [hf.objects, hx]

/-- A successful destruction removes the object and nothing else. -/
theorem c53_destroyed (env : CEnv κ) (c : CCirc) (call : CCall) (s : CMem κ) (p : Addr) (hd : call.destroys = some p)
    (hne : ∀ q, call ≠ .destroyClient q) (hok : (call.run env c s).1 = .ok) :
    s.objects p ≠ none ∧ (call.run env c s).2.objects p = none ∧
    (∀ a, a ≠ p → (call.run env c s).2.objects a = s.objects a) ∧ (call.run env c s).2.engines = s.engines ∧
    (call.run env c s).2.vars = s.vars := by
  have h := run_succeeded hok
  generalize (call.run env c s).2 = s' at h
  cases h with
  | gave hc hr hd' h => rw [hd] at hd'; cases hd'
  | gaveEngine hc hr hd' h => rw [hd] at hd'; cases hd'
  | @destroyed q x hc hr hd' hp hx hne' =>
    rw [hd] at hd'
    cases hd'
    exact ⟨by rw [hx]; simp, if_pos rfl, fun a ha => if_neg ha, rfl, rfl⟩
  | destroyedClient he hp hx => exact absurd he (hne _)

/-- Destroying an object twice is undefined behaviour: validity of the arguments is needed. -/
theorem c53_double_destroy (env : CEnv κ) (c c' : CCirc) (s : CMem κ) (p : Addr)
    (hok : ((CCall.destroyResult p).run env c s).1 = .ok) :
    ((CCall.destroyResult p).run env c' ((CCall.destroyResult p).run env c s).2).1 = .undefined := by
  obtain ⟨h1, h2, _⟩ := c53_destroyed env c _ s p rfl (by simp) hok
  generalize ((CCall.destroyResult p).run env c s).2 = s' at h2
  have hp : p ≠ 0 := by
    rintro rfl
    unfold CCall.run at hok
    simp only [CCall.body, destroyObject, if_pos] at hok
    cases hok
  unfold CCall.run
  simp only [CCall.body, destroyObject]
  rw [if_neg hp, h2]

/-- An engine made from a directory is the engine that the native library loads from it; nothing else makes it
succeed. -/
theorem c53_create_from_dir (env : CEnv κ) (c : CCirc) (s s' : CMem κ) (root client : Addr) :
    (CCall.createFromDir root client).run env c s = (.ok, s') →
    ∃ dir e, ReadsText env s root dir ∧ (loadEngine env.load c.order (joinPath env.cwd dir) s.disk.fs).1 = .ok e ∧
      s'.vars client = some s.next ∧ s'.engines s.next = some (Handle.fresh env e) ∧ s'.disk = s.disk := by
  intro h
  have hok : ((CCall.createFromDir root client).run env c s).1 = .ok := by rw [h]
  have hst := run_of_body.2 hok
  rw [h] at hst
  have hb : createFromDir env c root client s = (.ok (), s') := Prod.ext (run_of_body.1.1 hok) hst.symm
  obtain ⟨dir, e, h1, h2, _, rfl⟩ := createFromDir_ok_iff.1 hb
  exact ⟨dir, e, h1, h2, if_pos rfl, if_pos rfl, rfl⟩

/-- If the native library loads an engine from the directory then the call succeeds. -/
theorem c53_create_from_dir_succeeds (env : CEnv κ) (c : CCirc) (s : CMem κ) (root client : Addr) (dir : Text)
    (e : LoadedEngine) (hd : ReadsText env s root dir)
    (he : (loadEngine env.load c.order (joinPath env.cwd dir) s.disk.fs).1 = .ok e) (hv : s.vars client ≠ none) :
    ((CCall.createFromDir root client).run env c s).1 = .ok :=
  run_of_body.1.2 (congrArg Prod.fst (createFromDir_ok_iff.2 ⟨dir, e, hd, he, hv, rfl⟩ :
    createFromDir env c root client s = (.ok (), _)))

/-- An engine made from an archive is the engine that the native library loads from its bytes. -/
theorem c53_create_from_zip (env : CEnv κ) (c : CCirc) (s s' : CMem κ) (zip client : Addr) (size : Nat) :
    (CCall.createFromZip zip size client).run env c s = (.ok, s') →
    ∃ m e, s.bytes zip = some m ∧ size ≤ m.length ∧
      fromZip env.load c.order c.fault c.left (env.readZip (m.take size)) c.tmp s.disk = (.ok e, s'.disk) ∧
      s'.vars client = some s.next ∧ s'.engines s.next = some (Handle.fresh env e) := by
  intro h
  have hok : ((CCall.createFromZip zip size client).run env c s).1 = .ok := by rw [h]
  have hst := run_of_body.2 hok
  rw [h] at hst
  have hb : createFromZip env c zip size client s = (.ok (), s') := Prod.ext (run_of_body.1.1 hok) hst.symm
  obtain ⟨m, e, d, h1, h2, h3, _, rfl⟩ := createFromZip_ok_iff.1 hb
  exact ⟨m, e, h1, h2, h3, if_pos rfl, if_pos rfl⟩

/-! ## Several threads -/

/-- At any time at most one thread is at work on a shared engine. -/
theorem c53_serialised {α : Type} (x : Ext) (c : Caches) (poisoned : Bool) (calls : List (Nat × Prog α)) (s : CSystem α)
    (h : CReachable x (CSystem.start c poisoned calls) s) (i j : Nat) (ti tj : Nat) (thi thj : Thread α)
    (hi : s.threads[i]? = some (ti, .inside thi)) (hj : s.threads[j]? = some (tj, .inside thj)) : i = j := by
  obtain ⟨l, hl⟩ := cinv_reachable h
  cases hheld : s.shared.held with
  | false => have := (hl.free hheld).1 _ (List.mem_of_getElem? hi); cases this
  | true =>
    obtain ⟨k, _, _, _, _, h2, _⟩ := hl.held hheld
    rw [h2 i _ hi rfl, h2 j _ hj rfl]

/-- Under every schedule, the calls that have returned have returned what they return when they are made one after
the other in some order, on an engine in the same initial state.  (Nothing is assumed on the extractors.) -/
theorem c53_sequential_order {α : Type} (x : Ext) (c : Caches) (poisoned : Bool) (calls : List (Nat × Prog α))
    (s : CSystem α) (h : CReachable x (CSystem.start c poisoned calls) s) :
    ∃ order : List Nat, order.Nodup ∧
      (∀ i, i ∈ order ↔ ∃ t o, s.threads[i]? = some (t, CThread.done o)) ∧
      ∃ made : List (Nat × Prog α), made.map some = order.map (fun i => calls[i]?) ∧
        order.map (fun i => s.threads[i]?.map Prod.snd) =
          (callsAlone x made (c, poisoned)).1.map (fun o => some (CThread.done o)) := by
  obtain ⟨l, hl⟩ := cinv_reachable h
  have hlen : ∀ i ∈ l, i < calls.length := by
    intro i hi
    obtain ⟨t, o, ho⟩ := (hl.done i).1 hi
    rw [← hl.length]
    exact (List.getElem?_eq_some_iff.1 ho).1
  have hmade : ∀ l : List Nat, (∀ i ∈ l, i < calls.length) →
      (l.filterMap fun i => calls[i]?).map some = l.map fun i => calls[i]? := by
    intro l
    induction l with
    | nil => intro _; rfl
    | cons i l ih =>
      intro hlt
      have hi := hlt i (by simp)
      rw [List.filterMap_cons_some (List.getElem?_eq_getElem hi), List.map_cons, List.map_cons,
        ih fun j hj => hlt j (List.mem_cons_of_mem _ hj), List.getElem?_eq_getElem hi]
  refine ⟨l, hl.nodup, hl.done, l.filterMap fun i => calls[i]?, hmade l hlen, ?_⟩
  have h1 := congrArg (List.map (Option.map CThread.done)) hl.answers
  rw [List.map_map, List.map_map] at h1
  refine Eq.trans ?_ (h1.trans ?_)
  · refine List.map_congr_left fun i hi => ?_
    obtain ⟨t, o, ho⟩ := (hl.done i).1 hi
    simp [ho, CThread.answer?]
  · exact List.map_congr_left fun o _ => rfl

/-- Finished calls: if extractions do not panic and matches do not depend on the time, each has returned what it
returns natively without caches, whatever the schedule. -/
theorem c53_threads_native {α : Type} (x : Ext) (hts : x.TimeStable) (hnp : x.NoPanic) (cap : Nat)
    (calls : List (Nat × Prog α)) (hsafe : ∀ call ∈ calls, call.2.run (x.world call.1) ≠ .panic) (s : CSystem α)
    (h : CReachable x (CSystem.start (Caches.empty cap) false calls) s) (i t : Nat) (o : Outcome α)
    (hi : s.threads[i]? = some (t, .done o)) :
    ∃ t p, calls[i]? = some (t, p) ∧ o = p.run (x.world t) := by
  obtain ⟨order, _, hmem, made, hmade, hans⟩ := c53_sequential_order x _ false calls s h
  have hrun : ∀ (made : List (Nat × Prog α)) (c : Caches), (∀ call ∈ made, call ∈ calls) → c.Sound x → c.Healthy →
      (callsAlone x made (c, false)).1 = made.map fun call => call.2.run (x.world call.1) := by
    intro made
    induction made with
    | nil => intro c _ _ _; rfl
    | cons call made ih =>
      intro c hin hs hh
      obtain ⟨h1, h2, h3⟩ := runCached_spec hts hnp call.1 call.2 c hs hh
      have hp : (call.2.runCached x call.1 c).1.panicked = false := by
        rw [h1]
        have := hsafe call (hin call (by simp))
        cases hr : call.2.run (x.world call.1) with
        | ok a => rfl
        | err e => rfl
        | panic => exact absurd hr this
      simp only [callsAlone, callAlone, Bool.false_eq_true, if_false, List.map_cons, h1]
      rw [h1] at hp
      simp only [hp]
      rw [ih _ (fun q hq => hin q (List.mem_cons_of_mem _ hq)) h2 h3]
  have hmi : i ∈ order := (hmem i).2 ⟨t, o, hi⟩
  have hin : ∀ call ∈ made, call ∈ calls := by
    intro call hc
    have : some call ∈ order.map (fun i => calls[i]?) := hmade ▸ List.mem_map_of_mem hc
    obtain ⟨j, _, hj⟩ := List.mem_map.1 this
    exact List.mem_of_getElem? hj
  rw [hrun made _ hin (Caches.empty_sound x cap) (Caches.empty_healthy cap)] at hans
  obtain ⟨k, hk⟩ := List.mem_iff_getElem?.1 hmi
  have e1 := congrArg (fun l => l[k]?) hmade
  have e2 := congrArg (fun l => l[k]?) hans
  simp only [List.getElem?_map, hk, Option.map_some] at e1 e2
  cases hm : made[k]? with
  | none => rw [hm] at e1; simp at e1
  | some call =>
    rw [hm] at e1 e2
    simp only [Option.map_some, Option.some.injEq] at e1 e2
    rw [hi] at e2
    simp only [Option.map_some, Option.some.injEq, CThread.done.injEq] at e2
    exact ⟨call.1, call.2, e1.symm, e2⟩

/-- Threads that share an engine do not block each other for ever: while a call has not returned some thread can go
on, and no schedule is infinite. -/
theorem c53_no_deadlock {α : Type} (x : Ext) (c : Caches) (poisoned : Bool) (calls : List (Nat × Prog α))
    (s : CSystem α) (h : CReachable x (CSystem.start c poisoned calls) s)
    (hun : ∃ p ∈ s.threads, ∀ o, p.2 ≠ CThread.done o) : ∃ s', CSystemStep x s s' := by
  obtain ⟨l, hl⟩ := cinv_reachable h
  exact cprogress hl hun

theorem c53_terminates {α : Type} (x : Ext) (c : Caches) (poisoned : Bool) (calls : List (Nat × Prog α)) :
    ¬ ∃ run : Nat → CSystem α, run 0 = CSystem.start c poisoned calls ∧ ∀ i, CSystemStep x (run i) (run (i + 1)) := by
  rintro ⟨run, h0, hstep⟩
  have key : ∀ s, Acc (fun s' s : CSystem α => CSystemStep x s s') s → ∀ i, run i ≠ s := by
    intro s hs
    induction hs with
    | intro s _ ih =>
      intro i hi
      exact ih (run (i + 1)) (hi ▸ hstep i) (i + 1) rfl
  exact key _ (cacc_start x c poisoned calls) 0 h0

/-! ## Examples -/

/-- The engine is created, at address 1. -/
example : ((CCall.createFromDir 1 1).run demoCEnv demoCirc demoCMem).1 = .ok ∧ demoCMem1.vars 1 = some 1 ∧
    (demoCMem1.engines 1).isSome := by decide +kernel

/-- The text `stop` is parsed with the list `[halt]` of allowed intents and without list of forbidden intents; the
result is at address 2. -/
example : ((CCall.runParse 1 5 4 0 2).run demoCEnv demoCirc demoCMem1).1 = .ok ∧
    ((CCall.runParse 1 5 4 0 2).run demoCEnv demoCirc demoCMem1).2.vars 2 = some 2 ∧
    ((CCall.runParse 1 5 4 0 2).run demoCEnv demoCirc demoCMem1).2.objects 2 = some (.result (some "halt".toList)) := by decide +kernel

/-- The arguments of that call are valid. -/
example : (CCall.runParse 1 5 4 0 2).Valid demoCMem1 := by
  refine ⟨.inr ?_, .inr ?_, .inr ⟨[2], ?_, ?_⟩, .inl rfl, ?_⟩
  · intro h
    have : (demoCMem1.engines 1).isSome = true := by decide +kernel
    rw [h] at this
    cases this
  · decide +kernel
  · decide +kernel
  · decide +kernel
  · unfold ResultArg; decide +kernel

/-- A text that is not UTF-8 is refused; the null engine is refused; the variable is left alone. -/
example : ((CCall.runParse 1 3 0 0 2).run demoCEnv demoCirc demoCMem1).1 = .ko ∧
    ((CCall.runParse 0 2 0 0 2).run demoCEnv demoCirc demoCMem1).1 = .ko ∧
    ((CCall.runParse 1 3 0 0 2).run demoCEnv demoCirc demoCMem1).2.vars 2 = some 0 := by decide +kernel

example : ∀ b, demoCEnv.utf8 b ≠ .panic := by
  intro b
  simp only [demoCEnv]
  split <;> simp

/-- Two threads: the second waits while the first is at work. -/
example :
    let ask : Prog Nat := .builtinCached ['a'] none (fun ms => .ret ms.length)
    ∃ s : CSystem Nat, CReachable demoExt (CSystem.start (Caches.empty 5) false [(0, ask), (1, ask)]) s ∧
      (∃ th, s.threads[0]? = some (0, .inside th)) ∧ ∃ p ∈ s.threads, ∀ o, p.2 ≠ CThread.done o := by
  intro ask
  refine ⟨_, .step .refl (CSystemStep.step [] [(1, .waiting ask)] 0 _ _ _ _ (.lock ask _ rfl rfl)), ⟨_, rfl⟩,
    (1, .waiting ask), by simp, by intro o; simp⟩

/-- A thread that has returned. -/
example : ∃ s : CSystem Nat, CReachable demoExt (CSystem.start (Caches.empty 5) false [(0, .ret 7)]) s ∧
    s.threads[0]? = some (0, .done (.ok 7)) :=
  ⟨_, .step (.step (.step .refl (CSystemStep.step [] [] 0 _ _ _ _ (.lock (.ret 7) _ rfl rfl)))
    (CSystemStep.step [] [] 0 _ _ _ _ (.work _ _ _ _ (.ret 7 _)))) (CSystemStep.step [] [] 0 _ _ _ _ (.leave _ _)), rfl⟩

end Snips
