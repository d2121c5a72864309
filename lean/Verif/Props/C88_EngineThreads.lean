import Verif.Proofs.EngineShared
import Verif.Props.C09_GetSlots
import Verif.Props.C75_Tagger
import Verif.Spec.Demo

/-! # C88: threads that share an engine, its caches, its taggers and a clock that advances -/

namespace Snips

/-! ### Answers -/

/-- Whatever the schedule, the clock and the state in which the taggers were left, a thread that ends was answered what its
call answers by itself, without caches and without state in the taggers, its extractions of resolved values being made at
times between the beginning of the call and now; or it ended with the error of a poisoned tagger, and another thread ended
with a panic. -/
theorem c88_isolated {α : Type} (x : Ext) (hts : x.TimeStable) (hnp : x.NoPanic) (libs : Nat → CrfLib) (now cap : Nat)
    (current : Nat → Option TokenFeatures) (calls : List (EProg α)) (s : ESystem α)
    (h : EReachable x libs (ESystem.start now (Caches.empty cap) current calls) s) (i t : Nat) (o : Outcome α)
    (hi : s.threads[i]? = some (t, .done o)) :
    ∃ call, calls[i]? = some call ∧
      ((∃ times, TimesWithin times t s.shared.now ∧ (call.alone libs).Answers x t times o) ∨
       (o = .err (.external 245) ∧ ∃ (j t' : Nat), s.threads[j]? = some (t', EThread.done .panic))) := by
  have hinv := einv_reachable hts hnp (Caches.empty_sound x cap) (Caches.empty_healthy cap) h
  obtain ⟨call, hc, hok⟩ := hinv.threads i _ hi
  refine ⟨call, hc, ?_⟩
  cases hok with
  | going ha => cases ha
  | done hw ha => exact .inl ⟨_, hw, ha⟩
  | poisoned hp =>
    obtain ⟨⟨t', p⟩, hp, he⟩ := hp
    obtain ⟨j, hj⟩ := List.getElem?_of_mem hp
    simp only at he
    subst he
    exact .inr ⟨rfl, j, t', hj⟩

/-- A thread ends with a panic only if its own call can. -/
theorem c88_panics_stay {α : Type} (x : Ext) (hts : x.TimeStable) (hnp : x.NoPanic) (libs : Nat → CrfLib) (now cap : Nat)
    (current : Nat → Option TokenFeatures) (calls : List (EProg α)) (s : ESystem α)
    (h : EReachable x libs (ESystem.start now (Caches.empty cap) current calls) s) (i t : Nat)
    (hi : s.threads[i]? = some (t, .done .panic)) :
    ∃ call, calls[i]? = some call ∧ ∃ times, TimesWithin times t s.shared.now ∧ (call.alone libs).Answers x t times .panic := by
  obtain ⟨call, hc, h1 | ⟨h1, _⟩⟩ := c88_isolated x hts hnp libs now cap current calls s h i t _ hi
  · exact ⟨call, hc, h1⟩
  · cases h1

/-- When no call can panic by itself, every thread that ends was answered what its call answers by itself. -/
theorem c88_no_interference {α : Type} (x : Ext) (hts : x.TimeStable) (hnp : x.NoPanic) (libs : Nat → CrfLib)
    (now cap : Nat) (current : Nat → Option TokenFeatures) (calls : List (EProg α))
    (hcalls : ∀ call ∈ calls, ∀ t times, ¬ (call.alone libs).Answers x t times .panic) (s : ESystem α)
    (h : EReachable x libs (ESystem.start now (Caches.empty cap) current calls) s) (i t : Nat) (o : Outcome α)
    (hi : s.threads[i]? = some (t, .done o)) :
    ∃ call times, calls[i]? = some call ∧ TimesWithin times t s.shared.now ∧ (call.alone libs).Answers x t times o := by
  obtain ⟨call, hc, ⟨times, h1, h2⟩ | ⟨_, j, t', hj⟩⟩ := c88_isolated x hts hnp libs now cap current calls s h i t o hi
  · exact ⟨call, times, hc, h1, h2⟩
  · obtain ⟨call', hc', times, _, hp⟩ := c88_panics_stay x hts hnp libs now cap current calls s h j t' hj
    exact absurd hp (hcalls call' (List.mem_of_getElem? hc') t' times)

/-- For an engine: threads that call any of its operations are answered what the engine of the rest of the model answers,
at times within their calls. -/
theorem c88_engine (x : Ext) (hts : x.TimeStable) (hnp : x.NoPanic) (libs : Nat → CrfLib) (e : EEngine) (e' : Engine)
    (he : SameEngine libs e e') (now cap : Nat) (current : Nat → Option TokenFeatures) (calls : List EngineCall)
    (hcalls : ∀ call ∈ calls, ∀ t times, ¬ (e'.code call).Answers x t times .panic) (s : ESystem EngineAnswer)
    (h : EReachable x libs (ESystem.start now (Caches.empty cap) current (calls.map e.code)) s) (i t : Nat)
    (o : Outcome EngineAnswer) (hi : s.threads[i]? = some (t, .done o)) :
    ∃ call times, calls[i]? = some call ∧ TimesWithin times t s.shared.now ∧ (e'.code call).Answers x t times o := by
  obtain ⟨p, times, hp, hw, ha⟩ := c88_no_interference x hts hnp libs now cap current (calls.map e.code) (by
    intro p hp
    obtain ⟨call, hc, rfl⟩ := List.mem_map.1 hp
    intro t times
    rw [code_alone he]
    exact hcalls call hc t times) s h i t o hi
  rw [List.getElem?_map, Option.map_eq_some_iff] at hp
  obtain ⟨call, hc, rfl⟩ := hp
  rw [code_alone he] at ha
  exact ⟨call, times, hc, hw, ha⟩

/-- When what the builtin parser answers did not change since the beginning of the call, the answer is that of a single run
at the time of the beginning. -/
theorem c88_frozen (x : Ext) (hts : x.TimeStable) (hnp : x.NoPanic) (libs : Nat → CrfLib) (e : EEngine) (e' : Engine)
    (he : SameEngine libs e e') (now cap : Nat) (current : Nat → Option TokenFeatures) (calls : List EngineCall)
    (hcalls : ∀ call ∈ calls, ∀ t times, ¬ (e'.code call).Answers x t times .panic) (s : ESystem EngineAnswer)
    (h : EReachable x libs (ESystem.start now (Caches.empty cap) current (calls.map e.code)) s) (i t : Nat)
    (o : Outcome EngineAnswer) (hi : s.threads[i]? = some (t, .done o))
    (hfz : ∀ u, t ≤ u → u ≤ s.shared.now → x.builtinRaw u = x.builtinRaw t) :
    ∃ call, calls[i]? = some call ∧ o = (e'.code call).run (x.world t) := by
  obtain ⟨call, times, hc, hw, ha⟩ := c88_engine x hts hnp libs e e' he now cap current calls hcalls s h i t o hi
  exact ⟨call, hc, answers_run hts ha fun u hu => hfz u (hw.within u hu).1 (hw.within u hu).2⟩

/-- `Answers` is what it should be: the times determine the answer, and at one time it is that of the interpreter of the
rest of the model. -/
theorem c88_answers {α : Type} (x : Ext) (hts : x.TimeStable) (t : Nat) (p : Prog α) :
    (∀ times o o', p.Answers x t times o → p.Answers x t times o' → o = o') ∧
    (∃ n, p.Answers x t (List.replicate n t) (p.run (x.world t))) ∧
    (∀ times o, p.Answers x t times o → (∀ u ∈ times, u = t) → o = p.run (x.world t)) :=
  ⟨fun _ _ _ => answers_unique, answers_exist x t p, fun _ _ h hall =>
    answers_run hts h fun u hu => by rw [hall u hu]⟩

/-- Nothing less can be said: every answer of a call, at whatever times in order from its beginning on, is the answer of
its thread under some schedule. -/
theorem c88_every_answer {α : Type} (x : Ext) (hts : x.TimeStable) (hnp : x.NoPanic) (libs : Nat → CrfLib) (now cap : Nat)
    (current : Nat → Option TokenFeatures) (calls : List (EProg α)) (i : Nat) (call : EProg α)
    (hc : calls[i]? = some call) (t last : Nat) (times : List Nat) (o : Outcome α) (ht : now ≤ t)
    (hw : TimesWithin times t last) (ha : (call.alone libs).Answers x t times o) :
    ∃ s, EReachable x libs (ESystem.start now (Caches.empty cap) current calls) s ∧ s.threads[i]? = some (t, .done o) :=
  complete_start hts hnp (Caches.empty_sound x cap) (Caches.empty_healthy cap) hc ht hw.sorted
    (fun u hu => (hw.within u hu).1) ha

/-! ### Locks -/

/-- At most one thread is inside each cache and each tagger; a mutex is held exactly when one is. -/
theorem c88_exclusive {α : Type} (x : Ext) (libs : Nat → CrfLib) (now : Nat) (c : Caches)
    (current : Nat → Option TokenFeatures) (calls : List (EProg α)) (s : ESystem α)
    (h : EReachable x libs (ESystem.start now c current calls) s) :
    s.threads.countP (fun p => p.2.holdsBuiltin) = (if s.shared.shared.builtinHeld then 1 else 0) ∧
    s.threads.countP (fun p => p.2.holdsCustom) = (if s.shared.shared.customHeld then 1 else 0) ∧
    ∀ i, s.threads.countP (fun p => p.2.holdsTagger i) = if (s.shared.taggers i).held then 1 else 0 :=
  ⟨(elocks_reachable h).builtin, (elocks_reachable h).custom, (elocks_reachable h).tagger⟩

/-- No deadlock, with the mutexes of the caches and of all the taggers together. -/
theorem c88_no_deadlock {α : Type} (x : Ext) (libs : Nat → CrfLib) (now : Nat) (c : Caches)
    (current : Nat → Option TokenFeatures) (calls : List (EProg α)) (s : ESystem α)
    (h : EReachable x libs (ESystem.start now c current calls) s)
    (hun : ∃ p ∈ s.threads, ∀ o, p.2 ≠ EThread.done o) : ∃ s', EMove x libs s s' :=
  eprogress (elocks_reachable h) hun

/-- No schedule runs forever, however the clock advances between the moves. -/
theorem c88_terminates {α : Type} (x : Ext) (libs : Nat → CrfLib) (now : Nat) (c : Caches)
    (current : Nat → Option TokenFeatures) (calls : List (EProg α)) :
    ¬ ∃ run : Nat → ESystem α, run 0 = ESystem.start now c current calls ∧
      ∀ i, ∃ d, EMove x libs ((run i).later d) (run (i + 1)) := by
  rintro ⟨run, h0, hstep⟩
  have key : ∀ l, Acc (ListNext (EThreadNext x libs)) l → ∀ i, (run i).threads ≠ l := by
    intro l hl
    induction hl with
    | intro l _ ih =>
      intro i hi
      obtain ⟨d, hd⟩ := hstep i
      have := listNext_of_move hd
      rw [show ((run i).later d).threads = l from hi] at this
      exact ih _ this (i + 1) rfl
  exact key _ (eacc_start x libs now c current calls) 0 (by rw [h0])

/-! ### One call, two times -/

/-- A parser that finds the whole input as a slot of a builtin entity, in two intents. -/
def twoIntentsParser : ParserImpl :=
  { wholeInputParser with getIntents := fun _ _ => .ret [⟨some ['a'], 1⟩, ⟨some ['b'], 1 / 2⟩] }

def twoIntentsEngine : Engine := { slotDemo with parsers := [twoIntentsParser] }

def twoIntentsShared : EEngine := ⟨slotDemo.dataset, [EParser.lift twoIntentsParser], slotDemo.names⟩

theorem twoIntents_same (libs : Nat → CrfLib) : SameEngine libs twoIntentsShared twoIntentsEngine :=
  ⟨rfl, rfl, .cons (.rule _) .nil⟩

theorem twoIntents_ranked (o : HashOrd) : twoIntentsEngine.getIntents o ['x'] = .ret (sortDesc IntentResult.score
    ((o.order 0 (Engine.mergeIntents [] [⟨some ['a'], 1⟩, ⟨some ['b'], 1 / 2⟩])).map Prod.snd)) := rfl

theorem twoIntents_sorted : sortDesc IntentResult.score (((HashOrd.insertion.sub 2).order 0 (Engine.mergeIntents []
    [⟨some ['a'], 1⟩, ⟨some ['b'], 1 / 2⟩])).map Prod.snd) = [⟨some ['a'], 1⟩, ⟨some ['b'], 1 / 2⟩] := by
  decide +kernel

/-- The code of the call: the slots are resolved twice. -/
theorem twoIntents_code : twoIntentsEngine.code (.parse HashOrd.insertion ['x'] none none 1 0) =
    (twoIntentsEngine.resolveSlots ['x'] [⟨['x'], ⟨0, 1⟩, ['n'], ['s']⟩] 0).bind fun slots =>
      (twoIntentsEngine.resolveSlots ['x'] [⟨['x'], ⟨0, 1⟩, ['n'], ['s']⟩] 0).bind fun slots' =>
        .ret (.parse ⟨['x'], ⟨some ['a'], 1⟩, slots, [⟨⟨some ['b'], 1 / 2⟩, slots'⟩]⟩) := by
  have h1 : twoIntentsEngine.cascade (HashOrd.insertion.sub 1) ['x'] none 0 0 twoIntentsEngine.parsers 0 =
      (twoIntentsEngine.resolveSlots ['x'] [⟨['x'], ⟨0, 1⟩, ['n'], ['s']⟩] 0).bind fun slots =>
        .ret ⟨['x'], ⟨some ['a'], 1⟩, slots, []⟩ := rfl
  have h2 : twoIntentsEngine.alternativesSlots (HashOrd.insertion.sub 3) ['x'] 0 0 [⟨some ['b'], 1 / 2⟩] =
      (twoIntentsEngine.resolveSlots ['x'] [⟨['x'], ⟨0, 1⟩, ['n'], ['s']⟩] 0).bind fun slots =>
        .ret [⟨⟨some ['b'], 1 / 2⟩, slots⟩] := rfl
  have h3 : Prog.ofOutcome (twoIntentsEngine.getIntentsWhitelist (HashOrd.insertion.sub 0) none none) = .ret none := rfl
  have h4 : List.take 1 (List.drop 1 (List.filter (Engine.passesFilter none)
      [(⟨some ['a'], 1⟩ : IntentResult), ⟨some ['b'], 1 / 2⟩])) = [⟨some ['b'], 1 / 2⟩] := rfl
  simp only [Engine.code, Engine.parseWithAlternatives, twoIntents_ranked, twoIntents_sorted, Prog.bind_eq, h3, Prog.bind, h1,
    h2, h4, Prog.bind_bind, Nat.one_ne_zero, if_false]

/-- Slots of the whole text, resolved at one time. -/
theorem twoIntents_resolved (t u : Nat) (k : List Slot → Prog EngineAnswer) (times : List Nat) (o : Outcome EngineAnswer) :
    ((twoIntentsEngine.resolveSlots ['x'] [⟨['x'], ⟨0, 1⟩, ['n'], ['s']⟩] 0).bind k).Answers demoExt t (u :: times) o ↔
      (k [⟨['x'], .builtin u, [], ⟨0, 1⟩, ['n'], ['s']⟩]).Answers demoExt t times o := by
  have hc : (demoExt.world t).custom ['x'] (some []) 0 = .ok [⟨['x'], ['x'], [], ⟨0, 1⟩, ['e']⟩] := by
    have : (demoExt.world 0).custom ['x'] (some []) 0 = .ok [⟨['x'], ['x'], [], ⟨0, 1⟩, ['e']⟩] := by decide +kernel
    exact this
  have hb : (demoExt.world u).builtin ['x'] (some [0]) 0 = .ok [⟨['x'], ⟨0, 1⟩, .builtin u, [], 0⟩] := rfl
  constructor
  · intro h
    cases h with
    | fresh he h =>
      cases hb.symm.trans he
      cases h with
      | custom he h => cases hc.symm.trans he; exact h
      | customErr he => cases hc.symm.trans he
      | customPanic he => cases hc.symm.trans he
    | freshErr he => cases hb.symm.trans he
    | freshPanic he => cases hb.symm.trans he
  · intro h
    exact .fresh hb (.custom hc h)

/-- The answers of the call. -/
theorem twoIntents_answers (t u u' : Nat) (o : Outcome EngineAnswer) :
    (twoIntentsEngine.code (.parse HashOrd.insertion ['x'] none none 1 0)).Answers demoExt t [u, u'] o ↔
      o = .ok (.parse ⟨['x'], ⟨some ['a'], 1⟩, [⟨['x'], .builtin u, [], ⟨0, 1⟩, ['n'], ['s']⟩],
        [⟨⟨some ['b'], 1 / 2⟩, [⟨['x'], .builtin u', [], ⟨0, 1⟩, ['n'], ['s']⟩]⟩]⟩) := by
  rw [twoIntents_code, twoIntents_resolved, twoIntents_resolved]
  constructor
  · intro h; cases h; rfl
  · intro h; subst h; exact .ret _

/-- The times are needed: a single call that asks for alternatives resolves its slots once for the answer and once for
each alternative, and when the clock advances in between the answer is not that of any single time. -/
theorem c88_one_time_counterexample :
    ∃ (s : ESystem EngineAnswer) (o : Outcome EngineAnswer),
      EReachable demoExt (fun _ => demoCrf) (ESystem.start 0 (Caches.empty 5) (fun _ => none)
        [twoIntentsShared.code (.parse HashOrd.insertion ['x'] none none 1 0)]) s ∧
      s.threads[0]? = some (0, .done o) ∧
      ∀ t, o ≠ (twoIntentsEngine.code (.parse HashOrd.insertion ['x'] none none 1 0)).run (demoExt.world t) := by
  have ho := (twoIntents_answers 0 0 1 _).2 rfl
  rw [← code_alone (twoIntents_same fun _ => demoCrf)] at ho
  obtain ⟨s, h1, h2⟩ := complete_start demoExt_timeStable demoExt_noPanic (Caches.empty_sound demoExt 5)
    (Caches.empty_healthy 5) (calls := [twoIntentsShared.code (.parse HashOrd.insertion ['x'] none none 1 0)]) (i := 0)
    (current := fun _ => none) rfl (Nat.le_refl 0) (by simp) (by simp) ho
  refine ⟨s, _, h1, h2, ?_⟩
  intro t ht
  have h3 := answers_run demoExt_timeStable ((twoIntents_answers t t t _).2 rfl) (t' := t) (by simp)
  rw [← h3] at ht
  simp only [Outcome.ok.injEq, EngineAnswer.parse.injEq, ParseResult.mk.injEq, List.cons.injEq, Slot.mk.injEq,
    SlotValue.builtin.injEq, Alternative.mk.injEq, and_true, true_and] at ht
  omega

/-! ### Non-vacuity -/

/-- The hypothesis of `c88_engine` on that engine: its call never panics. -/
example : ∀ t times, ¬ (twoIntentsEngine.code (.parse HashOrd.insertion ['x'] none none 1 0)).Answers demoExt t times
    .panic := by
  intro t times h
  rw [twoIntents_code] at h
  rcases times with _ | ⟨u, _ | ⟨u', times⟩⟩
  · cases h
  · rw [twoIntents_resolved] at h; cases h
  · rw [twoIntents_resolved, twoIntents_resolved] at h; cases h

/-- A probabilistic parser with a tagger is among the parsers that the theorems speak of. -/
example (env : ProbEnv) (c : Classifier) :
    SameParser (fun _ => demoCrf) (Prob.implE env ⟨c, [(['a'], demoSharedFiller)]⟩ fun _ => 0)
      (Prob.impl env ⟨c, [(['a'], demoSharedFiller)]⟩) := by
  refine .prob env _ _ ?_
  intro intent filler h tg ht
  simp only [Map.get, List.lookup] at h
  split at h
  · cases h; cases ht; rfl
  · cases h

/-- A tagger that panics on an empty text. -/
def fragileCrf : CrfLib := { demoCrf with viterbi := fun f => if f = [] then .panic else demoCrf.viterbi f }

/-- Without the hypothesis that no call panics, `c88_no_interference` is false: a thread that panics in a tagger leaves its
mutex poisoned, and another call ends with an error that it does not give by itself. -/
theorem c88_poisoning_counterexample :
    ∃ (calls : List (EProg (List Text))) (s : ESystem (List Text)),
      EReachable demoExt (fun _ => fragileCrf) (ESystem.start 0 (Caches.empty 5) (fun _ => none) calls) s ∧
      calls[1]? = some (.tags 0 [[]] .ok .ret) ∧ s.threads[1]? = some (0, .done (.err (.external 245))) ∧
      ∀ times, ¬ ((EProg.tags 0 [[]] .ok .ret).alone fun _ => fragileCrf).Answers demoExt 0 times
        (.err (.external 245)) := by
  have r0 := EReachable.refl (x := demoExt) (libs := fun _ => fragileCrf) (s0 := ESystem.start 0 (Caches.empty 5)
    (fun _ => none) [.tags 0 [] .ok .ret, .tags 0 [[]] .ok .ret])
  have r1 := r0.move (.step [] [_] _ _ _ _ (.begin _ _ _))
  have r2 := r1.move (.step [] [_] _ _ _ _ (.lockTagger _ _ _ _ _ _ rfl rfl))
  have r3 := r2.move (.step [] [_] _ _ _ _ (.setOk _ _ _ _ _ _ rfl))
  have r4 := r3.move (.step [] [_] _ _ _ _ (.serveTagger _ _ _ _ .panic _ rfl))
  have r5 := r4.move (.step [(0, .done .panic)] [] _ _ _ _ (.begin _ _ _))
  have r6 := r5.move (.step [(0, .done .panic)] [] _ _ _ _ (.lockTaggerPoisoned _ _ _ _ _ _ rfl rfl))
  refine ⟨_, _, r6, rfl, rfl, ?_⟩
  intro times h
  have : ((EProg.tags 0 [[]] .ok .ret).alone fun _ => fragileCrf) = Prog.ret [['B', '-', 'a']] := rfl
  rw [this] at h
  cases h

end Snips
