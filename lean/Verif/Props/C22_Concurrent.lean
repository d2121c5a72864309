import Verif.Proofs.Concurrent
import Verif.Spec.Demo

/-! # C22, C24: concurrent use, absence of deadlock, robustness against failures -/

namespace Snips

/-- Under every interleaving, a call that has finished has given the answer it gives alone without
caches. -/
theorem c22_schedule_independent {α : Type} (x : Ext) (hts : x.TimeStable) (hnp : x.NoPanic) (cap : Nat)
    (calls : List (Nat × Prog α)) (s : System α)
    (h : Reachable x (System.start (Caches.empty cap) calls) s) (i t : Nat) (o : Outcome α)
    (hi : s.threads[i]? = some (t, .done o)) :
    ∃ call, calls[i]? = some (t, call) ∧ o = call.run (x.world t) := by
  have hinv := systemInv_reachable hts hnp calls (Caches.empty_sound x cap) (Caches.empty_healthy cap) h
  have h1 := congrArg (fun l => l[i]?) hinv.threads
  simp only [List.getElem?_map, hi, Option.map_some, Thread.residual] at h1
  cases hc : calls[i]? with
  | none => rw [hc] at h1; simp at h1
  | some call =>
    rw [hc] at h1
    simp only [Option.map_some, Option.some.injEq, Prod.mk.injEq] at h1
    obtain ⟨tc, p⟩ := call
    obtain ⟨rfl, h2⟩ := h1
    exact ⟨p, rfl, h2⟩

/-- The same, comparing with the sequential engine: the answers of a finished concurrent execution are
those of running the calls one after the other, in any order of the list. -/
theorem c22_linearizable {α : Type} (x : Ext) (hts : x.TimeStable) (hnp : x.NoPanic) (cap : Nat)
    (calls : List (Nat × Prog α)) (s : System α)
    (h : Reachable x (System.start (Caches.empty cap) calls) s) (answers : List (Outcome α))
    (hdone : s.threads.map Prod.snd = answers.map Thread.done) :
    answers = (runHistory x calls (Caches.empty cap)).1 := by
  have hinv := systemInv_reachable hts hnp calls (Caches.empty_sound x cap) (Caches.empty_healthy cap) h
  rw [(runHistory_spec hts hnp calls _ (Caches.empty_sound x cap) (Caches.empty_healthy cap)).1]
  have h1 := congrArg (List.map Prod.snd) hinv.threads
  simp only [List.map_map] at h1
  have h2 : ∀ (l : List (Nat × Thread α)) (as : List (Outcome α)), l.map Prod.snd = as.map Thread.done →
      l.map (Prod.snd ∘ fun p => (p.1, p.2.residual (x.world p.1))) = as := by
    intro l
    induction l with
    | nil => intro as ha; cases as with
      | nil => rfl
      | cons a as => simp at ha
    | cons p l ih => intro as ha; cases as with
      | nil => simp at ha
      | cons a as =>
        simp only [List.map_cons, List.cons.injEq] at ha ⊢
        refine ⟨?_, ih as ha.2⟩
        simp only [Function.comp, ha.1, Thread.residual]
  rw [← h2 _ _ hdone, h1]
  rfl

/-- No deadlock: in every reachable state in which some call is unfinished, some step is possible.
(This holds even if extractions panic.) -/
theorem c24_no_deadlock {α : Type} (x : Ext) (c : Caches) (calls : List (Nat × Prog α)) (s : System α)
    (h : Reachable x (System.start c calls) s) (hun : ∃ p ∈ s.threads, ∀ o, p.2 ≠ Thread.done o) :
    ∃ s', SystemStep x s s' :=
  progress (locksOk_reachable calls h) hun

/-- No schedule runs forever. -/
theorem c24_terminates {α : Type} (x : Ext) (c : Caches) (calls : List (Nat × Prog α)) :
    ¬ ∃ run : Nat → System α, run 0 = System.start c calls ∧ ∀ i, SystemStep x (run i) (run (i + 1)) := by
  rintro ⟨run, h0, hstep⟩
  have key : ∀ s, Acc (fun s' s : System α => SystemStep x s s') s → ∀ i, run i ≠ s := by
    intro s hs
    induction hs with
    | intro s _ ih =>
      intro i hi
      exact ih (run (i + 1)) (hi ▸ hstep i) (i + 1) rfl
  exact key _ (acc_start x c calls) 0 h0

/-- At most one call is inside each cache at a time. -/
theorem c24_mutual_exclusion {α : Type} (x : Ext) (c : Caches) (calls : List (Nat × Prog α)) (s : System α)
    (h : Reachable x (System.start c calls) s) :
    (s.threads.countP (fun p => match p.2 with | .inBuiltin .. => true | _ => false) ≤ 1) ∧
    (s.threads.countP (fun p => match p.2 with | .inCustom .. => true | _ => false) ≤ 1) := by
  obtain ⟨h1, h2⟩ := locksOk_reachable calls h
  have e1 : (fun p : Nat × Thread α => match p.2 with | .inBuiltin .. => true | _ => false)
      = fun p => p.2.holdsBuiltin := by
    funext p; obtain ⟨_, p⟩ := p; cases p <;> rfl
  have e2 : (fun p : Nat × Thread α => match p.2 with | .inCustom .. => true | _ => false)
      = fun p => p.2.holdsCustom := by
    funext p; obtain ⟨_, p⟩ := p; cases p <;> rfl
  rw [e1, e2, h1, h2]
  constructor <;> split <;> omega

/-- A call that ended in an error changes nothing for later calls: their answers are those of the
history without it. -/
theorem c24_errors_are_harmless {α : Type} (x : Ext) (hts : x.TimeStable) (hnp : x.NoPanic) (cap : Nat)
    (before after : List (Nat × Prog α)) (bad : Nat × Prog α) :
    (runHistory x (before ++ bad :: after) (Caches.empty cap)).1.drop (before.length + 1)
      = (runHistory x (before ++ after) (Caches.empty cap)).1.drop before.length := by
  have h1 := (runHistory_spec hts hnp (before ++ bad :: after) _ (Caches.empty_sound x cap)
    (Caches.empty_healthy cap)).1
  have h2 := (runHistory_spec hts hnp (before ++ after) _ (Caches.empty_sound x cap)
    (Caches.empty_healthy cap)).1
  rw [h1, h2, List.map_append, List.map_append, List.map_cons]
  have hl : (List.map (fun call : Nat × Prog α => call.2.run (x.world call.1)) before).length
      = before.length := List.length_map ..
  rw [← List.drop_drop, List.drop_left' hl, List.drop_left' hl]
  rfl

/-- A program that contains no panic of its own (the `panic` leaf is never reached). -/
def Prog.Safe {α : Type} (p : Prog α) : Prop := ∀ w : World,
  (∀ s kinds n, w.builtin s kinds n ≠ .panic) → (∀ s kinds n, w.custom s kinds n ≠ .panic) →
    p.run w ≠ .panic

/-- If no extraction panics, no call panics because of previous calls. -/
theorem c24_no_inherited_panic {α : Type} (x : Ext) (hts : x.TimeStable) (hnp : x.NoPanic) (cap : Nat)
    (past : List (Nat × Prog α)) (time : Nat) (call : Prog α) (hsafe : call.Safe) :
    (call.runCached x time (runHistory x past (Caches.empty cap)).2).1 ≠ .panic := by
  obtain ⟨_, h2, h3⟩ := runHistory_spec hts hnp past _ (Caches.empty_sound x cap) (Caches.empty_healthy cap)
  rw [(runCached_spec hts hnp time call _ h2 h3).1]
  exact hsafe _ (fun s kinds n => hnp.1 time (x.lower s) kinds n)
    (fun s kinds n => hnp.2 (x.lower s) kinds n)

/-- Without that assumption the claim is false: after one extraction that panicked, an innocent cached
extraction panics too (the cache's mutex is poisoned and `lock()` is unwrapped). -/
theorem c24_poisoning_counterexample :
    ∃ (x : Ext) (bad good : Prog Nat),
      good.run (x.world 0) = .ok 1 ∧
      (runHistory x [(0, bad), (0, good)] (Caches.empty 10)).1 = [.panic, .panic] ∧
      (runHistory x [(0, good)] (Caches.empty 10)).1 = [.ok 1] := by
  refine ⟨{ demoExt with builtinRaw := fun _ s _ _ =>
      if s = [] then .panic else .ok [⟨s, ⟨0, s.length⟩, .builtin 3, [], 0⟩] },
    .builtinCached [] none (fun ms => .ret ms.length),
    .builtinCached ['a'] none (fun ms => .ret ms.length), ?_, ?_, ?_⟩ <;> decide

/-! Non-vacuity -/

/-- Two concurrent calls; a reachable state where the first has finished while the second holds the
builtin cache. -/
example :
    let ask : Prog Nat := .builtinCached ['a'] none (fun ms => .ret ms.length)
    ∃ s : System Nat, Reachable demoExt (System.start (Caches.empty 5) [(0, .ret 7), (1, ask)]) s ∧
      s.threads[0]? = some (0, .done (.ok 7)) ∧ (∃ p ∈ s.threads, ∀ o, p.2 ≠ Thread.done o) := by
  intro ask
  refine ⟨_, .step (.step .refl (SystemStep.step [] [(1, .running ask)] 0 _ _ _ _ (.ret 7 _)))
    (SystemStep.step [(0, .done (.ok 7))] [] 1 _ _ _ _ (.lockBuiltin ['a'] none _ _ rfl rfl)), rfl, ?_⟩
  refine ⟨(1, .inBuiltin ['a'] none (fun ms => .ret ms.length)), by simp, ?_⟩
  intro o; simp

example : ∃ s : System Nat, Reachable demoExt (System.start (Caches.empty 5) [(0, .ret 7)]) s ∧
    s.threads.map Prod.snd = [Outcome.ok 7].map Thread.done :=
  ⟨_, .step .refl (SystemStep.step [] [] 0 _ _ _ _ (.ret 7 _)), rfl⟩

example : (Prog.builtinCached ['a'] none (fun ms => .ret ms.length) : Prog Nat).Safe := by
  intro w h _
  simp only [Prog.run]
  cases hb : w.builtin ['a'] none 0 with
  | ok es => simp
  | err e => simp
  | panic => exact absurd hb (h _ _ _)

end Snips
