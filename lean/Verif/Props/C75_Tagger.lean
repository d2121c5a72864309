import Verif.Proofs.TaggerShared
import Verif.Props.C01_Engine
import Verif.Spec.Demo

/-! # C75: several threads using one slot filler

The tagger behind a slot filler has a state: the features it was last given.  The calls below run concurrently on one
slot filler, with any schedule, starting from any state of the tagger. -/

namespace Snips

/-- A call that has ended gave the answer it gives alone, unless the answer is the error for a poisoned mutex; and then
one of the calls is one that panics even when it is alone. -/
theorem c75_isolated (x : Ext) (hts : x.TimeStable) (hnp : x.NoPanic) (cap : Nat) (codec : TagCodec) (lib : CrfLib)
    (f : SlotFiller) (hf : ∀ tg, f.tagger = some tg → tg = lib.stateless) (current : Option TokenFeatures)
    (calls : List (Nat × FillerCall)) (s : TSystem FillerAnswer)
    (h : TReachable x lib (fillerStart codec f (Caches.empty cap) current calls) s) (i t : Nat)
    (o : Outcome FillerAnswer) (hi : s.threads[i]? = some (t, .done o)) :
    ∃ call, calls[i]? = some (t, call) ∧
      (o = call.alone codec f (x.world t) ∨
        o = .err (.external 245) ∧ ∃ q ∈ calls, q.2.alone codec f (x.world q.1) = .panic) := by
  have hinv := tinv_reachable hts hnp (calls := calls.map fun p => (p.1, p.2.code codec f)) (by
    intro q hq w b hb
    obtain ⟨p, _, rfl⟩ := List.mem_map.1 hq
    exact code_setsFirst codec f p.2 w b hb) (Caches.empty_sound x cap) (Caches.empty_healthy cap) h
  obtain ⟨p, hp, hg⟩ := hinv.good i t _ hi
  rw [List.getElem?_map] at hp
  cases hc : calls[i]? with
  | none => rw [hc] at hp; simp at hp
  | some call =>
    rw [hc] at hp
    simp only [Option.map_some, Option.some.injEq, Prod.mk.injEq] at hp
    obtain ⟨rfl, rfl⟩ := hp
    refine ⟨call.2, rfl, ?_⟩
    rcases hg with hg | ⟨hg, q, hq, hqp⟩
    · exact .inl (hg.trans (code_result codec f hf _ _))
    · obtain ⟨q, hq', rfl⟩ := List.mem_map.1 hq
      exact .inr ⟨hg, q, hq', (code_result codec f hf _ _).symm.trans hqp⟩

/-- When no call panics by itself, threads do not see each other: the state they share has no influence. -/
theorem c75_no_interference (x : Ext) (hts : x.TimeStable) (hnp : x.NoPanic) (cap : Nat) (codec : TagCodec) (lib : CrfLib)
    (f : SlotFiller) (hf : ∀ tg, f.tagger = some tg → tg = lib.stateless) (current : Option TokenFeatures)
    (calls : List (Nat × FillerCall)) (hsafe : ∀ q ∈ calls, q.2.alone codec f (x.world q.1) ≠ .panic)
    (s : TSystem FillerAnswer) (h : TReachable x lib (fillerStart codec f (Caches.empty cap) current calls) s) (i t : Nat)
    (o : Outcome FillerAnswer) (hi : s.threads[i]? = some (t, .done o)) :
    ∃ call, calls[i]? = some (t, call) ∧ o = call.alone codec f (x.world t) := by
  obtain ⟨call, hc, ho | ⟨_, q, hq, hp⟩⟩ := c75_isolated x hts hnp cap codec lib f hf current calls s h i t o hi
  · exact ⟨call, hc, ho⟩
  · exact absurd hp (hsafe q hq)

/-- A panic of one call does not become a panic of another: only calls that panic by themselves panic. -/
theorem c75_panics_stay (x : Ext) (hts : x.TimeStable) (hnp : x.NoPanic) (cap : Nat) (codec : TagCodec) (lib : CrfLib)
    (f : SlotFiller) (hf : ∀ tg, f.tagger = some tg → tg = lib.stateless) (current : Option TokenFeatures)
    (calls : List (Nat × FillerCall)) (s : TSystem FillerAnswer)
    (h : TReachable x lib (fillerStart codec f (Caches.empty cap) current calls) s) (i t : Nat)
    (hi : s.threads[i]? = some (t, .done .panic)) :
    ∃ call, calls[i]? = some (t, call) ∧ call.alone codec f (x.world t) = .panic := by
  obtain ⟨call, hc, ho | ⟨ho, _⟩⟩ := c75_isolated x hts hnp cap codec lib f hf current calls s h i t _ hi
  · exact ⟨call, hc, ho.symm⟩
  · cases ho

/-- At most one thread is inside the tagger at a time; the mutex is held exactly when one is. -/
theorem c75_exclusive {α : Type} (x : Ext) (lib : CrfLib) (c : Caches) (current : Option TokenFeatures)
    (calls : List (Nat × Prog (α ⊕ Locked α))) (s : TSystem α) (h : TReachable x lib (TSystem.start c current calls) s) :
    s.threads.countP (fun p => match p.2 with | .holding _ => true | _ => false) = if s.shared.held then 1 else 0 := by
  have e : (fun p : Nat × TThread α => match p.2 with | .holding _ => true | _ => false) = fun p => p.2.holds := by
    funext p; obtain ⟨_, p⟩ := p; cases p <;> rfl
  rw [e]
  exact (tlocks_reachable h).count

/-- No deadlock, with the mutexes of the caches and of the tagger together, whatever is done under the lock. -/
theorem c75_no_deadlock {α : Type} (x : Ext) (lib : CrfLib) (c : Caches) (current : Option TokenFeatures)
    (calls : List (Nat × Prog (α ⊕ Locked α))) (s : TSystem α) (h : TReachable x lib (TSystem.start c current calls) s)
    (hun : ∃ p ∈ s.threads, ∀ o, p.2 ≠ TThread.done o) : ∃ s', TSystemStep x lib s s' :=
  tprogress (tlocks_reachable h) hun

/-- No schedule runs forever. -/
theorem c75_terminates {α : Type} (x : Ext) (lib : CrfLib) (c : Caches) (current : Option TokenFeatures)
    (calls : List (Nat × Prog (α ⊕ Locked α))) :
    ¬ ∃ run : Nat → TSystem α, run 0 = TSystem.start c current calls ∧ ∀ i, TSystemStep x lib (run i) (run (i + 1)) := by
  rintro ⟨run, h0, hstep⟩
  have key : ∀ s, Acc (fun s' s : TSystem α => TSystemStep x lib s s') s → ∀ i, run i ≠ s := by
    intro s hs
    induction hs with
    | intro s _ ih =>
      intro i hi
      exact ih (run (i + 1)) (hi ▸ hstep i) (i + 1) rfl
  exact key _ (tacc_start x lib c current calls) 0 h0

/-! Non-vacuity, and what goes wrong without the lock or the hypotheses -/

/-- A tagger that puts the first token in the slot `a`; features are taken as they are, and probabilities tell texts
of one token from others.  It has no labels. -/
def demoCrf : CrfLib where
  set _ := .ok ()
  left c _ := c
  viterbi f := .ok (f.map fun _ => ['B', '-', 'a'])
  labels := .ok []
  score f _ := .ok f.length

def demoSharedFiller : SlotFiller := ⟨wholeTextFns, .bio, some demoCrf.stateless, some [], [(['a'], ['e'])]⟩

def demoCodec : TagCodec := ⟨id, .ok⟩

example : ∀ tg, demoSharedFiller.tagger = some tg → tg = demoCrf.stateless := by
  intro tg h; cases h; rfl

example : (FillerCall.slots ['x']).alone demoCodec demoSharedFiller (demoExt.world 0) =
    .ok (.slots [⟨['x'], ⟨0, 1⟩, ['e'], ['a']⟩]) := by decide +kernel

example : (FillerCall.probability [] []).alone demoCodec demoSharedFiller (demoExt.world 0) = .ok (.probability 0) := by
  decide +kernel

/-- Calls that do not panic. -/
example : ∀ q ∈ [(0, FillerCall.slots ['x']), (1, FillerCall.probability [] [])],
    q.2.alone demoCodec demoSharedFiller (demoExt.world q.1) ≠ .panic := by
  intro q hq
  rcases List.mem_cons.1 hq with rfl | hq
  · decide +kernel
  · rcases List.mem_cons.1 hq with rfl | hq
    · decide +kernel
    · cases hq

/-- A tagger without labels: a call for a probability takes the first label, and panics under the lock. -/
example : (FillerCall.probability [] [['O']]).alone demoCodec demoSharedFiller (demoExt.world 0) = .panic := by
  decide +kernel

/-- The claim of `c75_no_interference` is false when a call panics by itself: here asking for a probability from a tagger
without labels panics under the lock, and a call that gives slots when it is alone then ends with an error. -/
theorem c75_poisoning_counterexample :
    ∃ (calls : List (Nat × FillerCall)) (s : TSystem FillerAnswer),
      TReachable demoExt demoCrf (fillerStart demoCodec demoSharedFiller (Caches.empty 5) none calls) s ∧
      calls[1]? = some (0, .slots ['x']) ∧ s.threads[1]? = some (0, .done (.err (.external 245))) ∧
      (FillerCall.slots ['x']).alone demoCodec demoSharedFiller (demoExt.world 0) ≠ .err (.external 245) := by
  have r0 := TReachable.refl (x := demoExt) (lib := demoCrf) (s0 := fillerStart demoCodec demoSharedFiller (Caches.empty 5)
    none [(0, .probability [] [['O']]), (0, .slots ['x'])])
  have r1 := r0.step (.step [] [_] 0 _ _ _ _ (.compute _ _ _ _ (.ret _ _)))
  have r2 := r1.step (.step [] [_] 0 _ _ _ _ (.arrive _ _))
  have r3 := r2.step (.step [] [_] 0 _ _ _ _ (.lock _ _ rfl rfl))
  have r4 := r3.step (.step [] [_] 0 _ _ _ _ (.labels _ _))
  have r5 := r4.step (.step [] [_] 0 _ _ _ _ (.poison _))
  have r6 := r5.step (.step [(0, .done .panic)] [] 0 _ _ _ _ (.compute _ _ _ _ (.ret _ _)))
  have r7 := r6.step (.step [(0, .done .panic)] [] 0 _ _ _ _ (.arrive _ _))
  have r8 := r7.step (.step [(0, .done .panic)] [] 0 _ _ _ _ (.lockPoisoned _ _ rfl rfl))
  exact ⟨_, _, r8, rfl, rfl, by decide +kernel⟩

/-- What gives the answers their meaning is that the features are set under the same lock: a body that asks for a
probability without it is answered with the features of another call. -/
theorem c75_unset_counterexample :
    ∃ (body : Locked FillerAnswer) (s : TSystem FillerAnswer),
      TReachable demoExt demoCrf (TSystem.start (Caches.empty 5) none
        [(0, .ret (.inr body)), (0, FillerCall.code demoCodec demoSharedFiller (.slots ['x']))]) s ∧
      s.threads[0]? = some (0, .done (.ok (.probability 1))) ∧ body.result demoCrf none = .err (.external 246) := by
  have r0 := TReachable.refl (x := demoExt) (lib := demoCrf) (s0 := TSystem.start (Caches.empty 5) none
    [(0, .ret (.inr (.probability [] fun p => .leave (.ok (.probability p))))),
      (0, FillerCall.code demoCodec demoSharedFiller (.slots ['x']))])
  have r1 := r0.step (.step [_] [] 0 _ _ _ _ (.compute _ _ _ _ (.ret _ _)))
  have r2 := r1.step (.step [_] [] 0 _ _ _ _ (.arrive _ _))
  have r3 := r2.step (.step [_] [] 0 _ _ _ _ (.lock _ _ rfl rfl))
  have r4 := r3.step (.step [_] [] 0 _ _ _ _ (.tag _ _ _))
  have r5 := r4.step (.step [_] [] 0 _ _ _ _ (.leave _ _))
  have r6 := r5.step (.step [] [_] 0 _ _ _ _ (.compute _ _ _ _ (.ret _ _)))
  have r7 := r6.step (.step [] [_] 0 _ _ _ _ (.arrive _ _))
  have r8 := r7.step (.step [] [_] 0 _ _ _ _ (.lock _ _ rfl rfl))
  have r9 := r8.step (.step [] [_] 0 _ _ _ _ (.probability _ _ _))
  have r10 := r9.step (.step [] [_] 0 _ _ _ _ (.leave _ _))
  exact ⟨_, _, r10, rfl, rfl⟩

end Snips
