import Verif.Spec.TaggerShared
import Verif.Proofs.FfiConcurrent
import Verif.Proofs.Prog

/-! Lemmas on threads that share a slot filler. -/

namespace Snips

variable {α : Type}

/-- A body run by one thread. -/
def Locked.result (lib : CrfLib) : Locked α → Option TokenFeatures → Outcome α
  | .leave o, _ => o
  | .panic, _ => .panic
  | .tag f k, cur =>
    match lib.set f >>= fun _ => lib.viterbi f with
    | .ok l => (k l).result lib (lib.after cur f)
    | .err e => .err e
    | .panic => .panic
  | .labels k, cur =>
    match lib.labels with
    | .ok l => (k l).result lib cur
    | .err e => .err e
    | .panic => .panic
  | .set f k, cur =>
    match lib.set f with
    | .ok () => k.result lib (lib.after cur f)
    | .err e => .err e
    | .panic => .panic
  | .probability ls k, cur =>
    match lib.probability cur ls with
    | .ok p => (k p).result lib cur
    | .err e => .err e
    | .panic => .panic

theorem Locked.result_after (lib : CrfLib) {β : Type} (o : Outcome β) (k : β → Locked α) (cur : Option TokenFeatures) :
    (Locked.after o k).result lib cur = match o with
      | .ok b => (k b).result lib cur
      | .err e => .err e
      | .panic => .panic := by
  cases o <;> rfl

/-- The body gives features to the tagger before it asks for a probability. -/
def Locked.SetsFirst : Locked α → Prop
  | .leave _ => True
  | .panic => True
  | .tag _ _ => True
  | .labels k => ∀ l, (k l).SetsFirst
  | .set _ _ => True
  | .probability _ _ => False

theorem CrfLib.after_ok {lib : CrfLib} {f : TokenFeatures} (h : lib.set f = .ok ()) (cur : Option TokenFeatures) :
    lib.after cur f = some f := by
  unfold CrfLib.after
  rw [h]

/-- What such a body answers does not depend on what others did with the tagger before. -/
theorem Locked.SetsFirst.result {lib : CrfLib} {b : Locked α} (h : b.SetsFirst) (cur cur' : Option TokenFeatures) :
    b.result lib cur = b.result lib cur' := by
  induction b with
  | leave o => rfl
  | panic => rfl
  | tag f k _ =>
    unfold Locked.result
    cases hs : lib.set f with
    | ok u => rw [lib.after_ok hs, lib.after_ok hs]
    | err e => rfl
    | panic => rfl
  | labels k ih =>
    unfold Locked.result
    cases lib.labels with
    | ok l => exact ih l (h l)
    | err e => rfl
    | panic => rfl
  | set f k _ =>
    unfold Locked.result
    cases hs : lib.set f with
    | ok u => simp only; rw [lib.after_ok hs, lib.after_ok hs]
    | err e => rfl
    | panic => rfl
  | probability ls k _ => exact h.elim

/-- What a call answers when it is alone. -/
def callResult (lib : CrfLib) (w : World) (p : Prog (α ⊕ Locked α)) : Outcome α :=
  match p.run w with
  | .ok (.inl a) => .ok a
  | .ok (.inr b) => b.result lib none
  | .err e => .err e
  | .panic => .panic

/-- A thread is on its way to the answer of its call. -/
def TThread.Good (x : Ext) (lib : CrfLib) (calls : List (Nat × Prog (α ⊕ Locked α))) (current : Option TokenFeatures)
    (call : Nat × Prog (α ⊕ Locked α)) : TThread α → Prop
  | .computing th => th.residual (x.world call.1) = call.2.run (x.world call.1)
  | .waiting b => call.2.run (x.world call.1) = .ok (.inr b)
  | .holding b => b.result lib current = callResult lib (x.world call.1) call.2
  | .done o => o = callResult lib (x.world call.1) call.2 ∨
    o = .err (.external 245) ∧ ∃ q ∈ calls, callResult lib (x.world q.1) q.2 = .panic

/-- What holds in every reachable state. -/
structure TInv (x : Ext) (lib : CrfLib) (calls : List (Nat × Prog (α ⊕ Locked α))) (s : TSystem α) : Prop where
  length : s.threads.length = calls.length
  good : ∀ (i : Nat) (t : Nat) (th : TThread α), s.threads[i]? = some (t, th) →
    ∃ p, calls[i]? = some (t, p) ∧ th.Good x lib calls s.shared.current (t, p)
  sound : s.shared.shared.caches.Sound x
  healthy : s.shared.shared.caches.Healthy
  exclusive : ∀ (i j : Nat) (p q : Nat × TThread α), s.threads[i]? = some p → s.threads[j]? = some q → p.2.holds = true →
    q.2.holds = true → i = j
  held : s.shared.held = true ↔ ∃ p ∈ s.threads, p.2.holds = true
  poisoned : s.shared.poisoned = true → ∃ q ∈ calls, callResult lib (x.world q.1) q.2 = .panic

theorem tinv_start (x : Ext) (lib : CrfLib) {c : Caches} (hs : c.Sound x) (hh : c.Healthy) (cur : Option TokenFeatures)
    (calls : List (Nat × Prog (α ⊕ Locked α))) : TInv x lib calls (TSystem.start c cur calls) := by
  have hg : ∀ {i : Nat} {p : Nat × TThread α}, (TSystem.start c cur calls).threads[i]? = some p →
      ∃ q, calls[i]? = some q ∧ p = (q.1, .computing (.running q.2)) := by
    intro i p h
    simp only [TSystem.start, List.getElem?_map] at h
    cases hc : calls[i]? with
    | none => rw [hc] at h; simp at h
    | some q =>
      rw [hc] at h
      simp only [Option.map_some, Option.some.injEq] at h
      exact ⟨q, rfl, h.symm⟩
  refine ⟨by simp [TSystem.start], fun i t th h => ?_, hs, hh, fun i j p q hp _ hh => ?_, ?_, fun h => by cases h⟩
  · obtain ⟨q, hq, he⟩ := hg h
    cases he
    exact ⟨q.2, hq, rfl⟩
  · obtain ⟨q, -, rfl⟩ := hg hp
    cases hh
  · constructor
    · intro h; cases h
    · rintro ⟨p, hp, hh⟩
      obtain ⟨i, hi⟩ := List.mem_iff_getElem?.1 hp
      obtain ⟨q, -, rfl⟩ := hg hi
      cases hh

/-- Threads that do not hold the lock do not depend on the state of the tagger. -/
theorem TThread.Good.current {x : Ext} {lib : CrfLib} {calls : List (Nat × Prog (α ⊕ Locked α))}
    {cur cur' : Option TokenFeatures} {call : Nat × Prog (α ⊕ Locked α)} {th : TThread α}
    (h : th.Good x lib calls cur call) (hn : th.holds = false) : th.Good x lib calls cur' call := by
  cases th with
  | holding b => cases hn
  | computing th => exact h
  | waiting b => exact h
  | done o => exact h

theorem mem_mid {β : Type} {pre post : List β} {a b p : β} (h : p ∈ pre ++ b :: post) :
    p = b ∨ p ∈ pre ++ a :: post := by
  rcases List.mem_append.1 h with h | h
  · exact .inr (List.mem_append_left _ h)
  · rcases List.mem_cons.1 h with h | h
    · exact .inl h
    · exact .inr (List.mem_append_right _ (List.mem_cons_of_mem _ h))

/-- A step by which a thread neither takes nor releases the lock. -/
theorem TInv.same {x : Ext} {lib : CrfLib} {calls : List (Nat × Prog (α ⊕ Locked α))} {pre post : List (Nat × TThread α)}
    {t : Nat} {th th' : TThread α} {sh sh' : TShared} (h : TInv x lib calls ⟨sh, pre ++ (t, th) :: post⟩)
    (hholds : th'.holds = th.holds) (hheld : sh'.held = sh.held) (hpois : sh'.poisoned = sh.poisoned)
    (hcur : th.holds = false → sh'.current = sh.current) (hs : sh'.shared.caches.Sound x) (hh : sh'.shared.caches.Healthy)
    (hgood : ∀ p, th.Good x lib calls sh.current (t, p) → th'.Good x lib calls sh'.current (t, p)) :
    TInv x lib calls ⟨sh', pre ++ (t, th') :: post⟩ := by
  have hex : ∀ (i : Nat) (p : Nat × TThread α), i ≠ pre.length → (pre ++ (t, th') :: post)[i]? = some p →
      (pre ++ (t, th) :: post)[i]? = some p := by
    intro i p hi hp
    rw [getElem?_set_mid pre post (t, th) (t, th') i, if_neg hi] at hp
    exact hp
  have hlift : ∀ (i : Nat) (p : Nat × TThread α), (pre ++ (t, th') :: post)[i]? = some p → p.2.holds = true →
      ∃ p' : Nat × TThread α, (pre ++ (t, th) :: post)[i]? = some p' ∧ p'.2.holds = true := by
    intro i p hp hh
    by_cases hi : i = pre.length
    · subst hi
      rw [getElem?_mid] at hp
      cases hp
      exact ⟨(t, th), getElem?_mid .., hholds.symm.trans hh⟩
    · exact ⟨p, hex i p hi hp, hh⟩
  refine ⟨by simpa using h.length, fun i t' th'' hi => ?_, hs, hh, fun i j p q hp hq h1 h2 => ?_, ?_, fun hp => ?_⟩
  · by_cases he : i = pre.length
    · subst he
      simp only [getElem?_mid, Option.some.injEq, Prod.mk.injEq] at hi
      obtain ⟨rfl, rfl⟩ := hi
      obtain ⟨p, hp, hg⟩ := h.good pre.length t th (getElem?_mid ..)
      exact ⟨p, hp, hgood p hg⟩
    · have hi' := hex i _ he hi
      obtain ⟨p, hp, hg⟩ := h.good i t' th'' hi'
      refine ⟨p, hp, ?_⟩
      cases hth : th.holds with
      | false => rw [show sh'.current = sh.current from hcur hth]; exact hg
      | true =>
        refine hg.current ?_
        cases hth'' : th''.holds with
        | false => rfl
        | true => exact absurd (h.exclusive i pre.length _ _ hi' (getElem?_mid ..) hth'' hth) he
  · obtain ⟨p', hp', h1'⟩ := hlift i p hp h1
    obtain ⟨q', hq', h2'⟩ := hlift j q hq h2
    exact h.exclusive i j p' q' hp' hq' h1' h2'
  · simp only [hheld]
    refine h.held.trans ⟨?_, ?_⟩
    · rintro ⟨p, hp, hh⟩
      rcases mem_mid (a := (t, th')) hp with rfl | hp
      · exact ⟨(t, th'), by simp, hholds.trans hh⟩
      · exact ⟨p, hp, hh⟩
    · rintro ⟨p, hp, hh⟩
      rcases mem_mid (a := (t, th)) hp with rfl | hp
      · exact ⟨(t, th), by simp, hholds.symm.trans hh⟩
      · exact ⟨p, hp, hh⟩
  · simp only [hpois] at hp
    exact h.poisoned hp

/-- The end of the time with the lock. -/
theorem TInv.leaves {x : Ext} {lib : CrfLib} {calls : List (Nat × Prog (α ⊕ Locked α))} {pre post : List (Nat × TThread α)}
    {t : Nat} {b : Locked α} {o : Outcome α} {sh : TShared} {pois : Bool}
    (h : TInv x lib calls ⟨sh, pre ++ (t, .holding b) :: post⟩) (ho : ∀ cur, b.result lib cur = o)
    (hpois : pois = true → sh.poisoned = true ∨ o = .panic) :
    TInv x lib calls ⟨{ sh with held := false, poisoned := pois }, pre ++ (t, .done o) :: post⟩ := by
  have hnone : ∀ (i : Nat) (p : Nat × TThread α), (pre ++ (t, .done o) :: post)[i]? = some p → p.2.holds = false := by
    intro i p hp
    by_cases hi : i = pre.length
    · subst hi
      rw [getElem?_mid] at hp
      cases hp
      rfl
    · rw [getElem?_set_mid pre post (t, .holding b) _ i, if_neg hi] at hp
      cases hh : p.2.holds with
      | false => rfl
      | true => exact absurd (h.exclusive i pre.length _ _ hp (getElem?_mid ..) hh rfl) hi
  obtain ⟨p0, hp0, hg0⟩ := h.good pre.length t (.holding b) (getElem?_mid ..)
  have hres : o = callResult lib (x.world t) p0 := (ho sh.current).symm.trans hg0
  refine ⟨by simpa using h.length, fun i t' th'' hi => ?_, h.sound, h.healthy, fun i j p q hp _ h1 _ => ?_, ?_, fun hp => ?_⟩
  · by_cases he : i = pre.length
    · subst he
      simp only [getElem?_mid, Option.some.injEq, Prod.mk.injEq] at hi
      obtain ⟨rfl, rfl⟩ := hi
      exact ⟨p0, hp0, .inl hres⟩
    · simp only at hi
      rw [getElem?_set_mid pre post (t, .holding b) _ i, if_neg he] at hi
      exact h.good i t' th'' hi
  · rw [hnone i p hp] at h1
    cases h1
  · constructor
    · intro h; cases h
    · rintro ⟨p, hp, hh⟩
      obtain ⟨i, hi⟩ := List.mem_iff_getElem?.1 hp
      rw [hnone i p hi] at hh
      cases hh
  · rcases hpois hp with hp | hp
    · exact h.poisoned hp
    · exact ⟨(t, p0), List.mem_of_getElem? hp0, hres.symm.trans hp⟩

theorem tinv_step {x : Ext} (hts : x.TimeStable) (hnp : x.NoPanic) {lib : CrfLib} {calls : List (Nat × Prog (α ⊕ Locked α))}
    (hfirst : ∀ q ∈ calls, ∀ w b, q.2.run w = .ok (.inr b) → b.SetsFirst) {s s' : TSystem α}
    (h : TInv x lib calls s) (hs : TSystemStep x lib s s') : TInv x lib calls s' := by
  cases hs with
  | step pre post t th th' sh sh' hstep =>
    cases hstep with
    | compute th th' sh sh' hw =>
      obtain ⟨h1, h2, h3⟩ := hw.residual hts hnp h.sound h.healthy
      exact h.same rfl rfl rfl (fun _ => rfl) h2 h3 fun p hg => Eq.trans h1 hg
    | finish a sh =>
      refine h.same rfl rfl rfl (fun _ => rfl) h.sound h.healthy fun p hg => .inl ?_
      unfold callResult
      rw [← show _ = p.run (x.world t) from hg]
      rfl
    | fail e sh =>
      refine h.same rfl rfl rfl (fun _ => rfl) h.sound h.healthy fun p hg => .inl ?_
      unfold callResult
      rw [← show _ = p.run (x.world t) from hg]
      rfl
    | unwind sh =>
      refine h.same rfl rfl rfl (fun _ => rfl) h.sound h.healthy fun p hg => .inl ?_
      unfold callResult
      rw [← show _ = p.run (x.world t) from hg]
      rfl
    | arrive b sh => exact h.same rfl rfl rfl (fun _ => rfl) h.sound h.healthy fun p hg => (show _ = _ from hg).symm
    | lock b sh hheld hp =>
      have hnone : ∀ p ∈ pre ++ (t, TThread.waiting b) :: post, p.2.holds = false := by
        intro p hp
        cases hh : p.2.holds with
        | false => rfl
        | true =>
          have := h.held.2 ⟨p, hp, hh⟩
          simp only at this
          rw [hheld] at this
          cases this
      refine ⟨by simpa using h.length, fun i t' th'' hi => ?_, h.sound, h.healthy, fun i j p q hp hq h1 h2 => ?_, ?_,
        h.poisoned⟩
      · by_cases he : i = pre.length
        · subst he
          simp only [getElem?_mid, Option.some.injEq, Prod.mk.injEq] at hi
          obtain ⟨rfl, rfl⟩ := hi
          obtain ⟨p, hp, hg⟩ := h.good pre.length t (.waiting b) (getElem?_mid ..)
          refine ⟨p, hp, ?_⟩
          have hg : p.run (x.world t) = .ok (.inr b) := hg
          have := hfirst _ (List.mem_of_getElem? hp) _ _ hg
          change b.result lib sh.current = callResult lib (x.world t) p
          unfold callResult
          rw [hg]
          exact this.result _ _
        · simp only at hi
          rw [getElem?_set_mid pre post (t, .waiting b) _ i, if_neg he] at hi
          exact h.good i t' th'' hi
      · have key : ∀ (i : Nat) (p : Nat × TThread α), (pre ++ (t, TThread.holding b) :: post)[i]? = some p → p.2.holds = true →
            i = pre.length := by
          intro i p hp hh
          by_contra hi
          rw [getElem?_set_mid pre post (t, .waiting b) _ i, if_neg hi] at hp
          rw [hnone p (List.mem_of_getElem? hp)] at hh
          cases hh
        rw [key i p hp h1, key j q hq h2]
      · exact ⟨fun _ => ⟨(t, .holding b), by simp, rfl⟩, fun _ => rfl⟩
    | lockPoisoned b sh hheld hp =>
      refine h.same rfl rfl rfl (fun _ => rfl) h.sound h.healthy fun p hg => .inr ⟨rfl, h.poisoned hp⟩
    | tag f k sh =>
      refine h.same rfl rfl rfl (fun hn => by cases hn) h.sound h.healthy fun p hg => Eq.trans ?_ hg
      rw [Locked.result_after]
      conv_rhs => unfold Locked.result
      cases (lib.set f >>= fun _ => lib.viterbi f) <;> rfl
    | labels k sh =>
      refine h.same rfl rfl rfl (fun hn => by cases hn) h.sound h.healthy fun p hg => Eq.trans ?_ hg
      rw [Locked.result_after]
      conv_rhs => unfold Locked.result
      cases lib.labels <;> rfl
    | set f k sh =>
      refine h.same rfl rfl rfl (fun hn => by cases hn) h.sound h.healthy fun p hg => Eq.trans ?_ hg
      rw [Locked.result_after]
      conv_rhs => unfold Locked.result
      cases lib.set f <;> rfl
    | probability ls k sh =>
      refine h.same rfl rfl rfl (fun hn => by cases hn) h.sound h.healthy fun p hg => Eq.trans ?_ hg
      rw [Locked.result_after]
      conv_rhs => unfold Locked.result
      cases lib.probability sh.current ls <;> rfl
    | leave o sh => exact h.leaves (pois := sh.poisoned) (fun _ => rfl) .inl
    | poison sh => exact h.leaves (pois := true) (fun _ => rfl) fun _ => .inr rfl

theorem tinv_reachable {x : Ext} (hts : x.TimeStable) (hnp : x.NoPanic) {lib : CrfLib}
    {calls : List (Nat × Prog (α ⊕ Locked α))} (hfirst : ∀ q ∈ calls, ∀ w b, q.2.run w = .ok (.inr b) → b.SetsFirst)
    {c : Caches} (hs : c.Sound x) (hh : c.Healthy) {cur : Option TokenFeatures} {s : TSystem α}
    (h : TReachable x lib (TSystem.start c cur calls) s) : TInv x lib calls s := by
  induction h with
  | refl => exact tinv_start x lib hs hh cur calls
  | step _ hstep ih => exact tinv_step hts hnp hfirst ih hstep

/-! ### Progress -/

/-- The part of a thread that uses caches. -/
def TThread.part : TThread α → Thread (α ⊕ Locked α)
  | .computing th => th
  | _ => .done .panic

/-- The part of the process that uses caches. -/
def TSystem.part (s : TSystem α) : System (α ⊕ Locked α) :=
  ⟨s.shared.shared, s.threads.map fun p => (p.1, p.2.part)⟩

theorem part_same {pre post : List (Nat × TThread α)} {t : Nat} {th th' : TThread α} {sh sh' : TShared}
    (h : (TSystem.part ⟨sh, pre ++ (t, th) :: post⟩).LocksOk) (hs : sh'.shared = sh.shared)
    (h1 : th'.part.holdsBuiltin = th.part.holdsBuiltin) (h2 : th'.part.holdsCustom = th.part.holdsCustom) :
    (TSystem.part ⟨sh', pre ++ (t, th') :: post⟩).LocksOk := by
  unfold System.LocksOk TSystem.part at h ⊢
  simp only [List.map_append, List.map_cons, List.countP_append, List.countP_cons, hs, h1, h2] at h ⊢
  exact h

/-- Bookkeeping of the locks, for any calls. -/
structure TLocksOk (s : TSystem α) : Prop where
  caches : s.part.LocksOk
  count : s.threads.countP (fun p => p.2.holds) = if s.shared.held then 1 else 0

theorem count_same {pre post : List (Nat × TThread α)} {t n : Nat} {th th' : TThread α}
    (h : (pre ++ (t, th) :: post).countP (fun p => p.2.holds) = n) (hh : th'.holds = th.holds) :
    (pre ++ (t, th') :: post).countP (fun p => p.2.holds) = n := by
  simp only [List.countP_append, List.countP_cons, hh] at h ⊢
  exact h

theorem tlocks_step {x : Ext} {lib : CrfLib} {s s' : TSystem α} (hs : TSystemStep x lib s s') (h : TLocksOk s) :
    TLocksOk s' := by
  cases hs with
  | step pre post t th th' sh sh' hstep =>
    obtain ⟨h1, h2⟩ := h
    cases hstep with
    | compute th th' sh sh' hw =>
      refine ⟨?_, count_same h2 rfl⟩
      unfold TSystem.part at h1 ⊢
      simp only [List.map_append, List.map_cons] at h1 ⊢
      exact locksOk_step (.step _ _ t th th' _ _ hw) h1
    | finish a sh => exact ⟨part_same h1 rfl rfl rfl, count_same h2 rfl⟩
    | fail e sh => exact ⟨part_same h1 rfl rfl rfl, count_same h2 rfl⟩
    | unwind sh => exact ⟨part_same h1 rfl rfl rfl, count_same h2 rfl⟩
    | arrive b sh => exact ⟨part_same h1 rfl rfl rfl, count_same h2 rfl⟩
    | lock b sh hheld hp =>
      refine ⟨part_same h1 rfl rfl rfl, ?_⟩
      rw [hheld] at h2
      simp only [List.countP_append, List.countP_cons] at h2 ⊢
      simp only [TThread.holds, Bool.false_eq_true, if_false, if_true] at h2 ⊢
      omega
    | lockPoisoned b sh hheld hp =>
      exact ⟨part_same h1 rfl rfl rfl, count_same h2 rfl⟩
    | tag f k sh => exact ⟨part_same h1 rfl rfl rfl, count_same h2 rfl⟩
    | labels k sh => exact ⟨part_same h1 rfl rfl rfl, count_same h2 rfl⟩
    | set f k sh => exact ⟨part_same h1 rfl rfl rfl, count_same h2 rfl⟩
    | probability ls k sh => exact ⟨part_same h1 rfl rfl rfl, count_same h2 rfl⟩
    | leave o sh =>
      refine ⟨part_same h1 rfl rfl rfl, ?_⟩
      simp only [List.countP_append, List.countP_cons] at h2 ⊢
      simp only [TThread.holds, Bool.false_eq_true, if_false, if_true] at h2 ⊢
      split at h2 <;> omega
    | poison sh =>
      refine ⟨part_same h1 rfl rfl rfl, ?_⟩
      simp only [List.countP_append, List.countP_cons] at h2 ⊢
      simp only [TThread.holds, Bool.false_eq_true, if_false, if_true] at h2 ⊢
      split at h2 <;> omega

theorem tlocks_reachable {x : Ext} {lib : CrfLib} {c : Caches} {cur : Option TokenFeatures}
    {calls : List (Nat × Prog (α ⊕ Locked α))} {s : TSystem α} (h : TReachable x lib (TSystem.start c cur calls) s) :
    TLocksOk s := by
  induction h with
  | refl =>
    refine ⟨?_, ?_⟩
    · have := locksOk_reachable (x := x) (c := c) calls .refl
      unfold TSystem.part TSystem.start
      simp only [List.map_map]
      exact this
    · simp only [TSystem.start, Bool.false_eq_true, if_false]
      rw [List.countP_eq_zero]
      intro p hp
      obtain ⟨q, _, rfl⟩ := List.mem_map.1 hp
      simp [TThread.holds]
  | step _ hs ih => exact tlocks_step hs ih

theorem tstep_of_mem {x : Ext} {lib : CrfLib} {s : TSystem α} {t : Nat} {th th' : TThread α} {sh' : TShared}
    (hm : (t, th) ∈ s.threads) (h : TThreadStep x lib t th s.shared th' sh') : ∃ s', TSystemStep x lib s s' := by
  obtain ⟨pre, post, he⟩ := List.append_of_mem hm
  obtain ⟨sh, ths⟩ := s
  simp only at he h
  subst he
  exact ⟨_, TSystemStep.step pre post t th th' sh sh' h⟩

theorem holding_steps {x : Ext} {lib : CrfLib} {s : TSystem α} {t : Nat} {b : Locked α} (hm : (t, .holding b) ∈ s.threads) :
    ∃ s', TSystemStep x lib s s' := by
  cases b with
  | leave o => exact tstep_of_mem hm (.leave o _)
  | panic => exact tstep_of_mem hm (.poison _)
  | tag f k => exact tstep_of_mem hm (.tag f k _)
  | labels k => exact tstep_of_mem hm (.labels k _)
  | set f k => exact tstep_of_mem hm (.set f k _)
  | probability ls k => exact tstep_of_mem hm (.probability ls k _)

theorem tprogress {x : Ext} {lib : CrfLib} {s : TSystem α} (hl : TLocksOk s)
    (h : ∃ p ∈ s.threads, ∀ o, p.2 ≠ TThread.done o) : ∃ s', TSystemStep x lib s s' := by
  obtain ⟨⟨t, th⟩, hm, hnd⟩ := h
  cases th with
  | done o => exact absurd rfl (hnd o)
  | holding b => exact holding_steps hm
  | waiting b =>
    cases hheld : s.shared.held with
    | false =>
      cases hp : s.shared.poisoned with
      | true => exact tstep_of_mem hm (.lockPoisoned b _ hheld hp)
      | false => exact tstep_of_mem hm (.lock b _ hheld hp)
    | true =>
      have h2 := hl.count
      rw [hheld, if_pos rfl] at h2
      obtain ⟨⟨t', th'⟩, hm', hth⟩ := List.countP_pos_iff.1 (show 0 < s.threads.countP (fun p => p.2.holds) by omega)
      cases th' with
      | holding b' => exact holding_steps hm'
      | computing th => cases hth
      | waiting b => cases hth
      | done o => cases hth
  | computing th =>
    by_cases hd : ∃ o, th = .done o
    · obtain ⟨o, rfl⟩ := hd
      cases o with
      | ok r => cases r with
        | inl a => exact tstep_of_mem hm (.finish a _)
        | inr b => exact tstep_of_mem hm (.arrive b _)
      | err e => exact tstep_of_mem hm (.fail e _)
      | panic => exact tstep_of_mem hm (.unwind _)
    · obtain ⟨s', hs'⟩ := progress (x := x) hl.caches
        ⟨(t, th), List.mem_map.2 ⟨(t, .computing th), hm, rfl⟩, fun o ho => hd ⟨o, ho⟩⟩
      obtain ⟨p, hp⟩ : ∃ p, p = s.part := ⟨_, rfl⟩
      rw [← hp] at hs'
      cases hs' with
      | step pre post t1 th1 th1' sh sh' hw =>
        have hth : (t1, th1) ∈ s.part.threads := by rw [← hp]; simp
        have hsh : sh = s.shared.shared := congrArg System.shared hp
        obtain ⟨⟨t2, th2⟩, hm2, he⟩ := List.mem_map.1 hth
        simp only [Prod.mk.injEq] at he
        obtain ⟨rfl, rfl⟩ := he
        cases th2 with
        | computing th2 =>
          subst hsh
          exact tstep_of_mem hm2 (.compute th2 th1' _ sh' hw)
        | waiting b => cases hw
        | holding b => cases hw
        | done o => cases hw

/-! ### Termination -/

/-- A step of a thread, whatever is shared. -/
def TThreadNext (x : Ext) (lib : CrfLib) (q p : Nat × TThread α) : Prop :=
  q.1 = p.1 ∧ ∃ sh sh', TThreadStep x lib p.1 p.2 sh q.2 sh'

theorem tacc_done (x : Ext) (lib : CrfLib) (t : Nat) (o : Outcome α) : Acc (TThreadNext x lib) (t, TThread.done o) :=
  Acc.intro _ (fun q hq => by obtain ⟨_, sh, sh', h⟩ := hq; cases h)

theorem tacc_leave (x : Ext) (lib : CrfLib) (t : Nat) (o : Outcome α) :
    Acc (TThreadNext x lib) (t, TThread.holding (.leave o)) := by
  refine Acc.intro _ fun q hq => ?_
  obtain ⟨t', th'⟩ := q
  obtain ⟨rfl, sh, sh', h⟩ := hq
  dsimp only at h
  cases h
  exact tacc_done x lib _ _

theorem tacc_panic (x : Ext) (lib : CrfLib) (t : Nat) : Acc (TThreadNext x lib) (t, (TThread.holding .panic : TThread α)) := by
  refine Acc.intro _ fun q hq => ?_
  obtain ⟨t', th'⟩ := q
  obtain ⟨rfl, sh, sh', h⟩ := hq
  dsimp only at h
  cases h
  exact tacc_done x lib _ _

theorem tacc_after (x : Ext) (lib : CrfLib) (t : Nat) {β : Type} (o : Outcome β) (k : β → Locked α)
    (h : ∀ b, Acc (TThreadNext x lib) (t, TThread.holding (k b))) :
    Acc (TThreadNext x lib) (t, TThread.holding (Locked.after o k)) := by
  cases o with
  | ok b => exact h b
  | err e => exact tacc_leave x lib t _
  | panic => exact tacc_panic x lib t

theorem tacc_holding (x : Ext) (lib : CrfLib) (t : Nat) (b : Locked α) :
    Acc (TThreadNext x lib) (t, TThread.holding b) := by
  induction b with
  | leave o => exact tacc_leave x lib t o
  | panic => exact tacc_panic x lib t
  | tag f k ih =>
    refine Acc.intro _ fun q hq => ?_
    obtain ⟨t', th'⟩ := q
    obtain ⟨rfl, sh, sh', h⟩ := hq
    dsimp only at h
    cases h
    exact tacc_after x lib _ _ k ih
  | labels k ih =>
    refine Acc.intro _ fun q hq => ?_
    obtain ⟨t', th'⟩ := q
    obtain ⟨rfl, sh, sh', h⟩ := hq
    dsimp only at h
    cases h
    exact tacc_after x lib _ _ k ih
  | set f k ih =>
    refine Acc.intro _ fun q hq => ?_
    obtain ⟨t', th'⟩ := q
    obtain ⟨rfl, sh, sh', h⟩ := hq
    dsimp only at h
    cases h
    exact tacc_after x lib _ _ (fun _ => k) fun _ => ih
  | probability ls k ih =>
    refine Acc.intro _ fun q hq => ?_
    obtain ⟨t', th'⟩ := q
    obtain ⟨rfl, sh, sh', h⟩ := hq
    dsimp only at h
    cases h
    exact tacc_after x lib _ _ k ih

theorem tacc_waiting (x : Ext) (lib : CrfLib) (t : Nat) (b : Locked α) :
    Acc (TThreadNext x lib) (t, TThread.waiting b) := by
  refine Acc.intro _ fun q hq => ?_
  obtain ⟨t', th'⟩ := q
  obtain ⟨rfl, sh, sh', h⟩ := hq
  dsimp only at h
  cases h with
  | lock => exact tacc_holding x lib _ _
  | lockPoisoned => exact tacc_done x lib _ _

theorem tacc_computing (x : Ext) (lib : CrfLib) {p : Nat × Thread (α ⊕ Locked α)} (h : Acc (ThreadNext x) p) :
    Acc (TThreadNext x lib) (p.1, TThread.computing p.2) := by
  induction h with
  | intro p _ ih =>
    refine Acc.intro _ fun q hq => ?_
    obtain ⟨t', th'⟩ := q
    obtain ⟨rfl, sh, sh', h⟩ := hq
    obtain ⟨t, th⟩ := p
    dsimp only at h
    cases h with
    | compute _ th' _ sh1 hw => exact ih (t, th') ⟨rfl, _, _, hw⟩
    | finish => exact tacc_done x lib _ _
    | fail => exact tacc_done x lib _ _
    | unwind => exact tacc_done x lib _ _
    | arrive => exact tacc_waiting x lib _ _

theorem tacc_start (x : Ext) (lib : CrfLib) (c : Caches) (cur : Option TokenFeatures)
    (calls : List (Nat × Prog (α ⊕ Locked α))) :
    Acc (fun s' s : TSystem α => TSystemStep x lib s s') (TSystem.start c cur calls) := by
  have : Acc (ListNext (TThreadNext x lib)) (TSystem.start c cur calls).threads := acc_list (by
    intro a ha
    simp only [TSystem.start] at ha
    obtain ⟨q, _, rfl⟩ := List.mem_map.1 ha
    exact tacc_computing x lib (acc_running x _ _))
  refine Subrelation.accessible (fun {s' s} h => ?_) (InvImage.accessible TSystem.threads this)
  cases h with
  | step pre post t th th' sh sh' h => exact ListNext.mk pre post _ _ ⟨rfl, sh, sh', h⟩

/-! ### The calls of a slot filler -/

theorem run_bind (w : World) {β γ : Type} (p : Prog β) (k : β → Prog γ) :
    (p.bind k).run w = match p.run w with
      | .ok b => (k b).run w
      | .err e => .err e
      | .panic => .panic := by
  rw [Prog.run_bind]
  cases p.run w <;> rfl

theorem code_setsFirst (codec : TagCodec) (f : SlotFiller) (call : FillerCall) (w : World) (b : Locked FillerAnswer)
    (h : (call.code codec f).run w = .ok (.inr b)) : b.SetsFirst := by
  cases call with
  | slots text =>
    unfold FillerCall.code SlotFiller.slotsCall at h
    simp only at h
    split at h
    · split at h
      · cases h
      · rw [run_bind] at h
        split at h
        · cases h; trivial
        · cases h
        · cases h
    · cases h
  | probability toks tags =>
    unfold FillerCall.code SlotFiller.probabilityCall at h
    simp only at h
    split at h
    · rw [run_bind] at h
      split at h
      · cases h
        intro l
        simp only
        cases mapOutcome codec.decode l with
        | ok labels =>
          simp only [Locked.after]
          cases mapOutcome (cleanTag labels) tags <;> trivial
        | err e => trivial
        | panic => trivial
      · cases h
      · cases h
    · cases h

theorem code_result (codec : TagCodec) (f : SlotFiller) {lib : CrfLib} (hf : ∀ tg, f.tagger = some tg → tg = lib.stateless)
    (call : FillerCall) (w : World) : callResult lib w (call.code codec f) = call.alone codec f w := by
  cases call with
  | slots text =>
    unfold FillerCall.code FillerCall.alone SlotFiller.slotsCall SlotFiller.getSlots callResult
    simp only
    cases htg : f.tagger with
    | none => rfl
    | some tg =>
      cases hos : f.processor with
      | none => rfl
      | some os =>
        simp only
        by_cases htok : f.fns.tokenize text = []
        · rw [if_pos htok, if_pos htok]; rfl
        · rw [if_neg htok, if_neg htok, run_bind, run_bind, hf tg htg]
          cases (computeFeatures f.fns os (f.fns.tokenize text)).run w with
          | err e => rfl
          | panic => rfl
          | ok features =>
            simp only [Prog.run]
            unfold Locked.result
            change _ = ((Prog.ofOutcome (((lib.set features >>= fun _ => lib.viterbi features)) >>= _)).run w >>= _ : Outcome _)
            cases lib.set features >>= fun _ => lib.viterbi features with
            | err e => rfl
            | panic => rfl
            | ok enc =>
              simp only
              rw [Locked.result_after]
              change _ = ((Prog.ofOutcome (mapOutcome codec.decode enc >>= _)).run w >>= _ : Outcome _)
              cases mapOutcome codec.decode enc with
              | err e => rfl
              | panic => rfl
              | ok tags =>
                change (tagsToSlots text (f.fns.tokenize text) tags f.scheme f.mapping >>= _ : Outcome _) =
                  ((Prog.ofOutcome (tagsToSlots text (f.fns.tokenize text) tags f.scheme f.mapping)).run w >>= _ : Outcome _)
                cases tagsToSlots text (f.fns.tokenize text) tags f.scheme f.mapping <;> rfl
  | probability toks tags =>
    unfold FillerCall.code FillerCall.alone SlotFiller.probabilityCall SlotFiller.getSequenceProbability callResult
    simp only
    cases htg : f.tagger with
    | none => rfl
    | some tg =>
      cases hos : f.processor with
      | none => rfl
      | some os =>
        simp only
        rw [run_bind, run_bind, hf tg htg]
        cases (computeFeatures f.fns os toks).run w with
        | err e => rfl
        | panic => rfl
        | ok features =>
          simp only [Prog.run]
          unfold Locked.result
          change _ = ((Prog.ofOutcome (lib.labels >>= _)).run w >>= _ : Outcome _)
          cases lib.labels with
          | err e => rfl
          | panic => rfl
          | ok enc =>
            simp only
            rw [Locked.result_after]
            change _ = ((Prog.ofOutcome (mapOutcome codec.decode enc >>= _)).run w >>= _ : Outcome _)
            cases mapOutcome codec.decode enc with
            | err e => rfl
            | panic => rfl
            | ok labels =>
              simp only
              rw [Locked.result_after]
              change _ = ((Prog.ofOutcome (mapOutcome (cleanTag labels) tags >>= _)).run w >>= _ : Outcome _)
              cases mapOutcome (cleanTag labels) tags with
              | err e => rfl
              | panic => rfl
              | ok cleaned =>
                simp only
                unfold Locked.result
                change _ = ((Prog.ofOutcome (lib.set features >>= fun _ => lib.score features (cleaned.map codec.encode))).run w
                  >>= _ : Outcome _)
                cases hs : lib.set features with
                | err e => rfl
                | panic => rfl
                | ok u =>
                  simp only
                  unfold Locked.result CrfLib.probability
                  rw [lib.after_ok hs]
                  simp only
                  change _ = ((Prog.ofOutcome (lib.score features (cleaned.map codec.encode))).run w >>= _ : Outcome _)
                  cases lib.score features (cleaned.map codec.encode) <;> rfl

end Snips
