import Verif.Proofs.ThreadRequests
import Verif.Props.C101_Extracting

/-! # C106: threads sharing an engine do not extract the same thing twice -/

namespace Snips

/-- Threads share an engine that has answered any calls before.  Under every schedule, if the answered requests are, for each of
the two caches, among no more than its capacity, then a request that has been answered to one thread is not extracted again,
for it or for another. -/
theorem c106_once {α : Type} (x : Ext) (hnp : x.NoPanic) (cap : Nat) (hcap : 0 < cap) (before calls : List (Nat × Prog α))
    (builtin : List (CacheKey Kind)) (custom : List (CacheKey Text)) (hb : builtin.length ≤ cap) (hc : custom.length ≤ cap)
    (served : List Access) (s : System α)
    (h : Traced x (System.start (runHistory x before (Caches.empty cap)).2 calls) served s)
    (hk : AmongKeys served builtin custom) (pre post : List Access) (a : Access) (hs : served = pre ++ a :: post)
    (hseen : ∃ b ∈ pre, b.answered = true ∧ b.key = a.key) : a.extracted = false := by
  have hw := runHistory_well hnp hcap before _ (empty_well cap)
  have ho := (traced_once hnp hb hc hw h hk).1
  rw [hs] at ho
  exact once_split pre ho (by simpa using hseen)

/-- Every state that the threads can reach comes with the requests served until then, to which this applies; and from
every one of them a state is reached where all calls have returned (no schedule is endless: C24). -/
theorem c106_schedules {α : Type} (x : Ext) (c : Caches) (calls : List (Nat × Prog α)) :
    (∀ s, Reachable x (System.start c calls) s ↔ ∃ served, Traced x (System.start c calls) served s) ∧
    ∀ s, Reachable x (System.start c calls) s → ∃ served s', Reachable x s s' ∧ s'.Finished ∧
      Traced x (System.start c calls) served s' := by
  refine ⟨fun s => ⟨reachable_traced, fun ⟨_, h⟩ => traced_reachable h⟩, ?_⟩
  have hacc : ∀ s, Reachable x (System.start c calls) s → Acc (fun s' s : System α => SystemStep x s s') s := by
    intro s h
    induction h with
    | refl => exact acc_start x c calls
    | step _ hs ih => exact ih.inv hs
  have key : ∀ s, Acc (fun s' s : System α => SystemStep x s s') s → Reachable x (System.start c calls) s →
      ∃ s', Reachable x s s' ∧ s'.Finished ∧ Reachable x (System.start c calls) s' := by
    intro s ha
    induction ha with
    | intro s _ ih =>
      intro hr
      by_cases hf : s.Finished
      · exact ⟨s, .refl, hf, hr⟩
      · have : ∃ p ∈ s.threads, ∀ o, p.2 ≠ Thread.done o := by
          unfold System.Finished at hf
          push Not at hf
          exact hf
        obtain ⟨s1, hs1⟩ := progress (x := x) (locksOk_reachable calls hr) this
        obtain ⟨s', h1, h2, h3⟩ := ih s1 hs1 (.step hr hs1)
        refine ⟨s', ?_, h2, h3⟩
        clear h2 h3 ih
        induction h1 with
        | refl => exact .step .refl hs1
        | step _ hs ih => exact .step ih hs
  intro s hr
  obtain ⟨s', h1, h2, h3⟩ := key s (hacc s hr) hr
  obtain ⟨served, h⟩ := reachable_traced h3
  exact ⟨served, s', h1, h2, h⟩

/-- When all calls have returned, whatever the schedule, they have asked what each of them asks when it is alone on a freshly
loaded engine, and got answers to the same requests. -/
theorem c106_asked {α : Type} (x : Ext) (hts : x.TimeStable) (hnp : x.NoPanic) (cap : Nat) (calls : List (Nat × Prog α))
    (served : List Access) (s : System α) (h : Traced x (System.start (Caches.empty cap) calls) served s) (hf : s.Finished) :
    (served.map Access.asked).Perm (calls.flatMap (Prog.askedAlone x cap)) := by
  have hp := traced_asked hts hnp calls (Caches.empty_sound x cap) (Caches.empty_healthy cap) h
  have hnil : s.threads.flatMap (fun p => p.2.toAsk x p.1 (Caches.empty cap)) = [] := by
    rw [List.flatMap_eq_nil_iff]
    intro p hpm
    obtain ⟨o, ho⟩ := hf p hpm
    rw [ho]
    rfl
  rw [hnil, List.append_nil] at hp
  exact hp

/-- The number of extractions does not depend on the schedule: it is the number of different requests that are answered,
counted once for all threads, and of those that are not, counted each time. -/
theorem c106_count {α : Type} (x : Ext) (hts : x.TimeStable) (hnp : x.NoPanic) (cap : Nat) (calls : List (Nat × Prog α))
    (builtin : List (CacheKey Kind)) (custom : List (CacheKey Text)) (hb : builtin.length ≤ cap) (hc : custom.length ≤ cap)
    (hk : ∀ call ∈ calls, AmongKeys (call.2.accesses x call.1 (Caches.empty cap)) builtin custom)
    (served : List Access) (s : System α) (h : Traced x (System.start (Caches.empty cap) calls) served s) (hf : s.Finished) :
    let all := calls.flatMap (Prog.askedAlone x cap)
    served.countP (·.extracted) = ((all.filter (·.2)).map Prod.fst).toFinset.card + all.countP (fun r => !r.2) := by
  intro all
  have hp := c106_asked x hts hnp cap calls served s h hf
  have hk' : AmongKeys served builtin custom := by
    intro a ha hans
    obtain ⟨call, hcall, hm⟩ := List.mem_flatMap.1 (hp.subset (List.mem_map_of_mem ha))
    obtain ⟨b, hb, hba⟩ := List.mem_map.1 hm
    obtain ⟨hkey, hbans⟩ := Prod.mk.inj hba
    have := hk call hcall b hb (hbans.trans hans)
    rwa [hkey] at this
  rw [count_extracted served (traced_once hnp hb hc (empty_well cap) h hk').1 (traced_needed hnp (empty_only cap) h).1
    (traced_unanswered h)]
  have hfil := (hp.filter (·.2)).map Prod.fst
  rw [List.filter_map, List.map_map] at hfil
  have h1 : ((all.filter (·.2)).map Prod.fst).toFinset = ((served.filter (·.answered)).map Access.key).toFinset :=
    (List.toFinset_eq_of_perm _ _ hfil).symm
  have h2 := hp.countP_eq (fun r => !r.2)
  rw [List.countP_map] at h2
  rw [h1]
  exact congrArg _ h2

/-- The same with taggers behind mutexes and a clock that advances while calls are running: nothing answered is extracted
again, and until any moment of any schedule as many extractions were made as different requests were answered, and one for
each request that was not. -/
theorem c106_clock {α : Type} (x : Ext) (hnp : x.NoPanic) (libs : Nat → CrfLib) (cap : Nat) (now : Nat)
    (current : Nat → Option TokenFeatures) (calls : List (EProg α))
    (builtin : List (CacheKey Kind)) (custom : List (CacheKey Text)) (hb : builtin.length ≤ cap) (hc : custom.length ≤ cap)
    (served : List Access) (s : ESystem α) (h : ETraced x libs (ESystem.start now (Caches.empty cap) current calls) served s)
    (hk : AmongKeys served builtin custom) :
    (∀ pre post a, served = pre ++ a :: post → (∃ b ∈ pre, b.answered = true ∧ b.key = a.key) → a.extracted = false) ∧
    served.countP (·.extracted) =
      ((served.filter (·.answered)).map Access.key).toFinset.card + served.countP (fun a => !a.answered) := by
  have ho := (etraced_once hnp hb hc (empty_well cap) h hk).1
  refine ⟨fun pre post a hs hseen => ?_,
    count_extracted served ho (etraced_needed hnp (empty_only cap) h).1 (etraced_unanswered h)⟩
  rw [hs] at ho
  exact once_split pre ho (by simpa using hseen)

/-- The histories of requests above cover every schedule of those threads. -/
theorem c106_clock_schedules {α : Type} (x : Ext) (libs : Nat → CrfLib) (s0 s : ESystem α) :
    EReachable x libs s0 s ↔ ∃ served, ETraced x libs s0 served s :=
  ⟨ereachable_traced, fun ⟨_, h⟩ => etraced_reachable h⟩

/-- Two threads that each ask for two texts, and for the first one again: two extractions under every schedule. -/
example : ∀ served s, Traced demoExt (System.start (Caches.empty 2) [(1, threeRequests), (2, threeRequests)]) served s →
    s.Finished → served.countP (·.extracted) = 2 ∧ served.length = 6 := by
  have hk : ∀ call ∈ [(1, threeRequests), (2, threeRequests)],
      AmongKeys (call.2.accesses demoExt call.1 (Caches.empty 2)) [⟨['a'], none, 0⟩, ⟨['b'], none, 0⟩] [] := by
    intro call hcall a ha _
    have h := List.mem_map_of_mem (f := Access.key) ha
    have hkeys : (call.2.accesses demoExt call.1 (Caches.empty 2)).map Access.key =
        [.inl ⟨['a'], none, 0⟩, .inl ⟨['b'], none, 0⟩, .inl ⟨['a'], none, 0⟩] := by
      simp only [List.mem_cons, List.not_mem_nil, or_false] at hcall
      rcases hcall with rfl | rfl <;> decide +kernel
    rw [hkeys] at h
    simp only [List.mem_cons, List.not_mem_nil, or_false] at h
    rcases h with h | h | h <;> rw [h] <;> simp
  have hall : [(1, threeRequests), (2, threeRequests)].flatMap (Prog.askedAlone demoExt 2) =
      [(.inl ⟨['a'], none, 0⟩, true), (.inl ⟨['b'], none, 0⟩, true), (.inl ⟨['a'], none, 0⟩, true),
       (.inl ⟨['a'], none, 0⟩, true), (.inl ⟨['b'], none, 0⟩, true), (.inl ⟨['a'], none, 0⟩, true)] := by decide +kernel
  intro served s h hf
  have hc := c106_count demoExt demoExt_timeStable demoExt_noPanic 2 _ _ _ (by decide) (by decide) hk served s h hf
  have hp := (c106_asked demoExt demoExt_timeStable demoExt_noPanic 2 _ served s h hf).length_eq
  rw [hall] at hp
  simp only [hall] at hc
  refine ⟨hc.trans (by decide +kernel), by simpa using hp⟩

end Snips
