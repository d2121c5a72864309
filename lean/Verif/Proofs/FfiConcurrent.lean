import Verif.Spec.FfiConcurrent
import Verif.Proofs.Concurrent

/-! Lemmas on threads that call the C interface. -/

namespace Snips

variable {α : Type}

/-- Whether a thread is under the guard. -/
def CThread.isInside : CThread α → Bool
  | .inside _ => true
  | _ => false

theorem callsAlone_append (x : Ext) (l l' : List (Nat × Prog α)) (c : Caches × Bool) :
    callsAlone x (l ++ l') c = ((callsAlone x l c).1 ++ (callsAlone x l' (callsAlone x l c).2).1,
      (callsAlone x l' (callsAlone x l c).2).2) := by
  induction l generalizing c with
  | nil => rfl
  | cons a l ih => simp only [List.cons_append, callsAlone, ih, List.cons_append]

theorem callsAlone_snoc (x : Ext) (l : List (Nat × Prog α)) (call : Nat × Prog α) (c : Caches × Bool) :
    callsAlone x (l ++ [call]) c = ((callsAlone x l c).1 ++ [(callAlone x call (callsAlone x l c).2).1],
      (callAlone x call (callsAlone x l c).2).2) := callsAlone_append x l [call] c

/-- What a thread under the guard still answers, with the caches it leaves. -/
def Thread.residualCached (x : Ext) (t : Nat) : Thread α → Caches → Outcome α × Caches
  | .running p, c => p.runCached x t c
  | .inBuiltin s kinds k, c => (Prog.builtinCached s kinds k).runCached x t c
  | .inCustom s kinds n k, c => (Prog.custom s kinds n k).runCached x t c
  | .done o, c => (o, c)

theorem guarded_poisoned {κ β : Type} [DecidableEq κ] (g : Guarded κ β) (k : κ) (f : κ → Outcome β)
    (h : g.poisoned = true) : g.access k f = (.panic, g) := by
  unfold Guarded.access
  rw [h]
  rfl

theorem builtinAccess_poisoned (x : Ext) (t : Nat) (s : Text) (kinds : Option (List Kind)) (n : Nat) (c : Caches)
    (h : c.builtin.poisoned = true) : x.builtinCachedAccess t s kinds n c = (.panic, c) := by
  unfold Ext.builtinCachedAccess
  simp only
  rw [guarded_poisoned _ _ _ h]

theorem customAccess_poisoned (x : Ext) (s : Text) (kinds : Option (List Text)) (n : Nat) (c : Caches)
    (h : c.custom.poisoned = true) : x.customCachedAccess s kinds n c = (.panic, c) := by
  unfold Ext.customCachedAccess
  simp only
  rw [guarded_poisoned _ _ _ h]

theorem residualCached_step {x : Ext} {t : Nat} {th th' : Thread α} {sh sh' : Shared}
    (h : ThreadStep x t th sh th' sh') :
    th'.residualCached x t sh'.caches = th.residualCached x t sh.caches := by
  cases h with
  | ret a => rfl
  | fail e => rfl
  | panic => rfl
  | fresh s kinds n k =>
    simp only [Thread.residualCached, Prog.runCached]
    cases x.builtinRaw t (x.lower s) kinds n <;> rfl
  | lockBuiltin s kinds k _ _ => rfl
  | lockBuiltinPoisoned s kinds k _ _ hp =>
    simp only [Thread.residualCached, Prog.runCached]
    rw [builtinAccess_poisoned _ _ _ _ _ _ hp]
  | serveBuiltin s kinds k =>
    simp only [Thread.residualCached, Prog.runCached]
    rcases x.builtinCachedAccess t s kinds 0 sh.caches with ⟨r, c'⟩
    cases r <;> rfl
  | lockCustom s kinds n k _ _ => rfl
  | lockCustomPoisoned s kinds n k _ _ hp =>
    simp only [Thread.residualCached, Prog.runCached]
    rw [customAccess_poisoned _ _ _ _ _ hp]
  | serveCustom s kinds n k =>
    simp only [Thread.residualCached, Prog.runCached]
    rcases x.customCachedAccess s kinds n sh.caches with ⟨r, c'⟩
    cases r <;> rfl

/-- The mutexes of the caches are held only by the thread under the guard. -/
def CacheLocks (sh : Shared) (th : Thread α) : Prop :=
  sh.builtinHeld = th.holdsBuiltin ∧ sh.customHeld = th.holdsCustom

theorem cacheLocks_step {x : Ext} {t : Nat} {th th' : Thread α} {sh sh' : Shared} (h : ThreadStep x t th sh th' sh')
    (hl : CacheLocks sh th) : CacheLocks sh' th' := by
  obtain ⟨h1, h2⟩ := hl
  cases h with
  | ret a => exact ⟨h1, h2⟩
  | fail e => exact ⟨h1, h2⟩
  | panic => exact ⟨h1, h2⟩
  | fresh s kinds n k =>
    unfold CacheLocks
    rw [holdsBuiltin_resume, holdsCustom_resume]
    exact ⟨h1, h2⟩
  | lockBuiltin s kinds k _ _ => exact ⟨rfl, h2⟩
  | lockBuiltinPoisoned s kinds k _ _ hp => exact ⟨h1, h2⟩
  | serveBuiltin s kinds k =>
    unfold CacheLocks
    rw [holdsBuiltin_resume, holdsCustom_resume]
    exact ⟨rfl, h2⟩
  | lockCustom s kinds n k _ _ => exact ⟨h1, rfl⟩
  | lockCustomPoisoned s kinds n k _ _ hp => exact ⟨h1, h2⟩
  | serveCustom s kinds n k =>
    unfold CacheLocks
    rw [holdsBuiltin_resume, holdsCustom_resume]
    exact ⟨h1, rfl⟩

/-- A thread alone under the guard can go on. -/
theorem inside_progress {x : Ext} {t : Nat} {th : Thread α} {sh : Shared} (hl : CacheLocks sh th)
    (hnd : ∀ o, th ≠ .done o) : ∃ th' sh', ThreadStep x t th sh th' sh' := by
  obtain ⟨h1, h2⟩ := hl
  cases th with
  | done o => exact absurd rfl (hnd o)
  | inBuiltin s kinds k => exact ⟨_, _, .serveBuiltin s kinds k sh⟩
  | inCustom s kinds n k => exact ⟨_, _, .serveCustom s kinds n k sh⟩
  | running p =>
    cases p with
    | ret a => exact ⟨_, _, .ret a sh⟩
    | fail e => exact ⟨_, _, .fail e sh⟩
    | panic => exact ⟨_, _, .panic sh⟩
    | builtinFresh s kinds n k => exact ⟨_, _, .fresh s kinds n k sh⟩
    | builtinCached s kinds k =>
      cases hp : sh.caches.builtin.poisoned with
      | true => exact ⟨_, _, .lockBuiltinPoisoned s kinds k sh h1 hp⟩
      | false => exact ⟨_, _, .lockBuiltin s kinds k sh h1 hp⟩
    | custom s kinds n k =>
      cases hp : sh.caches.custom.poisoned with
      | true => exact ⟨_, _, .lockCustomPoisoned s kinds n k sh h2 hp⟩
      | false => exact ⟨_, _, .lockCustom s kinds n k sh h2 hp⟩

/-- The answer of a finished call. -/
def CThread.answer? : CThread α → Option (Outcome α)
  | .done o => some o
  | _ => none

/-- What holds in every reachable state, with the calls that have returned in the order `l` (indices) in which they
returned. -/
structure CInv (x : Ext) (c : Caches) (pois : Bool) (calls : List (Nat × Prog α)) (s : CSystem α) (l : List Nat) :
    Prop where
  length : s.threads.length = calls.length
  nodup : l.Nodup
  done : ∀ i, i ∈ l ↔ ∃ (t : Nat) (o : Outcome α), s.threads[i]? = some (t, CThread.done o)
  waiting : ∀ (i t : Nat) (p : Prog α), s.threads[i]? = some (t, CThread.waiting p) → calls[i]? = some (t, p)
  answers : l.map (fun i => s.threads[i]?.bind fun p => p.2.answer?)
    = (callsAlone x (l.filterMap fun i => calls[i]?) (c, pois)).1.map some
  free : s.shared.held = false → (∀ p ∈ s.threads, p.2.isInside = false) ∧
    s.shared.shared.builtinHeld = false ∧ s.shared.shared.customHeld = false ∧
    (callsAlone x (l.filterMap fun i => calls[i]?) (c, pois)).2 = (s.shared.shared.caches, s.shared.poisoned)
  held : s.shared.held = true → ∃ (i t : Nat) (th : Thread α) (p : Prog α),
    s.threads[i]? = some (t, CThread.inside th) ∧
    (∀ (j : Nat) (q : Nat × CThread α), s.threads[j]? = some q → q.2.isInside = true → j = i) ∧
    calls[i]? = some (t, p) ∧ CacheLocks s.shared.shared th ∧ s.shared.poisoned = false ∧
    (callsAlone x (l.filterMap fun i => calls[i]?) (c, pois)).2.2 = false ∧
    th.residualCached x t s.shared.shared.caches
      = p.runCached x t (callsAlone x (l.filterMap fun i => calls[i]?) (c, pois)).2.1

theorem getElem?_set_mid {β : Type} (pre post : List β) (a b : β) (i : Nat) :
    (pre ++ b :: post)[i]? = if i = pre.length then some b else (pre ++ a :: post)[i]? := by
  by_cases h : i = pre.length
  · subst h; simp
  · rw [if_neg h]
    by_cases hlt : i < pre.length
    · rw [List.getElem?_append_left hlt, List.getElem?_append_left hlt]
    · have hge : pre.length ≤ i := Nat.le_of_not_lt hlt
      rw [List.getElem?_append_right hge, List.getElem?_append_right hge]
      obtain ⟨m, hm⟩ : ∃ m, i - pre.length = m + 1 := ⟨i - pre.length - 1, by omega⟩
      rw [hm]
      rfl

theorem getElem?_mid {β : Type} (pre post : List β) (a : β) : (pre ++ a :: post)[pre.length]? = some a := by simp

theorem cinv_start (x : Ext) (c : Caches) (pois : Bool) (calls : List (Nat × Prog α)) :
    CInv x c pois calls (CSystem.start c pois calls) [] := by
  refine ⟨by simp [CSystem.start], List.nodup_nil, fun i => ?_, fun i t p h => ?_, rfl, fun _ => ⟨?_, rfl, rfl, rfl⟩,
    fun h => by simp [CSystem.start] at h⟩
  · simp only [List.not_mem_nil, false_iff, not_exists, CSystem.start, List.getElem?_map]
    intro t o
    cases calls[i]? <;> simp
  · simp only [CSystem.start, List.getElem?_map] at h
    cases hc : calls[i]? with
    | none => rw [hc] at h; simp at h
    | some q =>
      rw [hc] at h
      simp only [Option.map_some, Option.some.injEq, Prod.mk.injEq, CThread.waiting.injEq] at h
      obtain ⟨h1, h2⟩ := h
      rw [← h1, ← h2]
  · intro p hp
    obtain ⟨q, _, rfl⟩ := List.mem_map.1 hp
    rfl

/-- The thread that moves has not returned before. -/
theorem CInv.not_done {x : Ext} {c : Caches} {pois : Bool} {calls : List (Nat × Prog α)} {l : List Nat}
    {pre post : List (Nat × CThread α)} {t : Nat} {th : CThread α} {sh : CShared}
    (h : CInv x c pois calls ⟨sh, pre ++ (t, th) :: post⟩ l) (hnd : ∀ o, th ≠ .done o) : pre.length ∉ l := by
  intro hm
  obtain ⟨t', o, ho⟩ := (h.done _).1 hm
  simp only [getElem?_mid, Option.some.injEq, Prod.mk.injEq] at ho
  exact hnd o ho.2

theorem answers_same {pre post : List (Nat × CThread α)} {a b : Nat × CThread α} {l : List Nat} (hn : pre.length ∉ l) :
    l.map (fun i => (pre ++ b :: post)[i]?.bind fun p => p.2.answer?)
      = l.map (fun i => (pre ++ a :: post)[i]?.bind fun p => p.2.answer?) := by
  refine List.map_congr_left fun i hi => ?_
  rw [getElem?_set_mid pre post a b i, if_neg]
  rintro rfl
  exact hn hi

theorem done_same {pre post : List (Nat × CThread α)} {t t' : Nat} {a b : CThread α}
    (ha : ∀ o, a ≠ .done o) (hb : ∀ o, b ≠ .done o) (i : Nat) :
    (∃ (t : Nat) (o : Outcome α), (pre ++ (t', b) :: post)[i]? = some (t, CThread.done o)) ↔
    ∃ (t : Nat) (o : Outcome α), (pre ++ (t', a) :: post)[i]? = some (t, CThread.done o) := by
  rw [getElem?_set_mid pre post (t', a) (t', b) i]
  by_cases h : i = pre.length
  · subst h
    rw [if_pos rfl, getElem?_mid]
    constructor
    · rintro ⟨_, o, ho⟩
      simp only [Option.some.injEq, Prod.mk.injEq] at ho
      exact absurd ho.2 (hb o)
    · rintro ⟨_, o, ho⟩
      simp only [Option.some.injEq, Prod.mk.injEq] at ho
      exact absurd ho.2 (ha o)
  · rw [if_neg h]

theorem done_more {pre post : List (Nat × CThread α)} {t' : Nat} {a : CThread α} {o : Outcome α} {l : List Nat}
    (hd : ∀ i, i ∈ l ↔ ∃ (t : Nat) (o : Outcome α), (pre ++ (t', a) :: post)[i]? = some (t, CThread.done o)) (i : Nat) :
    i ∈ l ++ [pre.length] ↔
    ∃ (t : Nat) (o' : Outcome α), (pre ++ (t', CThread.done o) :: post)[i]? = some (t, CThread.done o') := by
  rw [getElem?_set_mid pre post (t', a) _ i, List.mem_append, List.mem_singleton]
  by_cases h : i = pre.length
  · rw [if_pos h]
    exact ⟨fun _ => ⟨_, _, rfl⟩, fun _ => .inr h⟩
  · rw [if_neg h, ← hd i]
    exact ⟨fun h' => h'.resolve_right h, .inl⟩

theorem waiting_less {pre post : List (Nat × CThread α)} {t' : Nat} {a b : CThread α} {calls : List (Nat × Prog α)}
    (hw : ∀ (i t : Nat) (p : Prog α), (pre ++ (t', a) :: post)[i]? = some (t, CThread.waiting p) → calls[i]? = some (t, p))
    (hb : ∀ p, b ≠ .waiting p) (i t : Nat) (p : Prog α)
    (h : (pre ++ (t', b) :: post)[i]? = some (t, CThread.waiting p)) : calls[i]? = some (t, p) := by
  rw [getElem?_set_mid pre post (t', a) _ i] at h
  by_cases hi : i = pre.length
  · rw [if_pos hi] at h
    simp only [Option.some.injEq, Prod.mk.injEq] at h
    exact absurd h.2 (hb p)
  · rw [if_neg hi] at h
    exact hw i t p h

theorem cinv_step {x : Ext} {c : Caches} {pois : Bool} {calls : List (Nat × Prog α)} {s s' : CSystem α} {l : List Nat}
    (h : CInv x c pois calls s l) (hs : CSystemStep x s s') : ∃ l', l <+: l' ∧ CInv x c pois calls s' l' := by
  cases hs with
  | step pre post t th th' sh sh' hstep =>
    have hlen := h.length
    cases hstep with
    | lock p sh hheld hp =>
      have hn : pre.length ∉ l := h.not_done (by simp)
      obtain ⟨f1, f2, f3, f4⟩ := h.free hheld
      refine ⟨l, List.prefix_refl l, ⟨by simpa using hlen, h.nodup, fun i => (h.done i).trans (done_same (t := t) (by simp) (by simp) i).symm,
        waiting_less h.waiting (by simp), (answers_same hn).trans h.answers, (fun hf => (nomatch hf)), fun _ => ?_⟩⟩
      refine ⟨pre.length, t, .running p, p, getElem?_mid .., ?_, h.waiting _ _ _ (getElem?_mid ..), ⟨f2, f3⟩, hp, ?_, ?_⟩
      · intro j q hq hin
        by_contra hne
        simp only at hq
        rw [getElem?_set_mid pre post (t, CThread.waiting p) _ j, if_neg hne] at hq
        rw [f1 q (List.mem_of_getElem? hq)] at hin
        cases hin
      · rw [f4]; exact hp
      · rw [f4]; rfl
    | lockPoisoned p sh hheld hp =>
      have hn : pre.length ∉ l := h.not_done (by simp)
      obtain ⟨f1, f2, f3, f4⟩ := h.free hheld
      have hc : calls[pre.length]? = some (t, p) := h.waiting _ _ _ (getElem?_mid ..)
      have hall : callAlone x (t, p) (callsAlone x (l.filterMap fun i => calls[i]?) (c, pois)).2
          = (.err (.external 241), (sh.shared.caches, sh.poisoned)) := by
        rw [f4, callAlone, if_pos hp]
      have hfm : (l ++ [pre.length]).filterMap (fun i => calls[i]?) = l.filterMap (fun i => calls[i]?) ++ [(t, p)] := by
        rw [List.filterMap_append, List.filterMap_cons_some hc, List.filterMap_nil]
      refine ⟨l ++ [pre.length], List.prefix_append .., ⟨by simpa using hlen, ?_, done_more h.done,
        waiting_less h.waiting (by simp), ?_, fun _ => ⟨?_, f2, f3, ?_⟩, (fun hf => by simp only at hf; rw [hheld] at hf; cases hf)⟩⟩
      · exact List.nodup_append.2 ⟨h.nodup, by simp, by
          intro a ha b hb
          simp only [List.mem_singleton] at hb
          rintro rfl
          exact hn (hb ▸ ha)⟩
      · rw [hfm, callsAlone_snoc, hall, List.map_append, List.map_append]
        congr 1
        · exact (answers_same hn).trans h.answers
        · simp [CThread.answer?]
      · intro q hq
        rcases List.mem_append.1 hq with hq | hq
        · exact f1 q (List.mem_append_left _ hq)
        · rcases List.mem_cons.1 hq with rfl | hq
          · rfl
          · exact f1 q (List.mem_append_right _ (List.mem_cons_of_mem _ hq))
      · rw [hfm, callsAlone_snoc, hall]
    | work th th' sh sh' hw =>
      have hn : pre.length ∉ l := h.not_done (by simp)
      cases hheld : sh.held with
      | false =>
        have := (h.free hheld).1 (t, .inside th) (by simp)
        cases this
      | true =>
        obtain ⟨i, t', th0, p, h1, h2, h3, h4, h5, h6, h7⟩ := h.held hheld
        have hi : pre.length = i := h2 pre.length (t, .inside th) (getElem?_mid ..) rfl
        subst hi
        simp only [getElem?_mid, Option.some.injEq, Prod.mk.injEq, CThread.inside.injEq] at h1
        obtain ⟨rfl, rfl⟩ := h1
        refine ⟨l, List.prefix_refl l, ⟨by simpa using hlen, h.nodup, fun i => (h.done i).trans (done_same (t := t) (by simp) (by simp) i).symm,
          waiting_less h.waiting (by simp), (answers_same hn).trans h.answers,
          (fun hf => (nomatch hf)), fun _ => ?_⟩⟩
        refine ⟨pre.length, t, th', p, getElem?_mid .., ?_, h3, cacheLocks_step hw h4, h5, h6, ?_⟩
        · intro j q hq hin
          by_contra hne
          simp only at hq
          rw [getElem?_set_mid pre post (t, CThread.inside th) _ j, if_neg hne] at hq
          exact hne (h2 j q hq hin)
        · exact (residualCached_step hw).trans h7
    | leave o sh =>
      have hn : pre.length ∉ l := h.not_done (by simp)
      cases hheld : sh.held with
      | false =>
        have := (h.free hheld).1 (t, .inside (.done o)) (by simp)
        cases this
      | true =>
        obtain ⟨i, t', th0, p, h1, h2, h3, h4, h5, h6, h7⟩ := h.held hheld
        have hi : pre.length = i := h2 pre.length (t, .inside (.done o)) (getElem?_mid ..) rfl
        subst hi
        simp only [getElem?_mid, Option.some.injEq, Prod.mk.injEq, CThread.inside.injEq] at h1
        obtain ⟨rfl, rfl⟩ := h1
        simp only [Thread.residualCached] at h7
        simp only at h5
        have hall : callAlone x (t, p) (callsAlone x (l.filterMap fun i => calls[i]?) (c, pois)).2
            = (o, (sh.shared.caches, o.panicked)) := by
          unfold callAlone
          rw [h6]
          simp only [Bool.false_eq_true, if_false]
          rw [← h7]
        have hfm : (l ++ [pre.length]).filterMap (fun i => calls[i]?) = l.filterMap (fun i => calls[i]?) ++ [(t, p)] := by
          rw [List.filterMap_append, List.filterMap_cons_some h3, List.filterMap_nil]
        refine ⟨l ++ [pre.length], List.prefix_append .., ⟨by simpa using hlen, ?_, done_more h.done,
          waiting_less h.waiting (by simp), ?_, fun _ => ⟨?_, h4.1, h4.2, ?_⟩, (fun hf => (nomatch hf))⟩⟩
        · exact List.nodup_append.2 ⟨h.nodup, by simp, by
            intro a ha b hb
            simp only [List.mem_singleton] at hb
            rintro rfl
            exact hn (hb ▸ ha)⟩
        · rw [hfm, callsAlone_snoc, hall, List.map_append, List.map_append]
          congr 1
          · exact (answers_same hn).trans h.answers
          · simp [CThread.answer?]
        · intro q hq
          obtain ⟨j, hj⟩ := List.mem_iff_getElem?.1 hq
          cases hin : q.2.isInside with
          | false => rfl
          | true =>
            simp only at hj
            by_cases hne : j = pre.length
            · subst hne
              simp only [getElem?_mid, Option.some.injEq] at hj
              subst hj
              cases hin
            · rw [getElem?_set_mid pre post (t, CThread.inside (.done o)) _ j, if_neg hne] at hj
              exact absurd (h2 j q hj hin) hne
        · rw [hfm, callsAlone_snoc, hall]
          simp only
          rw [h5, Bool.false_or]

theorem cinv_reachable {x : Ext} {c : Caches} {pois : Bool} {calls : List (Nat × Prog α)} {s : CSystem α}
    (h : CReachable x (CSystem.start c pois calls) s) : ∃ l, CInv x c pois calls s l := by
  induction h with
  | refl => exact ⟨[], cinv_start x c pois calls⟩
  | step _ hs ih =>
    obtain ⟨l, hl⟩ := ih
    obtain ⟨l', _, hl'⟩ := cinv_step hl hs
    exact ⟨l', hl'⟩

theorem cstep_of_mem {x : Ext} {s : CSystem α} {t : Nat} {th th' : CThread α} {sh' : CShared}
    (hm : (t, th) ∈ s.threads) (h : CThreadStep x t th s.shared th' sh') : ∃ s', CSystemStep x s s' := by
  obtain ⟨pre, post, he⟩ := List.append_of_mem hm
  obtain ⟨sh, ths⟩ := s
  simp only at he h
  subst he
  exact ⟨_, CSystemStep.step pre post t th th' sh sh' h⟩

theorem cprogress {x : Ext} {c : Caches} {pois : Bool} {calls : List (Nat × Prog α)} {s : CSystem α} {l : List Nat}
    (h : CInv x c pois calls s l) (hun : ∃ p ∈ s.threads, ∀ o, p.2 ≠ CThread.done o) : ∃ s', CSystemStep x s s' := by
  obtain ⟨⟨t, th⟩, hm, hnd⟩ := hun
  cases hheld : s.shared.held with
  | false =>
    cases th with
    | done o => exact absurd rfl (hnd o)
    | inside th => have := (h.free hheld).1 _ hm; cases this
    | waiting p =>
      cases hp : s.shared.poisoned with
      | true => exact cstep_of_mem hm (.lockPoisoned p _ hheld hp)
      | false => exact cstep_of_mem hm (.lock p _ hheld hp)
  | true =>
    obtain ⟨i, t', th', p, h1, _, _, h4, _⟩ := h.held hheld
    have hm' := List.mem_of_getElem? h1
    by_cases hd : ∃ o, th' = .done o
    · obtain ⟨o, rfl⟩ := hd
      exact cstep_of_mem hm' (.leave o _)
    · obtain ⟨th'', sh', hst⟩ := inside_progress (x := x) (t := t') h4 (fun o ho => hd ⟨o, ho⟩)
      exact cstep_of_mem hm' (.work th' th'' _ sh' hst)

/-- A step of a thread, whatever the shared state. -/
def CThreadNext (x : Ext) (q p : Nat × CThread α) : Prop :=
  q.1 = p.1 ∧ ∃ sh sh', CThreadStep x p.1 p.2 sh q.2 sh'

theorem cacc_done (x : Ext) (t : Nat) (o : Outcome α) : Acc (CThreadNext x) (t, CThread.done o) :=
  Acc.intro _ (fun q hq => by obtain ⟨_, sh, sh', h⟩ := hq; cases h)

theorem cacc_inside (x : Ext) {p : Nat × Thread α} (h : Acc (ThreadNext x) p) :
    Acc (CThreadNext x) (p.1, CThread.inside p.2) := by
  induction h with
  | intro p _ ih =>
    refine Acc.intro _ fun q hq => ?_
    obtain ⟨t', th'⟩ := q
    obtain ⟨rfl, sh, sh', h⟩ := hq
    obtain ⟨t, th⟩ := p
    dsimp only at h
    cases h with
    | work _ th' _ sh1 hw => exact ih (t, th') ⟨rfl, _, _, hw⟩
    | leave o => exact cacc_done x _ _

theorem cacc_waiting (x : Ext) (t : Nat) (p : Prog α) : Acc (CThreadNext x) (t, CThread.waiting p) := by
  refine Acc.intro _ fun q hq => ?_
  obtain ⟨t', th'⟩ := q
  obtain ⟨rfl, sh, sh', h⟩ := hq
  dsimp only at h
  cases h with
  | lock => exact cacc_inside x (acc_running x _ p)
  | lockPoisoned => exact cacc_done x _ _

theorem cacc_start (x : Ext) (c : Caches) (pois : Bool) (calls : List (Nat × Prog α)) :
    Acc (fun s' s : CSystem α => CSystemStep x s s') (CSystem.start c pois calls) := by
  have : Acc (ListNext (CThreadNext x)) (CSystem.start c pois calls).threads := acc_list (by
    intro a ha
    simp only [CSystem.start] at ha
    obtain ⟨q, _, rfl⟩ := List.mem_map.1 ha
    exact cacc_waiting x _ _)
  refine Subrelation.accessible (fun {s' s} h => ?_) (InvImage.accessible CSystem.threads this)
  cases h with
  | step pre post t th th' sh sh' h => exact ListNext.mk pre post _ _ ⟨rfl, sh, sh', h⟩

end Snips
