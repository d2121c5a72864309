import Verif.Proofs.Cache

/-! Lemmas on the concurrent interpreter. -/

namespace Snips

/-- The answer a thread is going to give when it continues without caches. -/
def Thread.residual {α : Type} (w : World) : Thread α → Outcome α
  | .running p => p.run w
  | .inBuiltin s kinds k => (Prog.builtinCached s kinds k).run w
  | .inCustom s kinds n k => (Prog.custom s kinds n k).run w
  | .done o => o

theorem ThreadStep.residual {α : Type} {x : Ext} (hts : x.TimeStable) (hnp : x.NoPanic) {t : Nat}
    {th th' : Thread α} {sh sh' : Shared} (h : ThreadStep x t th sh th' sh')
    (hs : sh.caches.Sound x) (hh : sh.caches.Healthy) :
    th'.residual (x.world t) = th.residual (x.world t) ∧ sh'.caches.Sound x ∧ sh'.caches.Healthy := by
  cases h with
  | ret a => exact ⟨rfl, hs, hh⟩
  | fail e => exact ⟨rfl, hs, hh⟩
  | panic => exact ⟨rfl, hs, hh⟩
  | fresh s kinds n k =>
    refine ⟨?_, hs, hh⟩
    simp only [Thread.residual, Prog.run, Ext.world]
    cases x.builtinRaw t (x.lower s) kinds n <;> rfl
  | lockBuiltin s kinds k _ _ => exact ⟨rfl, hs, hh⟩
  | lockBuiltinPoisoned s kinds k _ _ hp => rw [hh.1] at hp; cases hp
  | serveBuiltin s kinds k =>
    obtain ⟨h1, h2, h3⟩ := builtinAccess_spec hts hs hh t s kinds 0
    refine ⟨?_, h2, h3 (fun t => hnp.1 t _ _ _)⟩
    rcases Outcome.map_ok_inv h1 with ⟨a, a', ha, ha', hf⟩ | ⟨e, he, he'⟩ | ⟨he, he'⟩
    · simp only [ha, Thread.resume, Thread.residual, Prog.run, Ext.world, ha', hf]
    · simp only [he, Thread.resume, Thread.residual, Prog.run, Ext.world, he']
    · simp only [he, Thread.resume, Thread.residual, Prog.run, Ext.world, he']
  | lockCustom s kinds n k _ _ => exact ⟨rfl, hs, hh⟩
  | lockCustomPoisoned s kinds n k _ _ hp => rw [hh.2] at hp; cases hp
  | serveCustom s kinds n k =>
    obtain ⟨h1, h2, h3⟩ := customAccess_spec hs hh s kinds n
    refine ⟨?_, h2, h3 (hnp.2 _ _ _)⟩
    rw [h1]
    simp only [Thread.residual, Prog.run, Ext.world]
    cases x.customExtract (x.lower s) kinds n <;> rfl

/-- Every thread still answers its call, and the caches are sound and healthy. -/
structure SystemInv {α : Type} (x : Ext) (calls : List (Nat × Prog α)) (s : System α) : Prop where
  threads : s.threads.map (fun p => (p.1, p.2.residual (x.world p.1)))
    = calls.map (fun p => (p.1, p.2.run (x.world p.1)))
  sound : s.shared.caches.Sound x
  healthy : s.shared.caches.Healthy

theorem systemInv_reachable {α : Type} {x : Ext} (hts : x.TimeStable) (hnp : x.NoPanic)
    (calls : List (Nat × Prog α)) {c : Caches} (hs : c.Sound x) (hh : c.Healthy) {s : System α}
    (h : Reachable x (System.start c calls) s) : SystemInv x calls s := by
  induction h with
  | refl =>
    refine ⟨?_, hs, hh⟩
    simp [System.start, Thread.residual]
  | step _ hstep ih =>
    cases hstep with
    | step pre post t th th' sh sh' hth =>
      obtain ⟨h1, h2, h3⟩ := hth.residual hts hnp ih.sound ih.healthy
      refine ⟨?_, h2, h3⟩
      rw [← ih.threads]
      simp only [List.map_append, List.map_cons, h1]

/-- Whether a thread holds the builtin mutex. -/
def Thread.holdsBuiltin {α : Type} : Thread α → Bool
  | .inBuiltin .. => true
  | _ => false

/-- Whether a thread holds the custom mutex. -/
def Thread.holdsCustom {α : Type} : Thread α → Bool
  | .inCustom .. => true
  | _ => false

theorem holdsBuiltin_resume {α β : Type} (r : Outcome β) (k : β → Prog α) :
    (Thread.resume r k).holdsBuiltin = false := by cases r <;> rfl

theorem holdsCustom_resume {α β : Type} (r : Outcome β) (k : β → Prog α) :
    (Thread.resume r k).holdsCustom = false := by cases r <;> rfl

/-- Mutual exclusion bookkeeping. -/
def System.LocksOk {α : Type} (s : System α) : Prop :=
  (s.threads.countP (fun p => p.2.holdsBuiltin) = if s.shared.builtinHeld then 1 else 0) ∧
  (s.threads.countP (fun p => p.2.holdsCustom) = if s.shared.customHeld then 1 else 0)

theorem locksOk_step {α : Type} {x : Ext} {s s' : System α} (hstep : SystemStep x s s') (ih : s.LocksOk) :
    s'.LocksOk := by
  cases hstep with
  | step pre post t th th' sh sh' hth =>
    obtain ⟨i1, i2⟩ := ih
    simp only [List.countP_append, List.countP_cons] at i1 i2
    unfold System.LocksOk
    simp only [List.countP_append, List.countP_cons]
    cases hth with
    | ret a => exact ⟨i1, i2⟩
    | fail e => exact ⟨i1, i2⟩
    | panic => exact ⟨i1, i2⟩
    | fresh s kinds n k =>
      rw [holdsBuiltin_resume, holdsCustom_resume]; exact ⟨i1, i2⟩
    | lockBuiltin s kinds k _ hheld _ =>
      rw [hheld] at i1
      refine ⟨?_, i2⟩
      simp only [Thread.holdsBuiltin, Bool.false_eq_true, if_false, if_true] at i1 ⊢
      omega
    | lockBuiltinPoisoned s kinds k _ hp => exact ⟨i1, i2⟩
    | serveBuiltin s kinds k =>
      rw [holdsBuiltin_resume, holdsCustom_resume]
      refine ⟨?_, i2⟩
      simp only [Thread.holdsBuiltin, Bool.false_eq_true, if_false, if_true] at i1 ⊢
      split at i1 <;> omega
    | lockCustom s kinds n k _ hheld _ =>
      rw [hheld] at i2
      refine ⟨i1, ?_⟩
      simp only [Thread.holdsCustom, Bool.false_eq_true, if_false, if_true] at i2 ⊢
      omega
    | lockCustomPoisoned s kinds n k _ hp => exact ⟨i1, i2⟩
    | serveCustom s kinds n k =>
      rw [holdsBuiltin_resume, holdsCustom_resume]
      refine ⟨i1, ?_⟩
      simp only [Thread.holdsCustom, Bool.false_eq_true, if_false, if_true] at i2 ⊢
      split at i2 <;> omega

theorem locksOk_reachable {α : Type} {x : Ext} (calls : List (Nat × Prog α)) {c : Caches}
    {s : System α} (h : Reachable x (System.start c calls) s) : s.LocksOk := by
  induction h with
  | refl =>
    constructor <;>
    · simp only [System.start, Bool.false_eq_true, if_false]
      rw [List.countP_eq_zero]
      intro p hp
      obtain ⟨q, _, rfl⟩ := List.mem_map.1 hp
      simp [Thread.holdsBuiltin, Thread.holdsCustom]
  | step _ hstep ih => exact locksOk_step hstep ih

theorem step_of_mem {α : Type} {x : Ext} {s : System α} {t : Nat} {th th' : Thread α} {sh' : Shared}
    (hm : (t, th) ∈ s.threads) (h : ThreadStep x t th s.shared th' sh') : ∃ s', SystemStep x s s' := by
  obtain ⟨pre, post, he⟩ := List.append_of_mem hm
  obtain ⟨sh, ths⟩ := s
  simp only at he h
  subst he
  exact ⟨_, SystemStep.step pre post t th th' sh sh' h⟩

theorem exists_serving_builtin {α : Type} {s : System α} (hl : s.LocksOk)
    (h : s.shared.builtinHeld = true) :
    ∃ t ss kinds k, (t, Thread.inBuiltin ss kinds k) ∈ s.threads := by
  have h1 := hl.1
  rw [h, if_pos rfl] at h1
  have : 0 < s.threads.countP (fun p => p.2.holdsBuiltin) := by omega
  obtain ⟨⟨t, th⟩, hm, hth⟩ := List.countP_pos_iff.1 this
  cases th with
  | inBuiltin ss kinds k => exact ⟨t, ss, kinds, k, hm⟩
  | running p => cases hth
  | inCustom s kinds n k => cases hth
  | done o => cases hth

theorem exists_serving_custom {α : Type} {s : System α} (hl : s.LocksOk)
    (h : s.shared.customHeld = true) :
    ∃ t ss kinds n k, (t, Thread.inCustom ss kinds n k) ∈ s.threads := by
  have h1 := hl.2
  rw [h, if_pos rfl] at h1
  have : 0 < s.threads.countP (fun p => p.2.holdsCustom) := by omega
  obtain ⟨⟨t, th⟩, hm, hth⟩ := List.countP_pos_iff.1 this
  cases th with
  | inCustom ss kinds n k => exact ⟨t, ss, kinds, n, k, hm⟩
  | running p => cases hth
  | inBuiltin s kinds k => cases hth
  | done o => cases hth

theorem progress {α : Type} {x : Ext} {s : System α} (hl : s.LocksOk)
    (h : ∃ p ∈ s.threads, ∀ o, p.2 ≠ Thread.done o) : ∃ s', SystemStep x s s' := by
  obtain ⟨⟨t, th⟩, hm, hnd⟩ := h
  cases th with
  | done o => exact absurd rfl (hnd o)
  | inBuiltin ss kinds k => exact step_of_mem hm (.serveBuiltin ss kinds k _)
  | inCustom ss kinds n k => exact step_of_mem hm (.serveCustom ss kinds n k _)
  | running p =>
    cases p with
    | ret a => exact step_of_mem hm (.ret a _)
    | fail e => exact step_of_mem hm (.fail e _)
    | panic => exact step_of_mem hm (.panic _)
    | builtinFresh ss kinds n k => exact step_of_mem hm (.fresh ss kinds n k _)
    | builtinCached ss kinds k =>
      cases hb : s.shared.builtinHeld with
      | true =>
        obtain ⟨t', ss', kinds', k', hm'⟩ := exists_serving_builtin hl hb
        exact step_of_mem hm' (.serveBuiltin ss' kinds' k' _)
      | false =>
        cases hp : s.shared.caches.builtin.poisoned with
        | true => exact step_of_mem hm (.lockBuiltinPoisoned ss kinds k _ hb hp)
        | false => exact step_of_mem hm (.lockBuiltin ss kinds k _ hb hp)
    | custom ss kinds n k =>
      cases hb : s.shared.customHeld with
      | true =>
        obtain ⟨t', ss', kinds', n', k', hm'⟩ := exists_serving_custom hl hb
        exact step_of_mem hm' (.serveCustom ss' kinds' n' k' _)
      | false =>
        cases hp : s.shared.caches.custom.poisoned with
        | true => exact step_of_mem hm (.lockCustomPoisoned ss kinds n k _ hb hp)
        | false => exact step_of_mem hm (.lockCustom ss kinds n k _ hb hp)

/-- A step of a thread, whatever the shared state. -/
def ThreadNext (x : Ext) {α : Type} (q p : Nat × Thread α) : Prop :=
  q.1 = p.1 ∧ ∃ sh sh', ThreadStep x p.1 p.2 sh q.2 sh'

theorem acc_done {α : Type} (x : Ext) (t : Nat) (o : Outcome α) : Acc (ThreadNext x) (t, Thread.done o) :=
  Acc.intro _ (fun q hq => by obtain ⟨_, sh, sh', h⟩ := hq; cases h)

theorem acc_resume {α β : Type} (x : Ext) (t : Nat) (k : β → Prog α)
    (ih : ∀ b, Acc (ThreadNext x) (t, Thread.running (k b))) (r : Outcome β) :
    Acc (ThreadNext x) (t, Thread.resume r k) := by
  cases r with
  | ok b => exact ih b
  | err e => exact acc_done x t _
  | panic => exact acc_done x t _

theorem acc_running {α : Type} (x : Ext) (t : Nat) (p : Prog α) :
    Acc (ThreadNext x) (t, Thread.running p) := by
  induction p with
  | ret a =>
    refine Acc.intro _ (fun q hq => ?_)
    obtain ⟨t', th'⟩ := q
    obtain ⟨rfl, sh, sh', h⟩ := hq
    dsimp only at h
    cases h; exact acc_done x _ _
  | fail a =>
    refine Acc.intro _ (fun q hq => ?_)
    obtain ⟨t', th'⟩ := q
    obtain ⟨rfl, sh, sh', h⟩ := hq
    dsimp only at h
    cases h; exact acc_done x _ _
  | panic =>
    refine Acc.intro _ (fun q hq => ?_)
    obtain ⟨t', th'⟩ := q
    obtain ⟨rfl, sh, sh', h⟩ := hq
    dsimp only at h
    cases h; exact acc_done x _ _
  | builtinFresh s kinds n k ih =>
    refine Acc.intro _ (fun q hq => ?_)
    obtain ⟨t', th'⟩ := q
    obtain ⟨rfl, sh, sh', h⟩ := hq
    dsimp only at h
    cases h; exact acc_resume x _ k ih _
  | builtinCached s kinds k ih =>
    refine Acc.intro _ (fun q hq => ?_)
    obtain ⟨t', th'⟩ := q
    obtain ⟨rfl, sh, sh', h⟩ := hq
    dsimp only at h
    cases h with
    | lockBuiltinPoisoned => exact acc_done x _ _
    | lockBuiltin =>
      refine Acc.intro _ (fun q hq => ?_)
      obtain ⟨t', th'⟩ := q
      obtain ⟨rfl, sh, sh', h⟩ := hq
      dsimp only at h
      cases h; exact acc_resume x _ (fun (es : List BuiltinEntity) => k (es.map BuiltinEntity.kindMatch)) (fun es => ih _) _
  | custom s kinds n k ih =>
    refine Acc.intro _ (fun q hq => ?_)
    obtain ⟨t', th'⟩ := q
    obtain ⟨rfl, sh, sh', h⟩ := hq
    dsimp only at h
    cases h with
    | lockCustomPoisoned => exact acc_done x _ _
    | lockCustom =>
      refine Acc.intro _ (fun q hq => ?_)
      obtain ⟨t', th'⟩ := q
      obtain ⟨rfl, sh, sh', h⟩ := hq
      dsimp only at h
      cases h; exact acc_resume x _ k ih _

/-- Replacing one element of a list by a smaller one. -/
inductive ListNext {β : Type} (r : β → β → Prop) : List β → List β → Prop where
  | mk (pre post : List β) (a a' : β) : r a' a → ListNext r (pre ++ a' :: post) (pre ++ a :: post)

theorem acc_cons {β : Type} {r : β → β → Prop} {a : β} {l : List β} (ha : Acc r a)
    (hl : Acc (ListNext r) l) : Acc (ListNext r) (a :: l) := by
  induction ha generalizing l with
  | intro a _ iha =>
    induction hl with
    | intro l hl ihl =>
      refine Acc.intro _ (fun l' h => ?_)
      generalize hm : a :: l = m at h
      cases h with
      | mk pre post b b' hb =>
        cases pre with
        | nil =>
          simp only [List.nil_append, List.cons.injEq] at hm ⊢
          obtain ⟨rfl, rfl⟩ := hm
          exact iha b' hb (Acc.intro _ hl)
        | cons c pre =>
          simp only [List.cons_append, List.cons.injEq] at hm ⊢
          obtain ⟨rfl, rfl⟩ := hm
          exact ihl _ (ListNext.mk pre post b b' hb)

theorem acc_list {β : Type} {r : β → β → Prop} {l : List β} (h : ∀ a ∈ l, Acc r a) :
    Acc (ListNext r) l := by
  induction l with
  | nil =>
    refine Acc.intro _ (fun l' h => ?_)
    generalize hm : ([] : List β) = m at h
    cases h with
    | mk pre post b b' hb => simp at hm
  | cons a l ih =>
    exact acc_cons (h a (by simp)) (ih (fun b hb => h b (List.mem_cons_of_mem _ hb)))

theorem listNext_of_step {α : Type} {x : Ext} {s s' : System α} (h : SystemStep x s s') :
    ListNext (ThreadNext x) s'.threads s.threads := by
  cases h with
  | step pre post t th th' sh sh' h => exact ListNext.mk pre post _ _ ⟨rfl, sh, sh', h⟩

theorem acc_start {α : Type} (x : Ext) (c : Caches) (calls : List (Nat × Prog α)) :
    Acc (fun s' s : System α => SystemStep x s s') (System.start c calls) := by
  have : Acc (ListNext (ThreadNext x)) (System.start c calls).threads := acc_list (by
    intro a ha
    simp only [System.start] at ha
    obtain ⟨q, _, rfl⟩ := List.mem_map.1 ha
    exact acc_running x _ _)
  exact Subrelation.accessible (fun h => listNext_of_step h) (InvImage.accessible System.threads this)

end Snips
