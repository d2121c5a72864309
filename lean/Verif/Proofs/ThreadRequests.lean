import Verif.Spec.ThreadRequests
import Verif.Proofs.Extracting
import Verif.Proofs.Concurrent
import Mathlib.Data.Finset.Card
import Mathlib.Data.List.Induction

/-! Requests of threads. -/

namespace Snips

variable {x : Ext} {α : Type}

theorem traced_reachable {s0 s : System α} {l : List Access} (h : Traced x s0 l s) : Reachable x s0 s := by
  induction h with
  | start => exact .refl
  | step _ hs ih => exact .step ih (.step _ _ _ _ _ _ _ hs)

theorem reachable_traced {s0 s : System α} (h : Reachable x s0 s) : ∃ l, Traced x s0 l s := by
  induction h with
  | refl => exact ⟨[], .start⟩
  | step _ hs ih =>
    obtain ⟨l, hl⟩ := ih
    cases hs with
    | step pre post t th th' sh sh' hth => exact ⟨_, .step hl hth⟩

/-- The caches after a step are those after the request it makes. -/
theorem step_caches {t : Nat} {th th' : Thread α} {sh sh' : Shared} (h : ThreadStep x t th sh th' sh') :
    (th.nextRequest x t sh.caches = [] ∧ sh'.caches = sh.caches) ∨
      ∃ p : Prog Unit, th.nextRequest x t sh.caches = p.accesses x t sh.caches ∧ sh'.caches = (p.runCached x t sh.caches).2 := by
  cases h with
  | ret a => exact .inl ⟨rfl, rfl⟩
  | fail e => exact .inl ⟨rfl, rfl⟩
  | panic => exact .inl ⟨rfl, rfl⟩
  | fresh s kinds n k => exact .inl ⟨rfl, rfl⟩
  | lockBuiltin s kinds k _ _ => exact .inl ⟨rfl, rfl⟩
  | lockBuiltinPoisoned s kinds k _ _ hp => exact .inl ⟨rfl, rfl⟩
  | lockCustom s kinds n k _ _ => exact .inl ⟨rfl, rfl⟩
  | lockCustomPoisoned s kinds n k _ _ hp => exact .inl ⟨rfl, rfl⟩
  | serveBuiltin s kinds k =>
    refine .inr ⟨_, rfl, ?_⟩
    simp only [Prog.runCached]
    rcases x.builtinCachedAccess t s kinds 0 sh.caches with ⟨o, c⟩
    cases o <;> rfl
  | serveCustom s kinds n k =>
    refine .inr ⟨_, rfl, ?_⟩
    simp only [Prog.runCached]
    rcases x.customCachedAccess s kinds n sh.caches with ⟨o, c⟩
    cases o <;> rfl

theorem traced_once (hnp : x.NoPanic) {cap : Nat} {kb : List (CacheKey Kind)} {kc : List (CacheKey Text)}
    (hb : kb.length ≤ cap) (hc : kc.length ≤ cap) {s0 s : System α} (h0 : CachesWell cap s0.shared.caches) {l : List Access}
    (h : Traced x s0 l s) : AmongKeys l kb kc → Once [] l ∧ CachesRecent cap kb kc l s.shared.caches := by
  induction h with
  | start => exact fun _ => ⟨trivial, h0.recent⟩
  | step _ hs ih =>
    intro hk
    obtain ⟨h1, h2⟩ := ih fun a ha => hk a (List.mem_append_left _ ha)
    rcases step_caches hs with ⟨hn, hcs⟩ | ⟨p, hn, hcs⟩
    · rw [hn, List.append_nil]
      exact ⟨h1, hcs ▸ h2⟩
    · rw [hn] at hk ⊢
      obtain ⟨h3, h4⟩ := accesses_once hnp hb hc _ p _ _ h2 fun a ha => hk a (List.mem_append_right _ ha)
      exact ⟨once_append _ _ _ h1 (by simpa using h3), hcs ▸ h4⟩

theorem traced_needed (hnp : x.NoPanic) {s0 s : System α} (h0 : CachesOnly [] s0.shared.caches) {l : List Access}
    (h : Traced x s0 l s) : Needed [] l ∧ CachesOnly l s.shared.caches := by
  induction h with
  | start => exact ⟨trivial, h0⟩
  | step _ hs ih =>
    obtain ⟨h1, h2⟩ := ih
    rcases step_caches hs with ⟨hn, hcs⟩ | ⟨p, hn, hcs⟩
    · rw [hn, List.append_nil]
      exact ⟨h1, hcs ▸ h2⟩
    · rw [hn]
      obtain ⟨h3, h4⟩ := accesses_needed hnp _ p _ _ h2
      exact ⟨needed_append _ _ _ h1 (by simpa using h3), hcs ▸ h4⟩

/-- What is not answered was extracted. -/
theorem extracts_of_unanswered {κ ν : Type} [DecidableEq κ] {g : Guarded κ ν} {k : κ} {f : κ → Outcome ν}
    (h : (g.access k f).1.answered = false) : g.extracts k = true := by
  unfold Guarded.extracts
  unfold Guarded.access Lru.tryCache at h ⊢
  cases hp : g.poisoned with
  | true => simp
  | false =>
    simp only [hp, Bool.false_eq_true, if_false] at h ⊢
    generalize g.cache.getMut k = vc at h ⊢
    obtain ⟨v, c⟩ := vc
    cases v with
    | some v => cases h
    | none => rfl

theorem accesses_unanswered (t : Nat) : ∀ (p : Prog α) (c : Caches), ∀ a ∈ p.accesses x t c, a.answered = false → a.extracted = true := by
  intro p
  induction p with
  | ret a => intro c a ha; cases ha
  | fail e => intro c a ha; cases ha
  | panic => intro c a ha; cases ha
  | builtinFresh s kinds n k ih =>
    intro c a ha
    simp only [Prog.accesses] at ha
    split at ha
    · exact ih _ _ a ha
    · cases ha
  | builtinCached s kinds k ih =>
    intro c a ha
    simp only [Prog.accesses, List.mem_cons] at ha
    rcases ha with rfl | ha
    · exact fun h => extracts_of_unanswered h
    · split at ha
      · exact ih _ _ a ha
      · cases ha
  | custom s kinds n k ih =>
    intro c a ha
    simp only [Prog.accesses, List.mem_cons] at ha
    rcases ha with rfl | ha
    · exact fun h => extracts_of_unanswered h
    · split at ha
      · exact ih _ _ a ha
      · cases ha

theorem traced_unanswered {s0 s : System α} {l : List Access} (h : Traced x s0 l s) :
    ∀ a ∈ l, a.answered = false → a.extracted = true := by
  induction h with
  | start => intro a ha; cases ha
  | step _ hs ih =>
    intro a ha
    rcases List.mem_append.1 ha with ha | ha
    · exact ih a ha
    · rcases step_caches hs with ⟨hn, -⟩ | ⟨p, hn, -⟩
      · rw [hn] at ha; cases ha
      · rw [hn] at ha; exact accesses_unanswered _ p _ a ha

/-! ### What a call asks does not depend on the caches -/

theorem asked_caches (hts : x.TimeStable) (hnp : x.NoPanic) (t : Nat) :
    ∀ (p : Prog α) (c c' : Caches), c.Sound x → c.Healthy → c'.Sound x → c'.Healthy →
      (p.accesses x t c).map Access.asked = (p.accesses x t c').map Access.asked := by
  intro p
  induction p with
  | ret _ => intros; rfl
  | fail _ => intros; rfl
  | panic => intros; rfl
  | builtinCached s kinds k ih =>
    intro c c' hs hh hs' hh'
    obtain ⟨h1, h2, h3⟩ := builtinAccess_spec hts hs hh t s kinds 0
    obtain ⟨h1', h2', h3'⟩ := builtinAccess_spec hts hs' hh' t s kinds 0
    have h3 := h3 (fun t => hnp.1 t _ _ _)
    have h3' := h3' (fun t => hnp.1 t _ _ _)
    have heq := h1.trans h1'.symm
    simp only [Prog.accesses, List.map_cons, Access.asked]
    generalize x.builtinCachedAccess t s kinds 0 c = oc at h2 h3 heq ⊢
    generalize x.builtinCachedAccess t s kinds 0 c' = oc' at h2' h3' heq ⊢
    obtain ⟨o, d⟩ := oc
    obtain ⟨o', d'⟩ := oc'
    simp only at heq h2 h3 h2' h3' ⊢
    rcases Outcome.map_ok_inv heq with ⟨a, a', rfl, rfl, hf⟩ | ⟨e, rfl, rfl⟩ | ⟨rfl, rfl⟩
    · simp only [Outcome.answered, hf]
      exact congrArg _ (ih _ d d' h2 h3 h2' h3')
    · rfl
    · rfl
  | builtinFresh s kinds n k ih =>
    intro c c' hs hh hs' hh'
    simp only [Prog.accesses]
    cases x.builtinRaw t (x.lower s) kinds n with
    | ok es => exact ih es c c' hs hh hs' hh'
    | err e => rfl
    | panic => rfl
  | custom s kinds n k ih =>
    intro c c' hs hh hs' hh'
    obtain ⟨h1, h2, h3⟩ := customAccess_spec hs hh s kinds n
    obtain ⟨h1', h2', h3'⟩ := customAccess_spec hs' hh' s kinds n
    have h3 := h3 (hnp.2 _ _ _)
    have h3' := h3' (hnp.2 _ _ _)
    have heq := h1.trans h1'.symm
    simp only [Prog.accesses, List.map_cons, Access.asked]
    generalize x.customCachedAccess s kinds n c = oc at h2 h3 heq ⊢
    generalize x.customCachedAccess s kinds n c' = oc' at h2' h3' heq ⊢
    obtain ⟨o, d⟩ := oc
    obtain ⟨o', d'⟩ := oc'
    simp only at heq h2 h3 h2' h3' ⊢
    subst heq
    cases o with
    | ok v => exact congrArg _ (ih _ d d' h2 h3 h2' h3')
    | err e => rfl
    | panic => rfl

/-- What a thread has still to ask. -/
def Thread.toAsk (x : Ext) (t : Nat) (c : Caches) : Thread α → List ((CacheKey Kind ⊕ CacheKey Text) × Bool)
  | .running p => (p.accesses x t c).map Access.asked
  | .inBuiltin s kinds k => ((Prog.builtinCached s kinds k).accesses x t c).map Access.asked
  | .inCustom s kinds n k => ((Prog.custom s kinds n k).accesses x t c).map Access.asked
  | .done _ => []

theorem toAsk_caches (hts : x.TimeStable) (hnp : x.NoPanic) (t : Nat) (th : Thread α) {c c' : Caches} (hs : c.Sound x)
    (hh : c.Healthy) (hs' : c'.Sound x) (hh' : c'.Healthy) : th.toAsk x t c = th.toAsk x t c' := by
  cases th with
  | running p => exact asked_caches hts hnp t _ _ _ hs hh hs' hh'
  | inBuiltin s kinds k => exact asked_caches hts hnp t _ _ _ hs hh hs' hh'
  | inCustom s kinds n k => exact asked_caches hts hnp t _ _ _ hs hh hs' hh'
  | done o => rfl

theorem toAsk_step {t : Nat} {th th' : Thread α} {sh sh' : Shared} (h : ThreadStep x t th sh th' sh') (hh : sh.caches.Healthy) :
    th.toAsk x t sh.caches = (th.nextRequest x t sh.caches).map Access.asked ++ th'.toAsk x t sh'.caches := by
  cases h with
  | ret a => rfl
  | fail e => rfl
  | panic => rfl
  | fresh s kinds n k =>
    simp only [Thread.toAsk, Prog.accesses, Thread.nextRequest, List.map_nil, List.nil_append]
    cases x.builtinRaw t (x.lower s) kinds n <;> rfl
  | lockBuiltin s kinds k _ _ => rfl
  | lockBuiltinPoisoned s kinds k _ _ hp => rw [hh.1] at hp; cases hp
  | lockCustom s kinds n k _ _ => rfl
  | lockCustomPoisoned s kinds n k _ _ hp => rw [hh.2] at hp; cases hp
  | serveBuiltin s kinds k =>
    simp only [Thread.toAsk, Prog.accesses, Thread.nextRequest]
    rcases x.builtinCachedAccess t s kinds 0 sh.caches with ⟨o, c⟩
    cases o <;> rfl
  | serveCustom s kinds n k =>
    simp only [Thread.toAsk, Prog.accesses, Thread.nextRequest]
    rcases x.customCachedAccess s kinds n sh.caches with ⟨o, c⟩
    cases o <;> rfl

theorem traced_asked (hts : x.TimeStable) (hnp : x.NoPanic) (calls : List (Nat × Prog α)) {c : Caches} (hs : c.Sound x)
    (hh : c.Healthy) {s : System α} {l : List Access} (h : Traced x (System.start c calls) l s) :
    (l.map Access.asked ++ s.threads.flatMap fun p => p.2.toAsk x p.1 c).Perm
      (calls.flatMap fun p => (p.2.accesses x p.1 c).map Access.asked) := by
  induction h with
  | start =>
    simp only [System.start, List.map_nil, List.nil_append, List.flatMap_map]
    exact List.Perm.refl _
  | @step served pre post t th th' sh sh' htr hstep ih =>
    have hinv := systemInv_reachable hts hnp calls hs hh (traced_reachable htr)
    obtain ⟨-, hs', hh'⟩ := hstep.residual hts hnp hinv.sound hinv.healthy
    refine List.Perm.trans ?_ ih
    simp only [List.flatMap_append, List.flatMap_cons, List.map_append]
    have he : th.toAsk x t c = (th.nextRequest x t sh.caches).map Access.asked ++ th'.toAsk x t c := by
      rw [toAsk_caches hts hnp t th hs hh hinv.sound hinv.healthy, toAsk_step hstep hinv.healthy,
        toAsk_caches hts hnp t th' hs' hh' hs hh]
    rw [he]
    simp only [List.append_assoc]
    refine List.Perm.append_left _ ?_
    exact List.perm_append_comm_assoc _ _ _

/-! ### Counting -/

/-- With every answered key extracted the first time only, and every unanswered one each time, this is the number of
extractions. -/
theorem count_extracted : ∀ l : List Access, Once [] l → Needed [] l → (∀ a ∈ l, a.answered = false → a.extracted = true) →
    l.countP (·.extracted) = ((l.filter (·.answered)).map Access.key).toFinset.card + l.countP (fun a => !a.answered) := by
  intro l
  induction l using List.reverseRecOn with
  | nil => intros; rfl
  | append_singleton l a ih =>
    intro ho hn hu
    have ho' : Once [] l := by
      have : ∀ (l seen : List Access), Once seen (l ++ [a]) → Once seen l := by
        intro l
        induction l with
        | nil => intros; trivial
        | cons b l ih => exact fun seen h => ⟨h.1, ih _ h.2⟩
      exact this l [] ho
    have hn' : Needed [] l := by
      have : ∀ (l seen : List Access), Needed seen (l ++ [a]) → Needed seen l := by
        intro l
        induction l with
        | nil => intros; trivial
        | cons b l ih => exact fun seen h => ⟨h.1, ih _ h.2⟩
      exact this l [] hn
    have hseen : a.extracted = false ↔ ∃ b ∈ l, b.answered = true ∧ b.key = a.key :=
      ⟨fun h => by simpa using needed_split l hn h, fun h => once_split l ho (by simpa using h)⟩
    have ih := ih ho' hn' fun b hb => hu b (List.mem_append_left _ hb)
    have hmem : a.key ∈ ((l.filter (·.answered)).map Access.key).toFinset ↔ ∃ b ∈ l, b.answered = true ∧ b.key = a.key := by
      simp [List.mem_filter, and_assoc]
    rw [List.countP_append, List.countP_append, List.filter_append, List.map_append, List.toFinset_append, ih]
    cases hans : a.answered with
    | false =>
      have := hu a (by simp) hans
      simp [hans, this]
      omega
    | true =>
      cases hext : a.extracted with
      | false =>
        have := hmem.2 (hseen.1 hext)
        simp only [List.filter_cons, hans, if_true, List.filter_nil, List.map_cons, List.map_nil, List.countP_singleton, hext]
        rw [Finset.union_eq_left.2 (by simpa using this)]
        simp
      | true =>
        have hnew : a.key ∉ ((l.filter (·.answered)).map Access.key).toFinset := fun h => by
          have := hseen.2 (hmem.1 h)
          rw [hext] at this
          cases this
        simp only [List.filter_cons, hans, if_true, List.filter_nil, List.map_cons, List.map_nil, List.countP_singleton, hext]
        rw [Finset.union_comm, show ([a.key] : List _).toFinset = {a.key} from rfl, ← Finset.insert_eq, Finset.card_insert_of_notMem hnew]
        simp
        omega

/-! ### With taggers and an advancing clock -/

variable {libs : Nat → CrfLib}

theorem etraced_reachable {s0 s : ESystem α} {l : List Access} (h : ETraced x libs s0 l s) : EReachable x libs s0 s := by
  induction h with
  | start => exact .refl
  | step _ hs ih => exact .move ih (.step _ _ _ _ _ _ hs)
  | tick d _ ih => exact .tick d ih

theorem ereachable_traced {s0 s : ESystem α} (h : EReachable x libs s0 s) : ∃ l, ETraced x libs s0 l s := by
  induction h with
  | refl => exact ⟨[], .start⟩
  | move _ hs ih =>
    obtain ⟨l, hl⟩ := ih
    cases hs with
    | step pre post th th' sh sh' hth => exact ⟨_, .step hl hth⟩
  | tick d _ ih =>
    obtain ⟨l, hl⟩ := ih
    exact ⟨l, .tick d hl⟩

theorem estep_caches {th th' : Nat × EThread α} {sh sh' : EShared} (h : EThreadStep x libs th sh th' sh') :
    (th.2.nextRequest x sh.now sh.shared.caches = [] ∧ sh'.shared.caches = sh.shared.caches) ∨
      ∃ p : Prog Unit, th.2.nextRequest x sh.now sh.shared.caches = p.accesses x sh.now sh.shared.caches ∧
        sh'.shared.caches = (p.runCached x sh.now sh.shared.caches).2 := by
  cases h with
  | serveBuiltin s kinds k t =>
    refine .inr ⟨_, rfl, ?_⟩
    simp only [Prog.runCached]
    rcases x.builtinCachedAccess sh.now s kinds 0 sh.shared.caches with ⟨o, c⟩
    cases o <;> rfl
  | serveCustom s kinds n k t =>
    refine .inr ⟨_, rfl, ?_⟩
    simp only [Prog.runCached]
    rcases x.customCachedAccess s kinds n sh.shared.caches with ⟨o, c⟩
    cases o <;> rfl
  | _ => exact .inl ⟨rfl, rfl⟩

theorem etraced_once (hnp : x.NoPanic) {cap : Nat} {kb : List (CacheKey Kind)} {kc : List (CacheKey Text)}
    (hb : kb.length ≤ cap) (hc : kc.length ≤ cap) {s0 s : ESystem α} (h0 : CachesWell cap s0.shared.shared.caches) {l : List Access}
    (h : ETraced x libs s0 l s) : AmongKeys l kb kc → Once [] l ∧ CachesRecent cap kb kc l s.shared.shared.caches := by
  induction h with
  | start => exact fun _ => ⟨trivial, h0.recent⟩
  | tick d _ ih => exact ih
  | step _ hs ih =>
    intro hk
    obtain ⟨h1, h2⟩ := ih fun a ha => hk a (List.mem_append_left _ ha)
    rcases estep_caches hs with ⟨hn, hcs⟩ | ⟨p, hn, hcs⟩
    · rw [hn, List.append_nil]
      exact ⟨h1, hcs ▸ h2⟩
    · rw [hn] at hk ⊢
      obtain ⟨h3, h4⟩ := accesses_once hnp hb hc _ p _ _ h2 fun a ha => hk a (List.mem_append_right _ ha)
      exact ⟨once_append _ _ _ h1 (by simpa using h3), hcs ▸ h4⟩

theorem etraced_needed (hnp : x.NoPanic) {s0 s : ESystem α} (h0 : CachesOnly [] s0.shared.shared.caches) {l : List Access}
    (h : ETraced x libs s0 l s) : Needed [] l ∧ CachesOnly l s.shared.shared.caches := by
  induction h with
  | start => exact ⟨trivial, h0⟩
  | tick d _ ih => exact ih
  | step _ hs ih =>
    obtain ⟨h1, h2⟩ := ih
    rcases estep_caches hs with ⟨hn, hcs⟩ | ⟨p, hn, hcs⟩
    · rw [hn, List.append_nil]
      exact ⟨h1, hcs ▸ h2⟩
    · rw [hn]
      obtain ⟨h3, h4⟩ := accesses_needed hnp _ p _ _ h2
      exact ⟨needed_append _ _ _ h1 (by simpa using h3), hcs ▸ h4⟩

theorem etraced_unanswered {s0 s : ESystem α} {l : List Access} (h : ETraced x libs s0 l s) :
    ∀ a ∈ l, a.answered = false → a.extracted = true := by
  induction h with
  | start => intro a ha; cases ha
  | tick d _ ih => exact ih
  | step _ hs ih =>
    intro a ha
    rcases List.mem_append.1 ha with ha | ha
    · exact ih a ha
    · rcases estep_caches hs with ⟨hn, -⟩ | ⟨p, hn, -⟩
      · rw [hn] at ha; cases ha
      · rw [hn] at ha; exact accesses_unanswered _ p _ a ha

end Snips
