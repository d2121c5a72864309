import Verif.Spec.Extraction

/-! Lemmas on the caches and on the interpreters of `Prog`. -/

namespace Snips

section lru
variable {κ ν : Type} [DecidableEq κ]

theorem lookup_mem {k : κ} {v : ν} : ∀ {l : List (κ × ν)}, l.lookup k = some v → (k, v) ∈ l
  | [], h => by simp at h
  | (k', v') :: l, h => by
    rw [List.lookup_cons] at h
    by_cases hk : k = k'
    · subst hk; simp at h; simp [h]
    · have : (k == k') = false := by simpa using hk
      rw [this] at h
      exact List.mem_cons_of_mem _ (lookup_mem h)

theorem Lru.mem_getMut {c : Lru κ ν} {k : κ} {e : κ × ν} (h : e ∈ (c.getMut k).2.entries) :
    e ∈ c.entries := by
  unfold Lru.getMut at h
  split at h
  · rename_i v hv
    rcases List.mem_cons.1 h with rfl | h
    · exact lookup_mem hv
    · exact (List.mem_filter.1 h).1
  · exact h

theorem Lru.mem_insert {c : Lru κ ν} {k : κ} {v : ν} {e : κ × ν} (h : e ∈ (c.insert k v).entries) :
    e = (k, v) ∨ e ∈ c.entries := by
  unfold Lru.insert at h
  simp only at h
  have : e ∈ (k, v) :: c.entries.filter (fun e => e.1 ≠ k) := by
    split at h
    · exact List.dropLast_subset _ h
    · exact h
  rcases List.mem_cons.1 this with h | h
  · exact Or.inl h
  · exact Or.inr (List.mem_filter.1 h).1

/-- Entries of a cache only ever come from the producer. -/
theorem Lru.mem_tryCache {c : Lru κ ν} {k : κ} {f : κ → Outcome ν} {e : κ × ν}
    (h : e ∈ (c.tryCache k f).2.entries) : e ∈ c.entries ∨ (e.1 = k ∧ f k = .ok e.2) := by
  unfold Lru.tryCache at h
  split at h
  · rename_i v c' hg
    left
    apply Lru.mem_getMut (k := k)
    rw [hg]; exact h
  · rename_i c' hg
    have hg2 : (c.getMut k).2 = c' := by rw [hg]
    split at h
    · rename_i v hv
      rcases Lru.mem_insert h with rfl | h
      · exact Or.inr ⟨rfl, hv⟩
      · left; apply Lru.mem_getMut (k := k); rw [hg2]; exact h
    · left; apply Lru.mem_getMut (k := k); rw [hg2]; exact h
    · left; apply Lru.mem_getMut (k := k); rw [hg2]; exact h

/-- A served value is a cached one or the producer's. -/
theorem Lru.tryCache_result (c : Lru κ ν) (k : κ) (f : κ → Outcome ν) :
    (∃ v, (k, v) ∈ c.entries ∧ (c.tryCache k f).1 = .ok v) ∨ (c.tryCache k f).1 = f k := by
  unfold Lru.tryCache
  split
  · rename_i v c' hg
    left
    refine ⟨v, ?_, rfl⟩
    unfold Lru.getMut at hg
    split at hg
    · rename_i v' hv
      simp only [Prod.mk.injEq, Option.some.injEq] at hg
      rw [← hg.1]; exact lookup_mem hv
    · simp at hg
  · right
    split <;> simp_all

end lru

/-- All entries of the caches are genuine extraction results. -/
structure Caches.Sound (x : Ext) (c : Caches) : Prop where
  builtin : ∀ e ∈ c.builtin.cache.entries, ∃ t, x.builtinRaw t e.1.input e.1.kinds e.1.maxAlt = .ok e.2
  custom : ∀ e ∈ c.custom.cache.entries, x.customExtract e.1.input e.1.kinds e.1.maxAlt = .ok e.2

/-- Neither mutex is poisoned. -/
def Caches.Healthy (c : Caches) : Prop := c.builtin.poisoned = false ∧ c.custom.poisoned = false

theorem Caches.empty_sound (x : Ext) (cap : Nat) : (Caches.empty cap).Sound x :=
  ⟨by simp [Caches.empty], by simp [Caches.empty]⟩

theorem Caches.empty_healthy (cap : Nat) : (Caches.empty cap).Healthy := ⟨rfl, rfl⟩

theorem builtinAccess_spec {x : Ext} (hts : x.TimeStable) {c : Caches} (hs : c.Sound x)
    (hh : c.Healthy) (t : Nat) (s : Text) (kinds : Option (List Kind)) (n : Nat) :
    (x.builtinCachedAccess t s kinds n c).1.map (List.map BuiltinEntity.kindMatch)
      = (x.builtinRaw t (x.lower s) kinds n).map (List.map BuiltinEntity.kindMatch) ∧
    (x.builtinCachedAccess t s kinds n c).2.Sound x ∧
    ((∀ t, x.builtinRaw t (x.lower s) kinds n ≠ .panic) →
      (x.builtinCachedAccess t s kinds n c).2.Healthy) := by
  unfold Ext.builtinCachedAccess Guarded.access
  simp only [hh.1, Bool.false_eq_true, if_false]
  refine ⟨?_, ⟨?_, ?_⟩, ?_⟩
  · rcases Lru.tryCache_result c.builtin.cache ⟨x.lower s, kinds, n⟩
      (fun key => x.builtinRaw t key.input kinds n) with ⟨v, hv, hr⟩ | hr
    · rw [hr]
      obtain ⟨t', ht'⟩ := hs.builtin _ hv
      rw [hts t t', ht']
    · rw [hr]
  · intro e he
    rcases Lru.mem_tryCache he with h | ⟨hk, hv⟩
    · exact hs.builtin e h
    · refine ⟨t, ?_⟩
      rw [hk]; exact hv
  · exact hs.custom
  · intro hnp
    refine ⟨?_, hh.2⟩
    simp only
    rcases Lru.tryCache_result c.builtin.cache ⟨x.lower s, kinds, n⟩
      (fun key => x.builtinRaw t key.input kinds n) with ⟨v, hv, hr⟩ | hr
    · rw [hr]
    · rw [hr]
      have := hnp t
      simp only

theorem customAccess_spec {x : Ext} {c : Caches} (hs : c.Sound x)
    (hh : c.Healthy) (s : Text) (kinds : Option (List Text)) (n : Nat) :
    (x.customCachedAccess s kinds n c).1 = x.customExtract (x.lower s) kinds n ∧
    (x.customCachedAccess s kinds n c).2.Sound x ∧
    (x.customExtract (x.lower s) kinds n ≠ .panic →
      (x.customCachedAccess s kinds n c).2.Healthy) := by
  unfold Ext.customCachedAccess Guarded.access
  simp only [hh.2, Bool.false_eq_true, if_false]
  have hres : (c.custom.cache.tryCache ⟨x.lower s, kinds, n⟩
      (fun key => x.customExtract key.input kinds n)).1 = x.customExtract (x.lower s) kinds n := by
    rcases Lru.tryCache_result c.custom.cache ⟨x.lower s, kinds, n⟩
      (fun key => x.customExtract key.input kinds n) with ⟨v, hv, hr⟩ | hr
    · rw [hr]; exact (hs.custom _ hv).symm
    · rw [hr]
  refine ⟨hres, ⟨hs.builtin, ?_⟩, ?_⟩
  · intro e he
    rcases Lru.mem_tryCache he with h | ⟨hk, hv⟩
    · exact hs.custom e h
    · rw [hk]; exact hv
  · intro hnp
    refine ⟨hh.1, ?_⟩
    simp only [hres]

theorem Outcome.map_ok_inv {α β : Type} {f : α → β} {o o' : Outcome α} (h : o.map f = o'.map f) :
    (∃ a a', o = .ok a ∧ o' = .ok a' ∧ f a = f a') ∨ (∃ e, o = .err e ∧ o' = .err e) ∨
      (o = .panic ∧ o' = .panic) := by
  cases o <;> cases o' <;> simp_all [Outcome.map]

theorem runCached_spec {α : Type} {x : Ext} (hts : x.TimeStable) (hnp : x.NoPanic) (t : Nat)
    (p : Prog α) : ∀ c : Caches, c.Sound x → c.Healthy →
    (p.runCached x t c).1 = p.run (x.world t) ∧ (p.runCached x t c).2.Sound x ∧
      (p.runCached x t c).2.Healthy := by
  induction p with
  | ret a => intro c hs hh; exact ⟨rfl, hs, hh⟩
  | fail e => intro c hs hh; exact ⟨rfl, hs, hh⟩
  | panic => intro c hs hh; exact ⟨rfl, hs, hh⟩
  | builtinCached s kinds k ih =>
    intro c hs hh
    obtain ⟨h1, h2, h3⟩ := builtinAccess_spec hts hs hh t s kinds 0
    have h3 := h3 (fun t => hnp.1 t _ _ _)
    cases hacc : x.builtinCachedAccess t s kinds 0 c with
    | mk o c' =>
      rw [hacc] at h1 h2 h3
      simp only at h1 h2 h3
      rcases Outcome.map_ok_inv h1 with ⟨a, a', rfl, ha', hf⟩ | ⟨e, rfl, he⟩ | ⟨rfl, he⟩
      · simp only [Prog.runCached, Prog.run, Ext.world, hacc, ha', hf]
        exact ih _ c' h2 h3
      · simp only [Prog.runCached, Prog.run, Ext.world, hacc, he]
        exact ⟨trivial, h2, h3⟩
      · simp only [Prog.runCached, Prog.run, Ext.world, hacc, he]
        exact ⟨trivial, h2, h3⟩
  | builtinFresh s kinds n k ih =>
    intro c hs hh
    simp only [Prog.runCached, Prog.run, Ext.world]
    cases hr : x.builtinRaw t (x.lower s) kinds n with
    | ok es => exact ih es c hs hh
    | err e => exact ⟨rfl, hs, hh⟩
    | panic => exact ⟨rfl, hs, hh⟩
  | custom s kinds n k ih =>
    intro c hs hh
    obtain ⟨h1, h2, h3⟩ := customAccess_spec hs hh s kinds n
    have h3 := h3 (hnp.2 _ _ _)
    cases hacc : x.customCachedAccess s kinds n c with
    | mk o c' =>
      rw [hacc] at h1 h2 h3
      simp only at h1 h2 h3
      simp only [Prog.runCached, Prog.run, Ext.world, hacc, ← h1]
      cases o with
      | ok es => exact ih es c' h2 h3
      | err e => exact ⟨rfl, h2, h3⟩
      | panic => exact ⟨rfl, h2, h3⟩

theorem runHistory_spec {α : Type} {x : Ext} (hts : x.TimeStable) (hnp : x.NoPanic)
    (calls : List (Nat × Prog α)) : ∀ c : Caches, c.Sound x → c.Healthy →
    (runHistory x calls c).1 = calls.map (fun call => call.2.run (x.world call.1)) ∧
      (runHistory x calls c).2.Sound x ∧ (runHistory x calls c).2.Healthy := by
  induction calls with
  | nil => intro c hs hh; exact ⟨rfl, hs, hh⟩
  | cons call calls ih =>
    obtain ⟨t, p⟩ := call
    intro c hs hh
    obtain ⟨h1, h2, h3⟩ := runCached_spec hts hnp t p c hs hh
    obtain ⟨i1, i2, i3⟩ := ih _ h2 h3
    simp only [runHistory, List.map_cons]
    exact ⟨by rw [h1, i1], i2, i3⟩

end Snips
