import Verif.Spec.Extracting
import Verif.Proofs.Cache
import Verif.Proofs.Clock

/-! The most recently used keys stay in the cache. -/

namespace Snips

section
variable {κ ν : Type} [DecidableEq κ]

/-- These keys are the most recently used ones. -/
structure Guarded.Recent (cap : Nat) (recent : List κ) (g : Guarded κ ν) : Prop where
  healthy : g.poisoned = false
  capacity : g.cache.cap = cap
  nodup : (g.cache.entries.map Prod.fst).Nodup
  bound : g.cache.entries.length ≤ cap
  keys : ∃ rest, g.cache.entries.map Prod.fst = recent ++ rest

theorem lookup_isSome_iff {k : κ} {l : List (κ × ν)} : (∃ v, l.lookup k = some v) ↔ k ∈ l.map Prod.fst := by
  induction l with
  | nil => simp
  | cons e l ih =>
    rw [List.lookup_cons]
    by_cases h : k = e.1
    · simp [h]
    · have hb : (k == e.1) = false := by simpa using h
      simp only [hb, List.map_cons, List.mem_cons, h, false_or]
      exact ih

theorem extracts_iff {g : Guarded κ ν} (h : g.poisoned = false) (k : κ) :
    g.extracts k = true ↔ k ∉ g.cache.entries.map Prod.fst := by
  unfold Guarded.extracts Guarded.access Lru.tryCache Lru.getMut
  rw [← lookup_isSome_iff]
  simp only [h]
  cases hl : g.cache.entries.lookup k with
  | some v => simp
  | none => simp

theorem Guarded.Recent.extracts {cap : Nat} {recent : List κ} {g : Guarded κ ν} (h : g.Recent cap recent) {k : κ}
    (hk : k ∈ recent) : g.extracts k = false := by
  rw [Bool.eq_false_iff]
  intro he
  obtain ⟨rest, hr⟩ := h.keys
  exact (extracts_iff h.healthy k).1 he (by rw [hr]; exact List.mem_append_left _ hk)

theorem filter_fst (l : List (κ × ν)) (k : κ) :
    (l.filter (fun e => e.1 ≠ k)).map Prod.fst = (l.map Prod.fst).filter (fun k' => k' ≠ k) := by
  rw [List.filter_map]; rfl

theorem Guarded.Recent.access {cap : Nat} {recent : List κ} {g : Guarded κ ν} (h : g.Recent cap recent) (k : κ)
    (f : κ → Outcome ν) (hf : f k ≠ .panic) :
    (∃ v, (g.access k f).1 = .ok v ∧ ((k :: recent.filter (· ≠ k)).length ≤ cap → (g.access k f).2.Recent cap (k :: recent.filter (· ≠ k)))) ∨
    (∃ e, (g.access k f).1 = .err e ∧ (g.access k f).2 = g) := by
  obtain ⟨rest, hr⟩ := h.keys
  unfold Guarded.access Lru.tryCache Lru.getMut
  simp only [h.healthy, Bool.false_eq_true, if_false]
  have hnd : ((g.cache.entries.filter fun e => e.1 ≠ k).map Prod.fst).Nodup := by
    rw [filter_fst]; exact h.nodup.filter _
  have hnk : k ∉ (g.cache.entries.filter fun e => e.1 ≠ k).map Prod.fst := by
    rw [filter_fst]; simp
  have hkeys : (g.cache.entries.filter fun e => e.1 ≠ k).map Prod.fst = recent.filter (· ≠ k) ++ rest.filter (· ≠ k) := by
    rw [filter_fst, hr, List.filter_append]
  cases hl : g.cache.entries.lookup k with
  | some v =>
    left
    refine ⟨v, rfl, fun hcap => ⟨rfl, h.capacity, ?_, ?_, rest.filter (· ≠ k), ?_⟩⟩
    · simp only [List.map_cons, List.nodup_cons]
      exact ⟨hnk, hnd⟩
    · have hmem : (k, v) ∈ g.cache.entries := lookup_mem hl
      have : (g.cache.entries.filter fun e => e.1 ≠ k).length < g.cache.entries.length :=
        List.length_filter_lt_length_iff_exists.2 ⟨_, hmem, by simp⟩
      have := h.bound
      simp only [List.length_cons]
      omega
    · simp only [List.map_cons, hkeys, List.cons_append]
  | none =>
    simp only
    cases hfk : f k with
    | panic => exact absurd hfk hf
    | err e =>
      right
      refine ⟨e, rfl, ?_⟩
      obtain ⟨cache, poisoned⟩ := g
      have := h.healthy
      simp only at this
      rw [this]
    | ok v =>
      left
      refine ⟨v, rfl, fun hcap => ?_⟩
      simp only [Lru.insert]
      split
      · rename_i hgt
        rw [h.capacity] at hgt
        refine ⟨rfl, h.capacity, ?_, ?_, ?_⟩
        · simp only [List.map_dropLast]
          refine List.Nodup.sublist (List.dropLast_sublist _) ?_
          simp only [List.map_cons, List.nodup_cons]
          exact ⟨hnk, hnd⟩
        · have hle := (List.filter_sublist (p := fun e : κ × ν => decide (e.1 ≠ k)) (l := g.cache.entries)).length_le
          have := h.bound
          simp only [List.length_dropLast, List.length_cons]
          omega
        · have hne : rest.filter (· ≠ k) ≠ [] := by
            intro hnil
            rw [hnil, List.append_nil] at hkeys
            have := congrArg List.length hkeys
            rw [List.length_map] at this
            simp only [List.length_cons] at hgt hcap
            omega
          refine ⟨(rest.filter (· ≠ k)).dropLast, ?_⟩
          simp only [List.map_dropLast, List.map_cons, hkeys]
          rw [← List.cons_append, List.dropLast_append_of_ne_nil hne]
      · rename_i hgt
        rw [h.capacity] at hgt
        refine ⟨rfl, h.capacity, ?_, by simpa using hgt, rest.filter (· ≠ k), ?_⟩
        · simp only [List.map_cons, List.nodup_cons]
          exact ⟨hnk, hnd⟩
        · simp only [List.map_cons, hkeys, List.cons_append]

theorem recent_bound {known recent : List κ} {cap : Nat} (hcap : known.length ≤ cap) (hn : recent.Nodup) (hs : ∀ a ∈ recent, a ∈ known)
    {k : κ} (hk : k ∈ known) : (k :: recent.filter (· ≠ k)).length ≤ cap := by
  refine Nat.le_trans (List.Subperm.length_le (List.subperm_of_subset ?_ ?_)) hcap
  · rw [List.nodup_cons]
    exact ⟨by simp, hn.filter _⟩
  · intro a ha
    rcases List.mem_cons.1 ha with rfl | ha
    · exact hk
    · exact hs a (List.mem_filter.1 ha).1

end

/-- No request is extracted again after having been answered, these having been answered before. -/
def Once : List Access → List Access → Prop
  | _, [] => True
  | seen, a :: l => ((∃ b ∈ seen, b.answered = true ∧ b.key = a.key) → a.extracted = false) ∧ Once (seen ++ [a]) l

theorem once_append : ∀ (l seen l' : List Access), Once seen l → Once (seen ++ l) l' → Once seen (l ++ l')
  | [], seen, l', _, h => by simpa using h
  | a :: l, seen, l', h, h' => ⟨h.1, once_append l _ l' h.2 (by simpa using h')⟩

theorem once_split : ∀ (pre : List Access) {seen post : List Access} {a : Access}, Once seen (pre ++ a :: post) →
    (∃ b ∈ seen ++ pre, b.answered = true ∧ b.key = a.key) → a.extracted = false
  | [], seen, post, a, h, hb => h.1 (by simpa using hb)
  | x :: pre, seen, post, a, h, hb => once_split pre (seen := seen ++ [x]) h.2 (by simpa using hb)

/-- The answered requests are the most recent keys. -/
structure CachesRecent (cap : Nat) (kb : List (CacheKey Kind)) (kc : List (CacheKey Text)) (seen : List Access) (c : Caches) : Prop where
  builtin : ∃ r, c.builtin.Recent cap r ∧ (∀ k ∈ r, k ∈ kb) ∧ ∀ a ∈ seen, a.answered = true → ∀ k, a.key = .inl k → k ∈ r
  custom : ∃ r, c.custom.Recent cap r ∧ (∀ k ∈ r, k ∈ kc) ∧ ∀ a ∈ seen, a.answered = true → ∀ k, a.key = .inr k → k ∈ r

variable {x : Ext} {cap : Nat} {kb : List (CacheKey Kind)} {kc : List (CacheKey Text)}

theorem Guarded.Recent.recent_nodup {κ ν : Type} [DecidableEq κ] {cap : Nat} {recent : List κ} {g : Guarded κ ν}
    (h : g.Recent cap recent) : recent.Nodup := by
  obtain ⟨rest, hr⟩ := h.keys
  have := h.nodup
  rw [hr] at this
  exact (List.nodup_append.1 this).1

theorem accesses_once {α : Type} (hnp : x.NoPanic) (hb : kb.length ≤ cap) (hc : kc.length ≤ cap) (time : Nat) :
    ∀ (p : Prog α) (seen : List Access) (c : Caches), CachesRecent cap kb kc seen c → AmongKeys (p.accesses x time c) kb kc →
      Once seen (p.accesses x time c) ∧ CachesRecent cap kb kc (seen ++ p.accesses x time c) (p.runCached x time c).2 := by
  intro p
  induction p with
  | ret a => intro seen c h _; exact ⟨trivial, by simpa [Prog.accesses, Prog.runCached] using h⟩
  | fail e => intro seen c h _; exact ⟨trivial, by simpa [Prog.accesses, Prog.runCached] using h⟩
  | panic => intro seen c h _; exact ⟨trivial, by simpa [Prog.accesses, Prog.runCached] using h⟩
  | builtinFresh s kinds n k ih =>
    intro seen c h hk
    simp only [Prog.accesses, Prog.runCached] at hk ⊢
    cases hr : x.builtinRaw time (x.lower s) kinds n with
    | ok es => rw [hr] at hk; exact ih es seen c h hk
    | err e => exact ⟨trivial, by simpa using h⟩
    | panic => exact ⟨trivial, by simpa using h⟩
  | builtinCached s kinds k ih =>
    intro seen c h hk
    obtain ⟨⟨r, hr, hsub, hseen⟩, ⟨rc, hrc, hsubc, hseenc⟩⟩ := h
    generalize hkey : (⟨x.lower s, kinds, 0⟩ : CacheKey Kind) = key
    have hacc := hr.access key (fun key => x.builtinRaw time key.input kinds 0) (hnp.1 _ _ _ _)
    have honce : (∃ b ∈ seen, b.answered = true ∧ b.key = .inl key) → c.builtin.extracts key = false := by
      rintro ⟨b, hbm, hba, hbk⟩
      exact hr.extracts (hseen b hbm hba key hbk)
    simp only [Prog.accesses, Prog.runCached, Ext.builtinCachedAccess, hkey] at hk ⊢
    rcases hacc with ⟨v, hv, hrec⟩ | ⟨e, he, hsame⟩
    · simp only [hv] at hk ⊢
      have hin : key ∈ kb := hk _ List.mem_cons_self rfl
      have hrec := hrec (recent_bound hb hr.recent_nodup hsub hin)
      have hnext := ih (v.map BuiltinEntity.kindMatch) (seen ++ [⟨.inl key, c.builtin.extracts key, true⟩])
        { c with builtin := (c.builtin.access key fun key => x.builtinRaw time key.input kinds 0).2 }
        (by
          refine ⟨⟨_, hrec, ?_, ?_⟩, ⟨rc, hrc, hsubc, ?_⟩⟩
          · intro k' hk'
            rcases List.mem_cons.1 hk' with rfl | hk'
            · exact hin
            · exact hsub k' (List.mem_filter.1 hk').1
          · intro a ha haa k' hak
            rcases List.mem_append.1 ha with ha | ha
            · by_cases hkk : k' = key
              · simp [hkk]
              · exact List.mem_cons_of_mem _ (List.mem_filter.2 ⟨hseen a ha haa k' hak, by simpa using hkk⟩)
            · rw [List.mem_singleton] at ha
              subst ha
              simp only [Sum.inl.injEq] at hak
              simp [hak]
          · intro a ha haa k' hak
            rcases List.mem_append.1 ha with ha | ha
            · exact hseenc a ha haa k' hak
            · rw [List.mem_singleton] at ha
              subst ha
              cases hak)
        (fun a ha => hk a (List.mem_cons_of_mem _ ha))
      exact ⟨⟨honce, hnext.1⟩, by simpa [Outcome.answered] using hnext.2⟩
    · simp only [he] at hk ⊢
      refine ⟨⟨honce, trivial⟩, ⟨r, by simpa [hsame] using hr, hsub, ?_⟩, ⟨rc, hrc, hsubc, ?_⟩⟩
      · intro a ha haa k' hak
        rcases List.mem_append.1 ha with ha | ha
        · exact hseen a ha haa k' hak
        · rw [List.mem_singleton] at ha
          subst ha
          cases haa
      · intro a ha haa k' hak
        rcases List.mem_append.1 ha with ha | ha
        · exact hseenc a ha haa k' hak
        · rw [List.mem_singleton] at ha
          subst ha
          cases haa
  | custom s kinds n k ih =>
    intro seen c h hk
    obtain ⟨⟨rc, hrc, hsubc, hseenc⟩, ⟨r, hr, hsub, hseen⟩⟩ := h
    generalize hkey : (⟨x.lower s, kinds, n⟩ : CacheKey Text) = key
    have hacc := hr.access key (fun key => x.customExtract key.input kinds n) (hnp.2 _ _ _)
    have honce : (∃ b ∈ seen, b.answered = true ∧ b.key = .inr key) → c.custom.extracts key = false := by
      rintro ⟨b, hbm, hba, hbk⟩
      exact hr.extracts (hseen b hbm hba key hbk)
    simp only [Prog.accesses, Prog.runCached, Ext.customCachedAccess, hkey] at hk ⊢
    rcases hacc with ⟨v, hv, hrec⟩ | ⟨e, he, hsame⟩
    · simp only [hv] at hk ⊢
      have hin : key ∈ kc := hk _ List.mem_cons_self rfl
      have hrec := hrec (recent_bound hc hr.recent_nodup hsub hin)
      have hnext := ih v (seen ++ [⟨.inr key, c.custom.extracts key, true⟩])
        { c with custom := (c.custom.access key fun key => x.customExtract key.input kinds n).2 }
        (by
          refine ⟨⟨rc, hrc, hsubc, ?_⟩, ⟨_, hrec, ?_, ?_⟩⟩
          · intro a ha haa k' hak
            rcases List.mem_append.1 ha with ha | ha
            · exact hseenc a ha haa k' hak
            · rw [List.mem_singleton] at ha
              subst ha
              cases hak
          · intro k' hk'
            rcases List.mem_cons.1 hk' with rfl | hk'
            · exact hin
            · exact hsub k' (List.mem_filter.1 hk').1
          · intro a ha haa k' hak
            rcases List.mem_append.1 ha with ha | ha
            · by_cases hkk : k' = key
              · simp [hkk]
              · exact List.mem_cons_of_mem _ (List.mem_filter.2 ⟨hseen a ha haa k' hak, by simpa using hkk⟩)
            · rw [List.mem_singleton] at ha
              subst ha
              simp only [Sum.inr.injEq] at hak
              simp [hak])
        (fun a ha => hk a (List.mem_cons_of_mem _ ha))
      exact ⟨⟨honce, hnext.1⟩, by simpa [Outcome.answered] using hnext.2⟩
    · simp only [he] at hk ⊢
      refine ⟨⟨honce, trivial⟩, ⟨rc, hrc, hsubc, ?_⟩, ⟨r, by simpa [hsame] using hr, hsub, ?_⟩⟩
      · intro a ha haa k' hak
        rcases List.mem_append.1 ha with ha | ha
        · exact hseenc a ha haa k' hak
        · rw [List.mem_singleton] at ha
          subst ha
          cases haa
      · intro a ha haa k' hak
        rcases List.mem_append.1 ha with ha | ha
        · exact hseen a ha haa k' hak
        · rw [List.mem_singleton] at ha
          subst ha
          cases haa

/-! ### Calls one after the other -/

theorem historyAccesses_once {α : Type} (hnp : x.NoPanic) (hb : kb.length ≤ cap) (hc : kc.length ≤ cap) :
    ∀ (calls : List (Nat × Prog α)) (seen : List Access) (c : Caches), CachesRecent cap kb kc seen c →
      AmongKeys (historyAccesses x calls c) kb kc → Once seen (historyAccesses x calls c)
  | [], _, _, _, _ => trivial
  | (t, p) :: calls, seen, c, h, hk => by
    simp only [historyAccesses] at hk ⊢
    obtain ⟨h1, h2⟩ := accesses_once hnp hb hc t p seen c h fun a ha => hk a (List.mem_append_left _ ha)
    exact once_append _ _ _ h1 (historyAccesses_once hnp hb hc calls _ _ h2 fun a ha => hk a (List.mem_append_right _ ha))

theorem Guarded.Recent.none {κ ν : Type} [DecidableEq κ] {cap : Nat} {recent : List κ} {g : Guarded κ ν}
    (h : g.Recent cap recent) : g.Recent cap [] :=
  ⟨h.healthy, h.capacity, h.nodup, h.bound, _, rfl⟩

theorem Guarded.Recent.next {κ ν : Type} [DecidableEq κ] {cap : Nat} (hcap : 0 < cap) {g : Guarded κ ν} (h : g.Recent cap []) (k : κ)
    (f : κ → Outcome ν) (hf : f k ≠ .panic) : (g.access k f).2.Recent cap [] := by
  rcases h.access k f hf with ⟨v, -, hrec⟩ | ⟨e, -, hsame⟩
  · exact (hrec (by simp; omega)).none
  · rw [hsame]; exact h

/-- Healthy caches of a capacity. -/
def CachesWell (cap : Nat) (c : Caches) : Prop := c.builtin.Recent cap [] ∧ c.custom.Recent cap []

theorem runCached_well {α : Type} (hnp : x.NoPanic) (hcap : 0 < cap) (time : Nat) :
    ∀ (p : Prog α) (c : Caches), CachesWell cap c → CachesWell cap (p.runCached x time c).2 := by
  intro p
  induction p with
  | ret a => intro c h; exact h
  | fail e => intro c h; exact h
  | panic => intro c h; exact h
  | builtinFresh s kinds n k ih =>
    intro c h
    simp only [Prog.runCached]
    cases hr : x.builtinRaw time (x.lower s) kinds n with
    | ok es => exact ih es c h
    | err e => exact h
    | panic => exact h
  | builtinCached s kinds k ih =>
    intro c h
    simp only [Prog.runCached, Ext.builtinCachedAccess]
    have hn := h.1.next hcap ⟨x.lower s, kinds, 0⟩ (fun key => x.builtinRaw time key.input kinds 0) (hnp.1 _ _ _ _)
    split
    · rename_i es c' he
      obtain ⟨-, rfl⟩ := Prod.mk.inj he
      exact ih _ _ ⟨hn, h.2⟩
    · rename_i he; obtain ⟨-, rfl⟩ := Prod.mk.inj he; exact ⟨hn, h.2⟩
    · rename_i he; obtain ⟨-, rfl⟩ := Prod.mk.inj he; exact ⟨hn, h.2⟩
  | custom s kinds n k ih =>
    intro c h
    simp only [Prog.runCached, Ext.customCachedAccess]
    have hn := h.2.next hcap ⟨x.lower s, kinds, n⟩ (fun key => x.customExtract key.input kinds n) (hnp.2 _ _ _)
    split
    · rename_i es c' he
      obtain ⟨-, rfl⟩ := Prod.mk.inj he
      exact ih _ _ ⟨h.1, hn⟩
    · rename_i he; obtain ⟨-, rfl⟩ := Prod.mk.inj he; exact ⟨h.1, hn⟩
    · rename_i he; obtain ⟨-, rfl⟩ := Prod.mk.inj he; exact ⟨h.1, hn⟩

theorem runHistory_well {α : Type} (hnp : x.NoPanic) (hcap : 0 < cap) : ∀ (calls : List (Nat × Prog α)) (c : Caches),
    CachesWell cap c → CachesWell cap (runHistory x calls c).2
  | [], _, h => h
  | (t, p) :: calls, c, h => runHistory_well hnp hcap calls _ (runCached_well hnp hcap t p c h)

theorem empty_well (cap : Nat) : CachesWell cap (Caches.empty cap) :=
  ⟨⟨rfl, rfl, by simp [Caches.empty], by simp [Caches.empty], _, rfl⟩, ⟨rfl, rfl, by simp [Caches.empty], by simp [Caches.empty], _, rfl⟩⟩

theorem CachesWell.recent {c : Caches} (h : CachesWell cap c) : CachesRecent cap kb kc [] c :=
  ⟨⟨[], h.1, by simp, by simp⟩, ⟨[], h.2, by simp, by simp⟩⟩

/-! ### What has not been answered is extracted -/

/-- Every key of the caches has been answered. -/
structure CachesOnly (seen : List Access) (c : Caches) : Prop where
  healthy : c.Healthy
  builtin : ∀ k ∈ c.builtin.cache.entries.map Prod.fst, ∃ a ∈ seen, a.answered = true ∧ a.key = .inl k
  custom : ∀ k ∈ c.custom.cache.entries.map Prod.fst, ∃ a ∈ seen, a.answered = true ∧ a.key = .inr k

theorem access_keys {κ ν : Type} [DecidableEq κ] {g : Guarded κ ν} (h : g.poisoned = false) (k : κ) (f : κ → Outcome ν)
    (hf : f k ≠ .panic) :
    (g.access k f).2.poisoned = false ∧
      ∀ k' ∈ (g.access k f).2.cache.entries.map Prod.fst,
        k' ∈ g.cache.entries.map Prod.fst ∨ (k' = k ∧ (g.access k f).1.answered = true) := by
  unfold Guarded.access
  simp only [h, Bool.false_eq_true, if_false]
  refine ⟨?_, ?_⟩
  · rcases Lru.tryCache_result g.cache k f with ⟨v, -, hr⟩ | hr
    · rw [hr]
    · rw [hr]; cases hfk : f k with
      | panic => exact absurd hfk hf
      | ok v => rfl
      | err e => rfl
  · intro k' hk'
    obtain ⟨e, he, rfl⟩ := List.mem_map.1 hk'
    rcases Lru.mem_tryCache he with h | ⟨hk, hv⟩
    · exact .inl (List.mem_map_of_mem h)
    · refine .inr ⟨hk, ?_⟩
      rcases Lru.tryCache_result g.cache k f with ⟨v, -, hr⟩ | hr
      · rw [hr]; rfl
      · rw [hr, hv]; rfl

/-- What has not been answered is extracted, these having been answered before. -/
def Needed : List Access → List Access → Prop
  | _, [] => True
  | seen, a :: l => (a.extracted = false → ∃ b ∈ seen, b.answered = true ∧ b.key = a.key) ∧ Needed (seen ++ [a]) l

theorem needed_append : ∀ (l seen l' : List Access), Needed seen l → Needed (seen ++ l) l' → Needed seen (l ++ l')
  | [], seen, l', _, h => by simpa using h
  | a :: l, seen, l', h, h' => ⟨h.1, needed_append l _ l' h.2 (by simpa using h')⟩

theorem needed_split : ∀ (pre : List Access) {seen post : List Access} {a : Access}, Needed seen (pre ++ a :: post) →
    a.extracted = false → ∃ b ∈ seen ++ pre, b.answered = true ∧ b.key = a.key
  | [], seen, post, a, h, hb => by simpa using h.1 hb
  | x :: pre, seen, post, a, h, hb => by simpa using needed_split pre (seen := seen ++ [x]) h.2 hb

theorem accesses_needed {α : Type} (hnp : x.NoPanic) (time : Nat) :
    ∀ (p : Prog α) (seen : List Access) (c : Caches), CachesOnly seen c →
      Needed seen (p.accesses x time c) ∧ CachesOnly (seen ++ p.accesses x time c) (p.runCached x time c).2 := by
  intro p
  induction p with
  | ret a => intro seen c h; exact ⟨trivial, by simpa [Prog.accesses, Prog.runCached] using h⟩
  | fail e => intro seen c h; exact ⟨trivial, by simpa [Prog.accesses, Prog.runCached] using h⟩
  | panic => intro seen c h; exact ⟨trivial, by simpa [Prog.accesses, Prog.runCached] using h⟩
  | builtinFresh s kinds n k ih =>
    intro seen c h
    simp only [Prog.accesses, Prog.runCached]
    cases hr : x.builtinRaw time (x.lower s) kinds n with
    | ok es => exact ih es seen c h
    | err e => exact ⟨trivial, by simpa using h⟩
    | panic => exact ⟨trivial, by simpa using h⟩
  | builtinCached s kinds k ih =>
    intro seen c h
    generalize hkey : (⟨x.lower s, kinds, 0⟩ : CacheKey Kind) = key
    obtain ⟨hpo, hkeys⟩ := access_keys h.healthy.1 key (fun key => x.builtinRaw time key.input kinds 0) (hnp.1 _ _ _ _)
    simp only [Prog.accesses, Prog.runCached, Ext.builtinCachedAccess, hkey]
    generalize hacc : c.builtin.access key (fun key => x.builtinRaw time key.input kinds 0) = oc at hpo hkeys ⊢
    obtain ⟨o, g⟩ := oc
    simp only at hpo hkeys ⊢
    have hneed : c.builtin.extracts key = false → ∃ b ∈ seen, b.answered = true ∧ b.key = .inl key := by
      intro he
      refine h.builtin key ?_
      by_contra hn
      rw [(extracts_iff h.healthy.1 key).2 hn] at he
      cases he
    have hnext : CachesOnly (seen ++ [⟨.inl key, c.builtin.extracts key, o.answered⟩]) { c with builtin := g } := by
      refine ⟨⟨hpo, h.healthy.2⟩, ?_, ?_⟩
      · intro k' hk'
        rcases hkeys k' hk' with hk' | ⟨rfl, ho⟩
        · obtain ⟨a, ha, hb⟩ := h.builtin k' hk'
          exact ⟨a, List.mem_append_left _ ha, hb⟩
        · exact ⟨_, List.mem_append_right _ (List.mem_singleton_self _), ho, rfl⟩
      · intro k' hk'
        obtain ⟨a, ha, hb⟩ := h.custom k' hk'
        exact ⟨a, List.mem_append_left _ ha, hb⟩
    cases o with
    | ok v =>
      have := ih (v.map BuiltinEntity.kindMatch) _ _ hnext
      exact ⟨⟨hneed, this.1⟩, by simpa using this.2⟩
    | err e => exact ⟨⟨hneed, trivial⟩, hnext⟩
    | panic => exact ⟨⟨hneed, trivial⟩, hnext⟩
  | custom s kinds n k ih =>
    intro seen c h
    generalize hkey : (⟨x.lower s, kinds, n⟩ : CacheKey Text) = key
    obtain ⟨hpo, hkeys⟩ := access_keys h.healthy.2 key (fun key => x.customExtract key.input kinds n) (hnp.2 _ _ _)
    simp only [Prog.accesses, Prog.runCached, Ext.customCachedAccess, hkey]
    generalize hacc : c.custom.access key (fun key => x.customExtract key.input kinds n) = oc at hpo hkeys ⊢
    obtain ⟨o, g⟩ := oc
    simp only at hpo hkeys ⊢
    have hneed : c.custom.extracts key = false → ∃ b ∈ seen, b.answered = true ∧ b.key = .inr key := by
      intro he
      refine h.custom key ?_
      by_contra hn
      rw [(extracts_iff h.healthy.2 key).2 hn] at he
      cases he
    have hnext : CachesOnly (seen ++ [⟨.inr key, c.custom.extracts key, o.answered⟩]) { c with custom := g } := by
      refine ⟨⟨h.healthy.1, hpo⟩, ?_, ?_⟩
      · intro k' hk'
        obtain ⟨a, ha, hb⟩ := h.builtin k' hk'
        exact ⟨a, List.mem_append_left _ ha, hb⟩
      · intro k' hk'
        rcases hkeys k' hk' with hk' | ⟨rfl, ho⟩
        · obtain ⟨a, ha, hb⟩ := h.custom k' hk'
          exact ⟨a, List.mem_append_left _ ha, hb⟩
        · exact ⟨_, List.mem_append_right _ (List.mem_singleton_self _), ho, rfl⟩
    cases o with
    | ok v =>
      have := ih v _ _ hnext
      exact ⟨⟨hneed, this.1⟩, by simpa using this.2⟩
    | err e => exact ⟨⟨hneed, trivial⟩, hnext⟩
    | panic => exact ⟨⟨hneed, trivial⟩, hnext⟩

theorem historyAccesses_needed {α : Type} (hnp : x.NoPanic) :
    ∀ (calls : List (Nat × Prog α)) (seen : List Access) (c : Caches), CachesOnly seen c →
      Needed seen (historyAccesses x calls c)
  | [], _, _, _ => trivial
  | (t, p) :: calls, seen, c, h => by
    simp only [historyAccesses]
    obtain ⟨h1, h2⟩ := accesses_needed hnp t p seen c h
    exact needed_append _ _ _ h1 (historyAccesses_needed hnp calls _ _ h2)

theorem empty_only (cap : Nat) : CachesOnly [] (Caches.empty cap) :=
  ⟨Caches.empty_healthy cap, by simp [Caches.empty], by simp [Caches.empty]⟩

/-! ### Codes in step make the same requests -/

/-- A request without whether it was extracted. -/
def Access.request (a : Access) : (CacheKey Kind ⊕ CacheKey Text) × Bool := (a.key, a.answered)

theorem answered_map {α β : Type} (f : α → β) (o : Outcome α) : (o.map f).answered = o.answered := by cases o <;> rfl

theorem inStep_requests {α β : Type} {R : α → β → Prop} (hts : x.TimeStable) (hnp : x.NoPanic) (t t' : Nat) {p : Prog α} {p' : Prog β}
    (h : Prog.InStep R p p') : ∀ c c' : Caches, c.Sound x → c.Healthy → c'.Sound x → c'.Healthy →
      (p.accesses x t c).map Access.request = (p'.accesses x t' c').map Access.request := by
  induction h with
  | ret _ => intros; rfl
  | fail _ => intros; rfl
  | panic => intros; rfl
  | @cached s kinds k k' _ ih =>
    intro c c' hs hh hs' hh'
    obtain ⟨h1, h2, h3⟩ := builtinAccess_spec hts hs hh t s kinds 0
    obtain ⟨h1', h2', h3'⟩ := builtinAccess_spec hts hs' hh' t' s kinds 0
    have h3 := h3 (fun t => hnp.1 t _ _ _)
    have h3' := h3' (fun t => hnp.1 t _ _ _)
    have heq := (h1.trans (hts t t' _ _ _)).trans h1'.symm
    simp only [Prog.accesses, List.map_cons, Access.request]
    generalize x.builtinCachedAccess t s kinds 0 c = oc at h2 h3 heq ⊢
    generalize x.builtinCachedAccess t' s kinds 0 c' = oc' at h2' h3' heq ⊢
    obtain ⟨o, d⟩ := oc
    obtain ⟨o', d'⟩ := oc'
    simp only at heq h2 h3 h2' h3' ⊢
    rcases Outcome.map_ok_inv heq with ⟨a, a', rfl, rfl, hf⟩ | ⟨e, rfl, rfl⟩ | ⟨rfl, rfl⟩
    · simp only [Outcome.answered, hf]
      exact congrArg _ (ih _ d d' h2 h3 h2' h3')
    · rfl
    · rfl
  | @fresh s kinds n k k' _ ih =>
    intro c c' hs hh hs' hh'
    have heq := hts t t' (x.lower s) kinds n
    simp only [Prog.accesses]
    rcases Outcome.map_ok_inv heq with ⟨a, a', ha, ha', hf⟩ | ⟨e, ha, ha'⟩ | ⟨ha, ha'⟩
    · simp only [ha, ha']; exact ih _ _ hf c c' hs hh hs' hh'
    · simp only [ha, ha']
    · simp only [ha, ha']
  | @custom s kinds n k k' _ ih =>
    intro c c' hs hh hs' hh'
    obtain ⟨h1, h2, h3⟩ := customAccess_spec hs hh s kinds n
    obtain ⟨h1', h2', h3'⟩ := customAccess_spec hs' hh' s kinds n
    have h3 := h3 (hnp.2 _ _ _)
    have h3' := h3' (hnp.2 _ _ _)
    have heq := h1.trans h1'.symm
    simp only [Prog.accesses, List.map_cons, Access.request]
    generalize x.customCachedAccess s kinds n c = oc at h2 h3 heq ⊢
    generalize x.customCachedAccess s kinds n c' = oc' at h2' h3' heq ⊢
    obtain ⟨o, d⟩ := oc
    obtain ⟨o', d'⟩ := oc'
    simp only at heq h2 h3 h2' h3' ⊢
    subst heq
    cases o with
    | ok v => exact congrArg _ (ih _ d d' h2 h3 h2' h3')
    | err e => rfl
    | panic => rfl

end Snips
