import Verif.Proofs.Replace

/-! Lemmas on association lists used as hash maps. -/

namespace Snips

section
variable {κ ν : Type} [DecidableEq κ]

theorem Map.get_nil (k : κ) : Map.get ([] : Map κ ν) k = none := rfl

theorem Map.get_cons (k : κ) (e : κ × ν) (m : Map κ ν) :
    Map.get (e :: m) k = if k = e.1 then some e.2 else Map.get m k := by
  unfold Map.get
  rw [List.lookup_cons]
  by_cases h : k = e.1
  · simp [h]
  · have : (k == e.1) = false := by simpa using h
    rw [this]; simp [h]

theorem Map.get_insert (m : Map κ ν) (k : κ) (v : ν) (k' : κ) :
    Map.get (m.insert k v) k' = if k' = k then some v else Map.get m k' := by
  induction m with
  | nil => simp [Map.insert, Map.get_cons]
  | cons e m ih =>
    obtain ⟨k0, v0⟩ := e
    unfold Map.insert
    by_cases h0 : k0 = k
    · subst h0
      simp only [if_true, Map.get_cons]
      split <;> rfl
    · simp only [h0, if_false, Map.get_cons, ih]
      by_cases h1 : k' = k0
      · have : k' ≠ k := fun h => h0 (h1 ▸ h)
        simp [h1, h0]
      · simp [h1]

theorem Map.keys_insert_mem (m : Map κ ν) (k : κ) (v : ν) (k' : κ) :
    k' ∈ (m.insert k v).keys ↔ k' = k ∨ k' ∈ m.keys := by
  induction m with
  | nil => simp [Map.insert, Map.keys]
  | cons e m ih =>
    obtain ⟨k0, v0⟩ := e
    unfold Map.insert
    by_cases h0 : k0 = k
    · subst h0; simp [Map.keys]
    · simp only [h0, if_false]
      simp only [Map.keys, List.map_cons, List.mem_cons] at ih ⊢
      rw [ih]
      tauto

theorem Map.keys_insert_nodup (m : Map κ ν) (k : κ) (v : ν) (h : m.keys.Nodup) :
    (m.insert k v).keys.Nodup := by
  induction m with
  | nil => simp [Map.insert, Map.keys]
  | cons e m ih =>
    obtain ⟨k0, v0⟩ := e
    simp only [Map.keys, List.map_cons, List.nodup_cons] at h
    unfold Map.insert
    by_cases h0 : k0 = k
    · subst h0
      simp only [if_true, Map.keys, List.map_cons, List.nodup_cons]
      exact h
    · simp only [h0, if_false]
      have h2 := ih h.2
      have h3 := Map.keys_insert_mem m k v k0
      simp only [Map.keys, List.map_cons, List.nodup_cons] at h2 h3 ⊢
      refine ⟨?_, h2⟩
      rw [h3]
      rintro (h4 | h4)
      · exact h0 h4
      · exact h.1 h4

theorem Map.get_some_mem {m : Map κ ν} {k : κ} {v : ν} (h : Map.get m k = some v) : (k, v) ∈ m := by
  induction m with
  | nil => cases h
  | cons e m ih =>
    rw [Map.get_cons] at h
    split at h
    · rename_i hk; injection h with h; subst hk; subst h; exact List.mem_cons_self
    · exact List.mem_cons_of_mem _ (ih h)

theorem Map.get_of_mem {m : Map κ ν} (hn : m.keys.Nodup) {k : κ} {v : ν} (h : (k, v) ∈ m) :
    Map.get m k = some v := by
  induction m with
  | nil => cases h
  | cons e m ih =>
    simp only [Map.keys, List.map_cons, List.nodup_cons] at hn
    rw [Map.get_cons]
    rcases List.mem_cons.1 h with h | h
    · subst h; simp
    · have : k ≠ e.1 := fun hk => hn.1 (hk ▸ List.mem_map.2 ⟨(k, v), h, rfl⟩)
      rw [if_neg this]
      exact ih hn.2 h

theorem Map.get_none_iff {m : Map κ ν} {k : κ} : Map.get m k = none ↔ k ∉ m.keys := by
  induction m with
  | nil => simp [Map.get_nil, Map.keys]
  | cons e m ih =>
    rw [Map.get_cons]
    simp only [Map.keys, List.map_cons, List.mem_cons, not_or] at ih ⊢
    by_cases h : k = e.1
    · simp [h]
    · simp only [h, if_false, not_false_eq_true, true_and]
      exact ih

theorem Map.get_isSome_iff {m : Map κ ν} {k : κ} : (∃ v, Map.get m k = some v) ↔ k ∈ m.keys := by
  constructor
  · rintro ⟨v, hv⟩
    exact List.mem_map.2 ⟨_, Map.get_some_mem hv, rfl⟩
  · intro h
    cases hg : Map.get m k with
    | some v => exact ⟨v, rfl⟩
    | none => exact absurd h (Map.get_none_iff.1 hg)

end

end Snips
