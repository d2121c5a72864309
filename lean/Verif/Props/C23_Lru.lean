import Verif.Proofs.Cache

/-! # C23: the entity cache is bounded, recency-ordered and never stores failures -/

namespace Snips

section
variable {κ ν : Type} [DecidableEq κ]

/-- The distinct elements of a list, by first occurrence. -/
def firstOccs : List κ → List κ
  | [] => []
  | k :: l => k :: (firstOccs l).filter (fun k' => k' ≠ k)

/-- A history of requests: a key, and the outcome its producer has if it is called. -/
abbrev Requests (κ ν : Type) := List (κ × Outcome ν)

/-- Serving a history of requests: the outcomes and the final cache. -/
def serve (c : Lru κ ν) : Requests κ ν → List (Outcome ν) × Lru κ ν
  | [] => ([], c)
  | (k, o) :: reqs =>
    let r := c.tryCache k (fun _ => o)
    let rest := serve r.2 reqs
    (r.1 :: rest.1, rest.2)

/-- The keys of the requests that were answered with a value, oldest first. -/
def servedKeys (reqs : Requests κ ν) (answers : List (Outcome ν)) : List κ :=
  (reqs.zip answers).filterMap fun p => match p.2 with
    | .ok _ => some p.1.1
    | _ => none

theorem firstOccs_mem {l : List κ} {k : κ} : k ∈ firstOccs l ↔ k ∈ l := by
  induction l with
  | nil => simp [firstOccs]
  | cons a l ih =>
    simp only [firstOccs, List.mem_cons, List.mem_filter, ih]
    by_cases h : k = a <;> simp [h]

theorem firstOccs_nodup (l : List κ) : (firstOccs l).Nodup := by
  induction l with
  | nil => simp [firstOccs]
  | cons a l ih =>
    simp only [firstOccs, List.nodup_cons, List.mem_filter]
    exact ⟨by simp, ih.filter _⟩

theorem take_filter_of_notMem {k : κ} : ∀ (n : Nat) (l : List κ), k ∉ l.take n →
    (l.filter (fun k' => k' ≠ k)).take n = l.take n
  | 0, _, _ => by simp
  | _ + 1, [], _ => by simp
  | n + 1, a :: l, h => by
    simp only [List.take_succ_cons, List.mem_cons, not_or] at h
    have ha : a ≠ k := fun e => h.1 e.symm
    rw [List.filter_cons_of_pos (by simpa using ha), List.take_succ_cons, List.take_succ_cons,
      take_filter_of_notMem n l h.2]

theorem filter_take_of_mem {k : κ} : ∀ (n : Nat) (l : List κ), l.Nodup → k ∈ l.take (n + 1) →
    (l.take (n + 1)).filter (fun k' => k' ≠ k) = (l.filter (fun k' => k' ≠ k)).take n
  | _, [], _, h => by simp at h
  | n, a :: l, hn, h => by
    rw [List.nodup_cons] at hn
    by_cases ha : a = k
    · subst ha
      rw [List.take_succ_cons, List.filter_cons_of_neg (by simp), List.filter_cons_of_neg (by simp)]
      have h1 : (l.take n).filter (fun k' => k' ≠ a) = l.take n :=
        List.filter_eq_self.2 (fun b hb => by
          have : b ≠ a := fun e => hn.1 (e ▸ List.mem_of_mem_take hb)
          simpa using this)
      have h2 : l.filter (fun k' => k' ≠ a) = l :=
        List.filter_eq_self.2 (fun b hb => by
          have : b ≠ a := fun e => hn.1 (e ▸ hb)
          simpa using this)
      rw [h1, h2]
    · have hk : k ∈ l.take n := by
        simp only [List.take_succ_cons, List.mem_cons] at h
        rcases h with h | h
        · exact absurd h.symm ha
        · exact h
      rw [List.take_succ_cons, List.filter_cons_of_pos (by simpa using ha),
        List.filter_cons_of_pos (by simpa using ha)]
      cases n with
      | zero => simp at hk
      | succ n => rw [List.take_succ_cons, filter_take_of_mem n l hn.2 hk]

theorem lookup_none_iff {k : κ} {l : List (κ × ν)} : l.lookup k = none ↔ k ∉ l.map Prod.fst := by
  induction l with
  | nil => simp
  | cons e l ih =>
    rw [List.lookup_cons]
    by_cases h : k = e.1
    · subst h; simp
    · have : (k == e.1) = false := by simpa using h
      rw [this]
      simp only [List.map_cons, List.mem_cons, not_or]
      rw [ih]
      exact ⟨fun h' => ⟨h, h'⟩, fun h' => h'.2⟩

theorem map_filter_fst (l : List (κ × ν)) (k : κ) :
    (l.filter (fun e => e.1 ≠ k)).map Prod.fst = (l.map Prod.fst).filter (fun k' => k' ≠ k) := by
  rw [List.filter_map]; rfl

theorem tryCache_keys (c : Lru κ ν) (F : List κ) (hF : F.Nodup)
    (hkeys : c.entries.map Prod.fst = F.take c.cap) (k : κ) (f : κ → Outcome ν) :
    (c.tryCache k f).2.cap = c.cap ∧
    (c.tryCache k f).2.entries.map Prod.fst =
      (match (c.tryCache k f).1 with
        | .ok _ => k :: F.filter (fun k' => k' ≠ k)
        | _ => F).take c.cap := by
  unfold Lru.tryCache Lru.getMut
  cases hl : c.entries.lookup k with
  | some v =>
    simp only [true_and]
    have hk : k ∈ F.take c.cap := by
      rw [← hkeys]; exact List.mem_map.2 ⟨(k, v), lookup_mem hl, rfl⟩
    rw [List.map_cons, map_filter_fst, hkeys]
    cases hc : c.cap with
    | zero => rw [hc] at hk; simp at hk
    | succ n =>
      rw [hc] at hk
      rw [filter_take_of_mem n F hF hk, List.take_succ_cons]
  | none =>
    have hk : k ∉ F.take c.cap := by rw [← hkeys]; exact lookup_none_iff.1 hl
    simp only
    cases hf : f k with
    | err e => exact ⟨rfl, hkeys⟩
    | panic => exact ⟨rfl, hkeys⟩
    | ok v =>
      simp only [Lru.insert, true_and]
      have hfilt : c.entries.filter (fun e => e.1 ≠ k) = c.entries :=
        List.filter_eq_self.2 (fun e he => by
          have : e.1 ≠ k := by
            intro h
            apply hk
            rw [← hkeys, ← h]
            exact List.mem_map.2 ⟨e, he, rfl⟩
          simpa using this)
      rw [hfilt]
      have hlen : c.entries.length = min c.cap F.length := by
        rw [← List.length_map (f := Prod.fst), hkeys, List.length_take]
      cases hc : c.cap with
      | zero =>
        have : c.entries = [] := by
          apply List.eq_nil_of_length_eq_zero; rw [hlen, hc]; simp
        simp [this]
      | succ n =>
        rw [hc] at hkeys hlen hk
        rw [List.take_succ_cons]
        have hkn : k ∉ F.take n := fun h => hk (by
          rw [← List.take_append_drop n (F.take (n + 1))]
          exact List.mem_append_left _ (by rw [List.take_take, Nat.min_eq_left (Nat.le_succ n)]; exact h))
        rw [take_filter_of_notMem n F hkn]
        split
        · rename_i hgt
          have hge : n + 1 ≤ F.length := by simp only [List.length_cons] at hgt; omega
          have hne : c.entries ≠ [] := by
            intro h; rw [h] at hlen; simp only [List.length_nil] at hlen; omega
          rw [List.dropLast_cons_of_ne_nil hne, List.map_cons, List.map_dropLast, hkeys,
            List.dropLast_eq_take, List.length_take, List.take_take]
          have : min (min (n + 1) F.length - 1) (n + 1) = n := by omega
          rw [this]
        · rename_i hgt
          have hle : F.length ≤ n := by simp only [List.length_cons] at hgt; omega
          rw [List.map_cons, hkeys, List.take_of_length_le (by omega), List.take_of_length_le hle]

theorem serve_keys (reqs : Requests κ ν) : ∀ (c : Lru κ ν) (past : List κ),
    c.entries.map Prod.fst = (firstOccs past.reverse).take c.cap →
    (serve c reqs).2.cap = c.cap ∧
    (serve c reqs).2.entries.map Prod.fst
      = (firstOccs (past ++ servedKeys reqs (serve c reqs).1).reverse).take c.cap := by
  induction reqs with
  | nil => intro c past h; simpa [serve, servedKeys] using h
  | cons req reqs ih =>
    obtain ⟨k, o⟩ := req
    intro c past h
    obtain ⟨h1, h2⟩ := tryCache_keys c _ (firstOccs_nodup _) h k (fun _ => o)
    simp only [serve, servedKeys, List.zip_cons_cons]
    cases hr : (c.tryCache k (fun _ => o)).1 with
    | ok v =>
      rw [hr] at h2
      simp only at h2
      obtain ⟨i1, i2⟩ := ih (c.tryCache k (fun _ => o)).2 (past ++ [k]) (by
        rw [h1, h2, List.reverse_append]; rfl)
      refine ⟨by rw [i1, h1], ?_⟩
      rw [i2, h1]
      simp [servedKeys]
    | err e =>
      rw [hr] at h2
      simp only at h2
      obtain ⟨i1, i2⟩ := ih (c.tryCache k (fun _ => o)).2 past (by rw [h1, h2])
      refine ⟨by rw [i1, h1], ?_⟩
      rw [i2, h1]
      simp [servedKeys]
    | panic =>
      rw [hr] at h2
      simp only at h2
      obtain ⟨i1, i2⟩ := ih (c.tryCache k (fun _ => o)).2 past (by rw [h1, h2])
      refine ⟨by rw [i1, h1], ?_⟩
      rw [i2, h1]
      simp [servedKeys]

/-- After any history of requests on a new cache of capacity `cap`, the cached keys are exactly the `cap`
most recently served distinct keys (all of them if there are fewer), most recent first. -/
theorem c23_recency (cap : Nat) (reqs : Requests κ ν) :
    (serve ⟨cap, []⟩ reqs).2.entries.map Prod.fst
      = (firstOccs (servedKeys reqs (serve ⟨cap, []⟩ reqs).1).reverse).take cap := by
  have := serve_keys reqs (⟨cap, []⟩ : Lru κ ν) [] (by simp [firstOccs])
  simpa using this.2

/-- The number of cached entries never exceeds the capacity. -/
theorem c23_bounded (cap : Nat) (reqs : Requests κ ν) :
    (serve ⟨cap, []⟩ reqs).2.entries.length ≤ cap := by
  rw [← List.length_map (f := Prod.fst), c23_recency, List.length_take]
  exact Nat.min_le_left _ _

/-- A failing extraction leaves the cache exactly as it was, and the next request for the same key
calls its producer again. -/
theorem c23_failure_not_cached (c : Lru κ ν) (k : κ) (f : κ → Outcome ν)
    (h : ∀ v, (c.tryCache k f).1 ≠ .ok v) :
    (c.tryCache k f).2 = c ∧ ∀ f' : κ → Outcome ν, ((c.tryCache k f).2.tryCache k f').1 = f' k := by
  unfold Lru.tryCache Lru.getMut at *
  cases hl : c.entries.lookup k with
  | some v => rw [hl] at h; exact absurd rfl (h v)
  | none =>
    rw [hl] at h
    simp only at h
    cases hf : f k with
    | ok v => rw [hf] at h; exact absurd rfl (h v)
    | err e =>
      refine ⟨rfl, ?_⟩
      intro f'
      simp only [hl]
      cases hf' : f' k <;> rfl
    | panic =>
      refine ⟨rfl, ?_⟩
      intro f'
      simp only [hl]
      cases hf' : f' k <;> rfl

/-- A successful extraction is remembered (for a positive capacity): the next request for the same key
gets the same value without calling its producer. -/
theorem c23_success_cached (c : Lru κ ν) (hcap : 0 < c.cap) (k : κ) (f : κ → Outcome ν) (v : ν)
    (h : (c.tryCache k f).1 = .ok v) (f' : κ → Outcome ν) :
    ((c.tryCache k f).2.tryCache k f').1 = .ok v := by
  have key : (c.tryCache k f).2.entries.lookup k = some v := by
    unfold Lru.tryCache Lru.getMut at *
    cases hl : c.entries.lookup k with
    | some v' => rw [hl] at h; simp only at h ⊢; injection h with h; subst h; simp
    | none =>
      rw [hl] at h
      simp only at h ⊢
      cases hf : f k with
      | ok v' =>
        rw [hf] at h; simp only at h ⊢; injection h with h; subst h
        unfold Lru.insert
        simp only
        split
        · rename_i hgt
          have hne : c.entries.filter (fun e => e.1 ≠ k) ≠ [] := by
            intro he; rw [he] at hgt; simp only [List.length_cons, List.length_nil] at hgt; omega
          rw [List.dropLast_cons_of_ne_nil hne]
          simp
        · simp
      | err e => rw [hf] at h; cases h
      | panic => rw [hf] at h; cases h
  generalize (c.tryCache k f).2 = c' at *
  unfold Lru.tryCache Lru.getMut
  rw [key]

end

/-! Non-vacuity: capacity 2; key 1 is used again before 3 arrives, so 2 is evicted; 9 fails. -/

example : (serve (⟨2, []⟩ : Lru Nat Nat) [(1, .ok 10), (2, .ok 20), (9, .err (.site 0)), (1, .ok 11), (3, .ok 30)]).2.entries
    = [(3, 30), (1, 10)] := by decide

example : ∃ (c : Lru Nat Nat) (f : Nat → Outcome Nat), ∀ v, (c.tryCache 7 f).1 ≠ .ok v :=
  ⟨⟨2, [(1, 10)]⟩, fun _ => .err (.site 0), by intro v h; cases h⟩

example : ∃ (c : Lru Nat Nat) (v : Nat), 0 < c.cap ∧ (c.tryCache 7 (fun _ => .ok 3)).1 = .ok v :=
  ⟨⟨1, [(1, 10)]⟩, 3, by decide, by decide⟩

end Snips
