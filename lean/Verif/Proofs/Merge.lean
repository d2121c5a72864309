import Verif.Proofs.Engine
import Verif.Proofs.Sort

/-! Lemmas on the merge of the parsers' rankings. -/

namespace Snips
namespace Engine

/-- `m` merges the results `L`. -/
structure Merges (m : Map (Option Text) IntentResult) (L : List IntentResult) : Prop where
  nodup : m.keys.Nodup
  val : ∀ k v, m.get k = some v → v.name = k ∧ v ∈ L
  top : ∀ k v, m.get k = some v → ∀ r ∈ L, r.name = k → r.score ≤ v.score
  absent : ∀ r ∈ L, m.get r.name = none → r.score ≤ 0
  empty : m = [] → L = []

theorem insert_ne_nil (m : Map (Option Text) IntentResult) (k : Option Text) (v : IntentResult) :
    m.insert k v ≠ [] := by
  cases m with
  | nil => simp [Map.insert]
  | cons e m => unfold Map.insert; split <;> simp

theorem Merges.insert {m : Map (Option Text) IntentResult} {L : List IntentResult} (h : Merges m L)
    (r : IntentResult) (hs : ∀ r' ∈ L, r'.name = r.name → r'.score ≤ r.score) :
    Merges (m.insert r.name r) (L ++ [r]) := by
  refine ⟨Map.keys_insert_nodup _ _ _ h.nodup, ?_, ?_, ?_, fun hh => absurd hh (insert_ne_nil _ _ _)⟩
  · intro k v hv
    rw [Map.get_insert] at hv
    split at hv
    · injection hv with hv; subst hv; rename_i hk; exact ⟨hk.symm, by simp⟩
    · obtain ⟨h1, h2⟩ := h.val k v hv
      exact ⟨h1, by simp [h2]⟩
  · intro k v hv r' hr' hn
    rw [Map.get_insert] at hv
    split at hv
    · injection hv with hv; subst hv; rename_i hk
      rcases List.mem_append.1 hr' with hr' | hr'
      · exact hs r' hr' (by rw [hn, hk])
      · simp only [List.mem_singleton] at hr'; subst hr'; exact le_refl _
    · rename_i hk
      rcases List.mem_append.1 hr' with hr' | hr'
      · exact h.top k v hv r' hr' hn
      · simp only [List.mem_singleton] at hr'; subst hr'; exact absurd hn.symm hk
  · intro r' hr' hg
    rw [Map.get_insert] at hg
    split at hg
    · cases hg
    · rename_i hk
      rcases List.mem_append.1 hr' with hr' | hr'
      · exact h.absent r' hr' hg
      · simp only [List.mem_singleton] at hr'; subst hr'; exact absurd rfl hk

theorem upsertScore_eq {m : Map (Option Text) IntentResult} {r : IntentResult}
    (h : ∀ k v, m.get k = some v → v.name = k) : upsertScore m r = m.insert r.name r := by
  unfold upsertScore
  split
  · rename_i old hold
    have := h _ _ hold
    congr 1
    cases old; cases r; simp_all
  · rfl

/-- The score a result is compared with. -/
def existingScore (m : Map (Option Text) IntentResult) (k : Option Text) : ℚ :=
  match m.get k with
  | some r => r.score
  | none => 0

/-- The loop body for a non-empty map. -/
def mergeStep (m : Map (Option Text) IntentResult) (res : IntentResult) :
    Map (Option Text) IntentResult :=
  if res.score > existingScore m res.name then upsertScore m res else m

theorem Merges.step {m : Map (Option Text) IntentResult} {L : List IntentResult} (h : Merges m L)
    (hne : m ≠ []) (r : IntentResult) : Merges (mergeStep m r) (L ++ [r]) ∧ mergeStep m r ≠ [] := by
  unfold mergeStep
  split
  · rename_i hgt
    unfold existingScore at hgt
    rw [upsertScore_eq (fun k v hv => (h.val k v hv).1)]
    refine ⟨h.insert r ?_, insert_ne_nil _ _ _⟩
    intro r' hr' hn
    cases hg : m.get r.name with
    | some v =>
      simp only [hg] at hgt
      exact le_trans (h.top _ _ hg r' hr' hn) (le_of_lt hgt)
    | none =>
      simp only [hg] at hgt
      exact le_trans (h.absent r' hr' (by rw [hn]; exact hg)) (le_of_lt hgt)
  · rename_i hgt
    unfold existingScore at hgt
    refine ⟨⟨h.nodup, fun k v hv => ⟨(h.val k v hv).1, by simp [(h.val k v hv).2]⟩, ?_, ?_,
      fun hh => absurd hh hne⟩, hne⟩
    · intro k v hv r' hr' hn
      rcases List.mem_append.1 hr' with hr' | hr'
      · exact h.top k v hv r' hr' hn
      · simp only [List.mem_singleton] at hr'; subst hr'
        subst hn
        simp only [hv] at hgt
        exact not_lt.1 hgt
    · intro r' hr' hg
      rcases List.mem_append.1 hr' with hr' | hr'
      · exact h.absent r' hr' hg
      · simp only [List.mem_singleton] at hr'; subst hr'
        simp only [hg] at hgt
        exact not_lt.1 hgt

theorem Merges.steps {L' : List IntentResult} : ∀ {m : Map (Option Text) IntentResult}
    {L : List IntentResult}, Merges m L → m ≠ [] → Merges (L'.foldl mergeStep m) (L ++ L') := by
  induction L' with
  | nil => intro m L h _; simpa using h
  | cons r L' ih =>
    intro m L h hne
    obtain ⟨h1, h2⟩ := h.step hne r
    have := ih h1 h2
    simpa using this

theorem Merges.inserts {L' : List IntentResult} : ∀ {m : Map (Option Text) IntentResult}
    {L : List IntentResult}, Merges m L → ((L ++ L').map IntentResult.name).Nodup →
    Merges (L'.foldl (fun m res => m.insert res.name res) m) (L ++ L') := by
  induction L' with
  | nil => intro m L h _; simpa using h
  | cons r L' ih =>
    intro m L h hn
    have := ih (h.insert r (fun r' hr' hname => by
      exfalso
      simp only [List.map_append, List.map_cons, List.nodup_append, List.mem_map] at hn
      exact hn.2.2 r'.name ⟨r', hr', rfl⟩ r.name (by simp) hname)) (by simpa using hn)
    simpa using this

theorem Merges.merge {m : Map (Option Text) IntentResult} {L rs : List IntentResult} (h : Merges m L)
    (hn : (rs.map IntentResult.name).Nodup) : Merges (mergeIntents m rs) (L ++ rs) := by
  unfold mergeIntents
  cases m with
  | nil =>
    obtain rfl := h.empty rfl
    simpa using h.inserts (L' := rs) (by simpa using hn)
  | cons e m => exact h.steps (by simp)

theorem Merges.nil : Merges [] [] := by
  refine ⟨by simp [Map.keys], ?_, ?_, by simp, by simp⟩ <;> · intro k v hv; cases hv

theorem Merges.all {A : List (List IntentResult)} : ∀ {m : Map (Option Text) IntentResult}
    {L : List IntentResult}, Merges m L → (∀ rs ∈ A, (rs.map IntentResult.name).Nodup) →
    Merges (A.foldl mergeIntents m) (L ++ A.flatten) := by
  induction A with
  | nil => intro m L h _; simpa using h
  | cons rs A ih =>
    intro m L h hA
    have := ih (h.merge (hA rs (by simp))) (fun rs' h' => hA rs' (List.mem_cons_of_mem _ h'))
    simpa using this

/-- Weak invariant, without any hypothesis on the rankings. -/
structure Merges₀ (m : Map (Option Text) IntentResult) (L : List IntentResult) : Prop where
  nodup : m.keys.Nodup
  val : ∀ k v, m.get k = some v → v.name = k ∧ v ∈ L

theorem Merges₀.insert {m : Map (Option Text) IntentResult} {L : List IntentResult} (h : Merges₀ m L)
    (r : IntentResult) : Merges₀ (m.insert r.name r) (L ++ [r]) := by
  refine ⟨Map.keys_insert_nodup _ _ _ h.nodup, ?_⟩
  intro k v hv
  rw [Map.get_insert] at hv
  split at hv
  · injection hv with hv; subst hv; rename_i hk; exact ⟨hk.symm, by simp⟩
  · obtain ⟨h1, h2⟩ := h.val k v hv
    exact ⟨h1, by simp [h2]⟩

theorem Merges₀.merge {m : Map (Option Text) IntentResult} {L rs : List IntentResult} (h : Merges₀ m L) :
    Merges₀ (mergeIntents m rs) (L ++ rs) := by
  unfold mergeIntents
  split
  · clear * - h
    induction rs generalizing m L with
    | nil => simpa using h
    | cons r rs ih => simpa using ih (h.insert r)
  · clear * - h
    change Merges₀ (rs.foldl mergeStep m) _
    induction rs generalizing m L with
    | nil => simpa using h
    | cons r rs ih =>
      have : Merges₀ (mergeStep m r) (L ++ [r]) := by
        unfold mergeStep
        split
        · rw [upsertScore_eq (fun k v hv => (h.val k v hv).1)]
          exact h.insert r
        · exact ⟨h.nodup, fun k v hv => ⟨(h.val k v hv).1, by simp [(h.val k v hv).2]⟩⟩
      simpa using ih this

theorem Merges₀.all {A : List (List IntentResult)} : ∀ {m : Map (Option Text) IntentResult}
    {L : List IntentResult}, Merges₀ m L → Merges₀ (A.foldl mergeIntents m) (L ++ A.flatten) := by
  induction A with
  | nil => intro m L h; simpa using h
  | cons rs A ih => intro m L h; simpa using ih (h.merge (rs := rs))

theorem foldl_keys_mono {f : Map (Option Text) IntentResult → IntentResult → Map (Option Text) IntentResult}
    (hf : ∀ m r k, k ∈ m.keys → k ∈ (f m r).keys) (rs : List IntentResult) :
    ∀ m k, k ∈ m.keys → k ∈ (rs.foldl f m).keys := by
  induction rs with
  | nil => intro m k h; exact h
  | cons r rs ih => intro m k h; exact ih _ _ (hf m r k h)

theorem upsertScore_keys (m : Map (Option Text) IntentResult) (r : IntentResult) (k : Option Text) :
    k ∈ (upsertScore m r).keys ↔ k = r.name ∨ k ∈ m.keys := by
  unfold upsertScore
  split <;> rw [Map.keys_insert_mem]

theorem mergeIntents_keys_mono (m : Map (Option Text) IntentResult) (rs : List IntentResult)
    (k : Option Text) (h : k ∈ m.keys) : k ∈ (mergeIntents m rs).keys := by
  unfold mergeIntents
  split
  · exact foldl_keys_mono (fun m r k hk => (Map.keys_insert_mem _ _ _ _).2 (Or.inr hk)) rs m k h
  · change k ∈ (rs.foldl mergeStep m).keys
    refine foldl_keys_mono (fun m r k hk => ?_) rs m k h
    unfold mergeStep
    split
    · exact (upsertScore_keys _ _ _).2 (Or.inr hk)
    · exact hk

theorem foldl_merge_keys_mono (A : List (List IntentResult)) : ∀ (m : Map (Option Text) IntentResult)
    (k : Option Text), k ∈ m.keys → k ∈ (A.foldl mergeIntents m).keys := by
  induction A with
  | nil => intro m k h; exact h
  | cons rs A ih => intro m k h; exact ih _ _ (mergeIntents_keys_mono _ _ _ h)

theorem inserts_keys (rs : List IntentResult) : ∀ (m : Map (Option Text) IntentResult),
    ∀ r ∈ rs, r.name ∈ (rs.foldl (fun m res => m.insert res.name res) m).keys := by
  induction rs with
  | nil => simp
  | cons r rs ih =>
    intro m r' hr'
    rcases List.mem_cons.1 hr' with rfl | hr'
    · exact foldl_keys_mono (fun m r k hk => (Map.keys_insert_mem _ _ _ _).2 (Or.inr hk)) rs _ _
        ((Map.keys_insert_mem _ _ _ _).2 (Or.inl rfl))
    · exact ih _ r' hr'

/-- The first non-empty ranking is entirely present. -/
theorem first_present (A : List (List IntentResult)) (i : Nat) (rs : List IntentResult)
    (hi : A[i]? = some rs) (hprev : ∀ j < i, A[j]? = some []) (r : IntentResult) (hr : r ∈ rs) :
    r.name ∈ (A.foldl mergeIntents []).keys := by
  induction A generalizing i with
  | nil => simp at hi
  | cons a A ih =>
    cases i with
    | zero =>
      simp only [List.getElem?_cons_zero, Option.some.injEq] at hi
      subst hi
      refine foldl_merge_keys_mono A (mergeIntents [] a) _ ?_
      exact inserts_keys _ _ r hr
    | succ i =>
      have h0 := hprev 0 (by omega)
      simp only [List.getElem?_cons_zero, Option.some.injEq] at h0
      subst h0
      exact ih i (by simpa using hi) (fun j hj => by simpa using hprev (j + 1) (by omega))

theorem collectIntents_run (o : HashOrd) (input : Text) (w : World) : ∀ (ps : List ParserImpl) (i : Nat)
    (m m' : Map (Option Text) IntentResult), (collectIntents o input i ps m).run w = .ok m' →
    ∃ A : List (List IntentResult), m' = A.foldl mergeIntents m ∧ A.length = ps.length ∧
      ∀ (j : Nat) (p : ParserImpl), ps[j]? = some p → ∃ rs, A[j]? = some rs ∧
        (p.getIntents (o.sub (i + j)) input).run w = .ok rs
  | [], i, m, m', h => by
    simp only [collectIntents, Prog.run_ret, Outcome.ok.injEq] at h
    exact ⟨[], h.symm, rfl, by simp⟩
  | p :: ps, i, m, m', h => by
    unfold collectIntents at h
    rw [Prog.run_bind_ok] at h
    obtain ⟨rs, hrs, h⟩ := h
    obtain ⟨A, h1, h2, h3⟩ := collectIntents_run o input w ps (i + 1) _ _ h
    refine ⟨rs :: A, h1, by simp [h2], ?_⟩
    intro j q hq
    cases j with
    | zero =>
      simp only [List.getElem?_cons_zero, Option.some.injEq] at hq
      subst hq
      exact ⟨rs, rfl, hrs⟩
    | succ j =>
      obtain ⟨rs', g1, g2⟩ := h3 j q (by simpa using hq)
      refine ⟨rs', by simpa using g1, ?_⟩
      rw [show i + (j + 1) = i + 1 + j by omega]; exact g2

theorem getIntents_run {e : Engine} {o : HashOrd} {input : Text} {w : World} {out : List IntentResult}
    (h : (e.getIntents o input).run w = .ok out) :
    ∃ A : List (List IntentResult), A.length = e.parsers.length ∧
      (∀ i rs, A[i]? = some rs ↔ e.parserRanking (o.sub 0) w input i = some (.ok rs)) ∧
      out = sortDesc IntentResult.score ((o.order 0 (A.foldl mergeIntents [])).map Prod.snd) := by
  unfold getIntents at h
  rw [Prog.run_bind_ok] at h
  obtain ⟨m, hm, h⟩ := h
  rw [Prog.run_ret, Outcome.ok.injEq] at h
  obtain ⟨A, h1, h2, h3⟩ := collectIntents_run _ _ _ _ _ _ _ hm
  refine ⟨A, h2, ?_, by rw [← h, h1]⟩
  intro i rs
  unfold parserRanking
  cases hp : e.parsers[i]? with
  | none =>
    have : A[i]? = none := by
      rw [List.getElem?_eq_none_iff] at hp ⊢; omega
    simp [this]
  | some p =>
    obtain ⟨rs', g1, g2⟩ := h3 i p hp
    rw [Nat.zero_add] at g2
    simp only [Option.map_some, Option.some.injEq, g1, g2, Outcome.ok.injEq]

end Engine
end Snips
