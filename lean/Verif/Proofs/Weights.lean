import Verif.Model.RuleParser
import Verif.Proofs.Sort
import Mathlib.Algebra.BigOperators.Group.List.Basic
import Mathlib.Algebra.Order.BigOperators.Group.List
import Mathlib.Tactic.Linarith
import Mathlib.Tactic.FieldSimp
import Mathlib.Tactic.Positivity

/-! Lemmas on weights, confidences and the ranking of the rule-based parsers. -/

namespace Snips

section
variable (rd : Rounding)

theorem rnd_nonneg {x : ℚ} (h : 0 ≤ x) : 0 ≤ rd.rnd x := by
  have := rd.mono h
  rwa [rd.zero] at this

theorem rnd_le_one {x : ℚ} (h : x ≤ 1) : rd.rnd x ≤ 1 := by
  have := rd.mono h
  rwa [rd.one] at this

theorem rnd_le_half {x : ℚ} (h : x ≤ 1 / 2) : rd.rnd x ≤ 1 / 2 := by
  have := rd.mono h
  rwa [rd.half] at this

theorem one_le_den (n : Nat) : 1 ≤ rd.rnd (1 + rd.rnd n) := by
  have h : (1 : ℚ) ≤ 1 + rd.rnd n := by
    have := rnd_nonneg rd (x := (n : ℚ)) (by positivity)
    linarith
  have := rd.mono h
  rwa [rd.one] at this

theorem slotWeight_pos (n : Nat) : 0 < slotWeight rd n := by
  unfold slotWeight
  have := one_le_den rd n
  exact rd.pos (by positivity)

theorem slotWeight_rnd (n : Nat) : rd.rnd (slotWeight rd n) = slotWeight rd n := rd.idem _

theorem slotWeight_anti {n m : Nat} (h : n ≤ m) : slotWeight rd m ≤ slotWeight rd n := by
  unfold slotWeight
  apply rd.mono
  have h1 := one_le_den rd n
  apply one_div_le_one_div_of_le (by linarith)
  apply rd.mono
  have : rd.rnd (n : ℚ) ≤ rd.rnd (m : ℚ) := rd.mono (by exact_mod_cast h)
  linarith

/-- The running sum never decreases. -/
theorem foldl_ge (ws : List ℚ) (hw : ∀ w ∈ ws, 0 ≤ w) : ∀ acc : ℚ, rd.rnd acc = acc →
    acc ≤ ws.foldl (fun acc w => rd.rnd (acc + w)) acc := by
  induction ws with
  | nil => intro acc _; exact le_refl _
  | cons w ws ih =>
    intro acc h
    rw [List.foldl_cons]
    have h1 : acc ≤ rd.rnd (acc + w) := by
      have := rd.mono (x := acc) (y := acc + w) (by have := hw w (by simp); linarith)
      rwa [h] at this
    exact le_trans h1 (ih (fun x hx => hw x (by simp [hx])) _ (rd.idem _))

theorem foldl_ge_mem (ws : List ℚ) (hw : ∀ w ∈ ws, 0 ≤ w) (hr : ∀ w ∈ ws, rd.rnd w = w) :
    ∀ acc : ℚ, 0 ≤ acc → rd.rnd acc = acc → ∀ w ∈ ws,
    w ≤ ws.foldl (fun acc w => rd.rnd (acc + w)) acc := by
  induction ws with
  | nil => intro acc _ _ w hw; simp at hw
  | cons a ws ih =>
    intro acc h0 h w hmem
    rw [List.foldl_cons]
    have hacc : 0 ≤ rd.rnd (acc + a) := rnd_nonneg rd (by have := hw a (by simp); linarith)
    rcases List.mem_cons.1 hmem with rfl | hmem
    · have h1 : w ≤ rd.rnd (acc + w) := by
        have := rd.mono (x := w) (y := acc + w) (by linarith)
        rwa [hr w (by simp)] at this
      exact le_trans h1 (foldl_ge rd ws (fun x hx => hw x (by simp [hx])) _ (rd.idem _))
    · exact ih (fun x hx => hw x (by simp [hx])) (fun x hx => hr x (by simp [hx])) _ hacc (rd.idem _) w hmem

/-- If `a` is in the running sum already and `b` is still to come, and both are at least `c`, the total
is at least `2 c`. -/
theorem foldl_ge_double (ws : List ℚ) (hw : ∀ w ∈ ws, 0 ≤ w) {c b : ℚ} (hc : rd.rnd c = c)
    (hb : c ≤ b) (hmem : b ∈ ws) : ∀ acc : ℚ, c ≤ acc → rd.rnd acc = acc →
    2 * c ≤ ws.foldl (fun acc w => rd.rnd (acc + w)) acc := by
  induction ws with
  | nil => simp at hmem
  | cons a ws ih =>
    intro acc h0 h
    rw [List.foldl_cons]
    have hacc : acc ≤ rd.rnd (acc + a) := by
      have := rd.mono (x := acc) (y := acc + a) (by have := hw a (by simp); linarith)
      rwa [h] at this
    by_cases hba : b = a
    · subst hba
      have h1 : 2 * c ≤ rd.rnd (acc + b) := by
        have h2 := rd.mono (x := 2 * rd.rnd c) (y := acc + b) (by rw [hc]; linarith)
        rw [rd.double, hc] at h2
        exact h2
      exact le_trans h1 (foldl_ge rd ws (fun x hx => hw x (by simp [hx])) _ (rd.idem _))
    · have hmem' : b ∈ ws := by
        rcases List.mem_cons.1 hmem with h | h
        · exact absurd h hba
        · exact h
      exact ih (fun x hx => hw x (by simp [hx])) hmem' _ (by linarith) (rd.idem _)

/-- Two weights at different positions, both at least `c`, push the total to at least `2 c`. -/
theorem total_ge_double (ws : List ℚ) (hw : ∀ w ∈ ws, 0 ≤ w) (hr : ∀ w ∈ ws, rd.rnd w = w)
    {c : ℚ} (hc : rd.rnd c = c) {i j : Nat} (hij : i < j) {a b : ℚ} (hi : ws[i]? = some a)
    (hj : ws[j]? = some b) (ha : c ≤ a) (hb : c ≤ b) : ∀ acc : ℚ, 0 ≤ acc → rd.rnd acc = acc →
    2 * c ≤ ws.foldl (fun acc w => rd.rnd (acc + w)) acc := by
  induction ws generalizing i j with
  | nil => simp at hi
  | cons x ws ih =>
    intro acc h0 h
    rw [List.foldl_cons]
    have hx : 0 ≤ x := hw x (by simp)
    have hacc : 0 ≤ rd.rnd (acc + x) := rnd_nonneg rd (by linarith)
    cases i with
    | zero =>
      simp only [List.getElem?_cons_zero, Option.some.injEq] at hi
      subst hi
      obtain ⟨j', rfl⟩ : ∃ j', j = j' + 1 := ⟨j - 1, by omega⟩
      rw [List.getElem?_cons_succ] at hj
      apply foldl_ge_double rd ws (fun y hy => hw y (by simp [hy])) hc hb (List.mem_of_getElem? hj)
      · have h2 := rd.mono (x := x) (y := acc + x) (by linarith)
        rw [hr x (by simp)] at h2
        linarith
      · exact rd.idem _
    | succ i' =>
      obtain ⟨j', rfl⟩ : ∃ j', j = j' + 1 := ⟨j - 1, by omega⟩
      rw [List.getElem?_cons_succ] at hi hj
      exact ih (fun y hy => hw y (by simp [hy])) (fun y hy => hr y (by simp [hy])) (by omega) hi hj _ hacc
        (rd.idem _)

end

theorem totalWeight_exact (ws : List ℚ) : totalWeight Rounding.exact ws = ws.sum := by
  unfold totalWeight
  show ws.foldl (fun acc w => acc + w) 0 = ws.sum
  rw [List.sum_eq_foldl]

theorem slotWeight_exact (n : Nat) : slotWeight Rounding.exact n = 1 / (1 + n) := rfl

/-- The weights of a list of results. -/
def weights (rd : Rounding) (rs : List InternalResult) : List ℚ := rs.map fun r => slotWeight rd r.slots.length

theorem weights_nonneg (rd : Rounding) (rs : List InternalResult) : ∀ w ∈ weights rd rs, 0 ≤ w := by
  intro w hw
  obtain ⟨r, _, rfl⟩ := List.mem_map.1 hw
  exact le_of_lt (slotWeight_pos rd _)

theorem weights_rnd (rd : Rounding) (rs : List InternalResult) : ∀ w ∈ weights rd rs, rd.rnd w = w := by
  intro w hw
  obtain ⟨r, _, rfl⟩ := List.mem_map.1 hw
  exact slotWeight_rnd rd _

/-- The confidence of a result with `k` slots among the results `rs`. -/
def confOf (rd : Rounding) (rs : List InternalResult) (k : Nat) : ℚ :=
  rd.rnd (slotWeight rd k / totalWeight rd (weights rd rs))

/-- A result with its confidence. -/
def withConf (rd : Rounding) (rs : List InternalResult) (r : InternalResult) : InternalResult :=
  { r with intent := { r.intent with score := confOf rd rs r.slots.length } }

theorem rankByWeight_eq (rd : Rounding) (rs : List InternalResult) (n : Nat) :
    rankByWeight rd rs n = (sortDesc (fun r => r.intent.score) (rs.map (withConf rd rs))).take n := rfl

theorem weight_le_total (rd : Rounding) {rs : List InternalResult} {r : InternalResult} (h : r ∈ rs) :
    slotWeight rd r.slots.length ≤ totalWeight rd (weights rd rs) :=
  foldl_ge_mem rd _ (weights_nonneg rd rs) (weights_rnd rd rs) 0 (le_refl _) rd.zero _
    (List.mem_map.2 ⟨r, h, rfl⟩)

theorem conf_pos (rd : Rounding) {rs : List InternalResult} {r : InternalResult} (h : r ∈ rs) :
    0 < confOf rd rs r.slots.length := by
  have h1 := weight_le_total rd h
  have h2 := slotWeight_pos rd r.slots.length
  exact rd.pos (div_pos h2 (by linarith))

theorem conf_le_one (rd : Rounding) {rs : List InternalResult} {r : InternalResult} (h : r ∈ rs) :
    confOf rd rs r.slots.length ≤ 1 := by
  have h1 := weight_le_total rd h
  have h2 := slotWeight_pos rd r.slots.length
  apply rnd_le_one
  rw [div_le_one (by linarith)]
  exact h1

theorem conf_single (rd : Rounding) (r : InternalResult) : confOf rd [r] r.slots.length = 1 := by
  have h : totalWeight rd (weights rd [r]) = slotWeight rd r.slots.length := by
    simp only [weights, List.map_cons, List.map_nil, totalWeight, List.foldl_cons, List.foldl_nil, zero_add]
    exact slotWeight_rnd rd _
  unfold confOf
  rw [h, div_self (ne_of_gt (slotWeight_pos rd _)), rd.one]

/-- A result with a competitor (at another position) that has at least its weight has a confidence of at most one
half. -/
theorem conf_le_half_of_weight (rd : Rounding) {rs : List InternalResult} {i j : Nat} {r c : InternalResult}
    (hij : i ≠ j) (hi : rs[i]? = some r) (hj : rs[j]? = some c)
    (hle : slotWeight rd r.slots.length ≤ slotWeight rd c.slots.length) :
    confOf rd rs r.slots.length ≤ 1 / 2 := by
  have hwi : (weights rd rs)[i]? = some (slotWeight rd r.slots.length) := by simp [weights, hi]
  have hwj : (weights rd rs)[j]? = some (slotWeight rd c.slots.length) := by simp [weights, hj]
  have hpos := slotWeight_pos rd r.slots.length
  have h2 : 2 * slotWeight rd r.slots.length ≤ totalWeight rd (weights rd rs) := by
    unfold totalWeight
    rcases Nat.lt_or_gt_of_ne hij with h | h
    · exact total_ge_double rd _ (weights_nonneg rd rs) (weights_rnd rd rs) (slotWeight_rnd rd _) h hwi hwj
        (le_refl _) hle 0 (le_refl _) rd.zero
    · exact total_ge_double rd _ (weights_nonneg rd rs) (weights_rnd rd rs) (slotWeight_rnd rd _) h hwj hwi
        hle (le_refl _) 0 (le_refl _) rd.zero
  apply rnd_le_half
  rw [div_le_iff₀ (by linarith)]
  linarith

/-- A result with a competitor (at another position) that has at most as many slots has a confidence of
at most one half. -/
theorem conf_le_half (rd : Rounding) {rs : List InternalResult} {i j : Nat} {r c : InternalResult}
    (hij : i ≠ j) (hi : rs[i]? = some r) (hj : rs[j]? = some c) (hk : c.slots.length ≤ r.slots.length) :
    confOf rd rs r.slots.length ≤ 1 / 2 :=
  conf_le_half_of_weight rd hij hi hj (slotWeight_anti rd hk)

theorem weights_perm (rd : Rounding) {rs rs' : List InternalResult} (h : rs.Perm rs') :
    (weights rd rs).Perm (weights rd rs') := h.map _

/-- In exact arithmetic the confidence does not depend on the order of the results. -/
theorem conf_perm {rs rs' : List InternalResult} (h : rs.Perm rs') (k : Nat) :
    confOf Rounding.exact rs k = confOf Rounding.exact rs' k := by
  unfold confOf
  rw [totalWeight_exact, totalWeight_exact, (weights_perm _ h).sum_eq]

/-- In exact arithmetic a result wins against the others exactly when its weight exceeds their total. -/
theorem conf_exact_iff {rs : List InternalResult} {r : InternalResult} (h : r ∈ rs) :
    1 / 2 < confOf Rounding.exact rs r.slots.length ↔
      ((rs.erase r).map fun c => (1 : ℚ) / (1 + c.slots.length)).sum < 1 / (1 + r.slots.length) := by
  have hp := List.perm_cons_erase h
  have hs : totalWeight Rounding.exact (weights Rounding.exact rs)
      = 1 / (1 + r.slots.length) + ((rs.erase r).map fun c => (1 : ℚ) / (1 + c.slots.length)).sum := by
    rw [totalWeight_exact, (weights_perm _ hp).sum_eq]
    simp [weights, slotWeight_exact]
  unfold confOf
  rw [hs, slotWeight_exact]
  show 1 / 2 < _ / _ ↔ _
  have h1 : (0 : ℚ) < 1 / (1 + r.slots.length) := by positivity
  have h2 : (0 : ℚ) ≤ ((rs.erase r).map fun c => (1 : ℚ) / (1 + c.slots.length)).sum := by
    apply List.sum_nonneg
    intro x hx
    obtain ⟨c, _, rfl⟩ := List.mem_map.1 hx
    positivity
  rw [lt_div_iff₀ (by linarith)]
  constructor <;> intro h <;> linarith

/-- What the decision returns. -/
theorem pick_cases (rd : Rounding) (rs : List InternalResult) :
    pickUnambiguous (rankByWeight rd rs 1) = noIntent ∧ (∀ r ∈ rs, confOf rd rs r.slots.length ≤ 1 / 2) ∨
    ∃ r ∈ rs, pickUnambiguous (rankByWeight rd rs 1) = withConf rd rs r ∧
      1 / 2 < confOf rd rs r.slots.length := by
  rw [rankByWeight_eq]
  have hperm := sortDesc_perm (fun r : InternalResult => r.intent.score) (rs.map (withConf rd rs))
  have hsorted := sortDesc_pairwise (fun r : InternalResult => r.intent.score) (rs.map (withConf rd rs))
  cases hl : sortDesc (fun r : InternalResult => r.intent.score) (rs.map (withConf rd rs)) with
  | nil =>
    rw [hl] at hperm
    have : rs = [] := by simpa using hperm.nil_eq.symm
    subst this
    exact Or.inl ⟨rfl, by simp⟩
  | cons x l =>
    rw [hl] at hperm hsorted
    obtain ⟨r, hr, hrx⟩ := List.mem_map.1 (hperm.mem_iff.1 (List.mem_cons_self (a := x) (l := l)))
    have hx : x.intent.score = confOf rd rs r.slots.length := by rw [← hrx]; rfl
    simp only [List.take_succ_cons, List.take_zero, pickUnambiguous]
    by_cases hs : x.intent.score ≤ 1 / 2
    · rw [if_pos hs]
      refine Or.inl ⟨rfl, ?_⟩
      intro c hc
      have hmem : withConf rd rs c ∈ x :: l := hperm.mem_iff.2 (List.mem_map.2 ⟨c, hc, rfl⟩)
      rcases List.mem_cons.1 hmem with h | h
      · have : confOf rd rs c.slots.length = x.intent.score := by rw [← h]; rfl
        rw [this]; exact hs
      · have := (List.pairwise_cons.1 hsorted).1 _ h
        have h2 : (withConf rd rs c).intent.score = confOf rd rs c.slots.length := rfl
        rw [h2] at this
        exact le_trans this hs
    · rw [if_neg hs]
      exact Or.inr ⟨r, hr, hrx.symm, by rw [← hx]; exact lt_of_not_ge hs⟩

end Snips
