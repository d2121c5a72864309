import Verif.Spec.Nan
import Verif.Proofs.Prog
import Verif.Proofs.Sort
import Mathlib.Tactic.Linarith
import Mathlib.Tactic.Positivity

namespace Snips

namespace Fl

theorem rnd_nonneg {r : FlRound} {q : ℚ} (h : 0 ≤ q) : 0 ≤ r.rnd q := by
  have := r.mono h
  rwa [r.zero] at this

theorem round_ne_nan (r : FlRound) (q : ℚ) : round r q ≠ nan := by
  unfold round
  split
  · simp
  · split <;> simp

theorem round_nonneg {r : FlRound} {q : ℚ} (h : 0 ≤ q) : round r q = inf false ∨ round r q = fin (r.rnd q) := by
  unfold round
  split
  · exact Or.inl rfl
  · rw [if_neg]
    · exact Or.inr rfl
    · have := rnd_nonneg (r := r) h
      have := r.one_le
      push Not
      linarith

theorem round_inRange {r : FlRound} {q : ℚ} (h1 : -r.top ≤ q) (h2 : q ≤ r.top) : round r q = fin (r.rnd q) := by
  have a := r.mono h1
  have b := r.mono h2
  rw [r.rndBottom] at a
  rw [r.rndTop] at b
  unfold round
  rw [if_neg (by linarith), if_neg (by linarith)]

theorem one_div_fin {r : FlRound} {d : ℚ} (h : 1 ≤ d) :
    div r (fin 1) (fin d) = fin (r.rnd (1 / d)) ∧ 0 ≤ r.rnd (1 / d) ∧ r.rnd (1 / d) ≤ 1 := by
  have h0 : (0 : ℚ) < d := by linarith
  have hp : (0 : ℚ) ≤ 1 / d := by positivity
  have hq : 1 / d ≤ 1 := by rw [div_le_one h0]; exact h
  have ht := r.one_le
  refine ⟨?_, rnd_nonneg hp, ?_⟩
  · show (if d = 0 then _ else round r (1 / d)) = _
    rw [if_neg (by intro h'; rw [h'] at h0; exact lt_irrefl _ h0)]
    exact round_inRange (by linarith) (by linarith)
  · have := r.mono hq
    rwa [r.one] at this

/-- One plus a number that is not negative. -/
theorem one_add_nonneg {r : FlRound} {x : Fl} (hx : x = inf false ∨ ∃ q, 0 ≤ q ∧ x = fin q) :
    add r (fin 1) x = inf false ∨ ∃ d, 1 ≤ d ∧ add r (fin 1) x = fin d := by
  rcases hx with rfl | ⟨q, hq, rfl⟩
  · exact Or.inl rfl
  · have h1 : (1 : ℚ) ≤ r.rnd (1 + q) := by
      have := r.mono (show (1 : ℚ) ≤ 1 + q by linarith)
      rwa [r.one] at this
    rcases round_nonneg (r := r) (q := 1 + q) (by linarith) with h | h
    · exact Or.inl h
    · exact Or.inr ⟨_, h1, h⟩

theorem exp_nonneg {r : FlRound} {e : ℚ → ℚ} (he : ∀ q, 0 ≤ e q) {x : Fl} (hx : x ≠ nan) :
    exp r e x = inf false ∨ ∃ q, 0 ≤ q ∧ exp r e x = fin q := by
  match x, hx with
  | inf true, _ => exact Or.inr ⟨0, le_refl _, rfl⟩
  | inf false, _ => exact Or.inl rfl
  | fin q, _ =>
    rcases round_nonneg (r := r) (he q) with h | h
    · exact Or.inl h
    · exact Or.inr ⟨_, rnd_nonneg (he q), h⟩

theorem neg_ne_nan {x : Fl} (hx : x ≠ nan) : neg x ≠ nan := by
  cases x <;> simp_all [neg]

theorem logit_finite {r : FlRound} {e : ℚ → ℚ} (s : ℚ → ℚ) (dot : List Fl → List Fl → Fl) (he : ∀ q, 0 ≤ e q)
    {x : Fl} (hx : x ≠ nan) : ∃ q, logit (ops r e s dot) x = fin q ∧ 0 ≤ q ∧ q ≤ 1 := by
  show ∃ q, div r (fin 1) (add r (fin 1) (exp r e (neg x))) = fin q ∧ 0 ≤ q ∧ q ≤ 1
  rcases one_add_nonneg (r := r) (exp_nonneg he (neg_ne_nan hx)) with h | ⟨d, hd, h⟩
  · rw [h]
    exact ⟨0, rfl, le_refl _, by norm_num⟩
  · rw [h]
    exact ⟨_, one_div_fin hd⟩

theorem partialCmp_none {x y : Fl} : partialCmp x y = none ↔ x = nan ∨ y = nan := by
  match x, y with
  | nan, _ => simp [partialCmp]
  | inf true, nan => simp [partialCmp]
  | inf false, nan => simp [partialCmp]
  | fin _, nan => simp [partialCmp]
  | inf true, inf true => simp [partialCmp]
  | inf false, inf false => simp [partialCmp]
  | inf true, inf false => simp [partialCmp]
  | inf false, inf true => simp [partialCmp]
  | inf true, fin _ => simp [partialCmp]
  | inf false, fin _ => simp [partialCmp]
  | fin _, inf true => simp [partialCmp]
  | fin _, inf false => simp [partialCmp]
  | fin _, fin _ => simp [partialCmp]

end Fl

open Fl

/-- Insertion into a list of numbers. -/
theorem insertByScore_ok {x : Option Text × Fl} (hx : x.2 ≠ nan) {l : List (Option Text × Fl)}
    (hl : ∀ y ∈ l, y.2 ≠ nan) : ∃ l', insertByScore x l = .ok l' ∧ l'.Perm (x :: l) := by
  induction l with
  | nil => exact ⟨[x], rfl, List.Perm.refl _⟩
  | cons y l ih =>
    obtain ⟨l', h1, h2⟩ := ih fun z hz => hl z (by simp [hz])
    unfold insertByScore
    cases hc : partialCmp y.2 x.2 with
    | none =>
      rcases partialCmp_none.1 hc with h | h
      · exact absurd h (hl y (by simp))
      · exact absurd h hx
    | some c =>
      cases c with
      | gt =>
        simp only [h1]
        exact ⟨_, rfl, (h2.cons y).trans (List.Perm.swap x y l)⟩
      | lt => exact ⟨_, rfl, List.Perm.refl _⟩
      | eq => exact ⟨_, rfl, List.Perm.refl _⟩

/-- Insertion is impossible when the new element, or the first one, is not a number. -/
theorem insertByScore_panic {x y : Option Text × Fl} {l : List (Option Text × Fl)} (h : x.2 = nan ∨ y.2 = nan) :
    insertByScore x (y :: l) = .panic := by
  unfold insertByScore
  rw [partialCmp_none.2 h.symm]

/-- Sorting: exactly which lists make it panic. -/
theorem sortByScore_cases (l : List (Option Text × Fl)) :
    ((2 ≤ l.length ∧ ∃ x ∈ l, x.2 = nan) → sortByScore l = .panic) ∧
    (¬ (2 ≤ l.length ∧ ∃ x ∈ l, x.2 = nan) → ∃ l', sortByScore l = .ok l' ∧ l'.Perm l) := by
  induction l with
  | nil => exact ⟨fun h => absurd h.1 (by simp), fun _ => ⟨[], rfl, List.Perm.refl _⟩⟩
  | cons x l ih =>
    obtain ⟨ih1, ih2⟩ := ih
    unfold sortByScore
    constructor
    · rintro ⟨hlen, z, hz, hn⟩
      by_cases hbad : 2 ≤ l.length ∧ ∃ x ∈ l, x.2 = nan
      · rw [ih1 hbad]
      · obtain ⟨l', h1, h2⟩ := ih2 hbad
        rw [h1]
        simp only
        have hne : l' ≠ [] := by
          intro h
          rw [h] at h2
          have := h2.length_eq
          simp only [List.length_nil, List.length_cons] at this hlen
          omega
        obtain ⟨y, ys, rfl⟩ := List.exists_cons_of_ne_nil hne
        refine insertByScore_panic ?_
        by_cases hx : x.2 = nan
        · exact Or.inl hx
        · right
          rcases List.mem_cons.1 hz with rfl | hz'
          · exact absurd hn hx
          · have hl1 : l.length = 1 := by
              have : ¬ 2 ≤ l.length := fun h => hbad ⟨h, z, hz', hn⟩
              have := h2.length_eq
              simp only [List.length_cons] at this
              omega
            obtain ⟨w, rfl⟩ := List.length_eq_one_iff.1 hl1
            have := List.perm_singleton.1 h2
            cases this
            rw [List.mem_singleton] at hz'
            subst hz'
            exact hn
    · intro hgood
      have hl : ¬ (2 ≤ l.length ∧ ∃ x ∈ l, x.2 = nan) := by
        rintro ⟨h1, z, hz, hn⟩
        exact hgood ⟨by simp only [List.length_cons]; omega, z, by simp [hz], hn⟩
      obtain ⟨l', h1, h2⟩ := ih2 hl
      rw [h1]
      simp only
      cases l with
      | nil =>
        have := List.perm_nil.1 h2
        subst this
        exact ⟨[x], rfl, List.Perm.refl _⟩
      | cons y l =>
        have hnn : ∀ z ∈ x :: y :: l, z.2 ≠ nan := fun z hz hn => hgood ⟨by simp, z, hz, hn⟩
        obtain ⟨l'', h3, h4⟩ := insertByScore_ok (hnn x (by simp))
          (l := l') fun z hz => hnn z (List.mem_cons_of_mem _ (h2.mem_iff.1 hz))
        exact ⟨l'', h3, h4.trans (h2.cons x)⟩

/-- The order of the numbers. -/
def Fl.key : Fl → WithBot (WithTop ℚ)
  | .nan => ⊥
  | .inf true => ⊥
  | .inf false => (⊤ : WithTop ℚ)
  | .fin q => ((q : WithTop ℚ) : WithBot (WithTop ℚ))

theorem partialCmp_lt {x y : Fl} (hx : x ≠ nan) (hy : y ≠ nan) :
    partialCmp x y = some .lt ↔ x.key < y.key := by
  match x, y, hx, hy with
  | inf true, inf true, _, _ => simp [partialCmp, Fl.key]
  | inf false, inf false, _, _ => simp [partialCmp, Fl.key]
  | inf true, inf false, _, _ => simp [partialCmp, Fl.key]
  | inf false, inf true, _, _ => simp [partialCmp, Fl.key]
  | inf true, fin _, _, _ => simp [partialCmp, Fl.key]
  | inf false, fin _, _, _ => simp [partialCmp, Fl.key]
  | fin _, inf true, _, _ => simp [partialCmp, Fl.key]
  | fin q, inf false, _, _ =>
    exact ⟨fun _ => WithBot.coe_lt_coe.2 (WithTop.coe_lt_top q), fun _ => rfl⟩
  | fin a, fin b, _, _ =>
    simp only [partialCmp, Fl.key, Option.some.injEq, WithBot.coe_lt_coe, WithTop.coe_lt_coe]
    split
    · simp_all
    · split <;> simp_all

theorem partialCmp_swap (x y : Fl) : partialCmp y x = (partialCmp x y).map Ordering.swap := by
  match x, y with
  | nan, nan => rfl
  | nan, inf true => rfl
  | nan, inf false => rfl
  | nan, fin _ => rfl
  | inf true, nan => rfl
  | inf false, nan => rfl
  | fin _, nan => rfl
  | inf true, inf true => rfl
  | inf false, inf false => rfl
  | inf true, inf false => rfl
  | inf false, inf true => rfl
  | inf true, fin _ => rfl
  | inf false, fin _ => rfl
  | fin _, inf true => rfl
  | fin _, inf false => rfl
  | fin a, fin b =>
    simp only [partialCmp, Option.map_some, Option.some.injEq]
    rcases lt_trichotomy a b with h | h | h
    · rw [if_neg (not_lt.2 (le_of_lt h)), if_neg (ne_of_gt h), if_pos h]; rfl
    · rw [if_neg (not_lt.2 (le_of_eq h)), if_pos h.symm, if_neg (not_lt.2 (ge_of_eq h)), if_pos h]; rfl
    · rw [if_pos h, if_neg (not_lt.2 (le_of_lt h)), if_neg (ne_of_gt h)]; rfl

theorem insertByScore_sorted {x : Option Text × Fl} (hx : x.2 ≠ nan) {l l' : List (Option Text × Fl)}
    (hl : ∀ y ∈ l, y.2 ≠ nan) (hs : l.Pairwise fun a b => b.2.key ≤ a.2.key) (h : insertByScore x l = .ok l') :
    l'.Pairwise fun a b => b.2.key ≤ a.2.key := by
  induction l generalizing l' with
  | nil => cases h; simp
  | cons y l ih =>
    have hy := hl y (by simp)
    have hl' : ∀ z ∈ l, z.2 ≠ nan := fun z hz => hl z (by simp [hz])
    rw [List.pairwise_cons] at hs
    unfold insertByScore at h
    cases hc : partialCmp y.2 x.2 with
    | none => rw [hc] at h; cases h
    | some c =>
      rw [hc] at h
      have le_of : c ≠ .gt → y.2.key ≤ x.2.key := by
        intro hcg
        by_contra hlt
        have := (partialCmp_lt hx hy).2 (not_le.1 hlt)
        rw [partialCmp_swap, hc] at this
        cases c <;> simp at this hcg
      have key : c ≠ .gt → l' = x :: y :: l → l'.Pairwise fun a b => b.2.key ≤ a.2.key := by
        rintro hcg rfl
        have h1 := le_of hcg
        rw [List.pairwise_cons, List.pairwise_cons]
        refine ⟨?_, hs.1, hs.2⟩
        intro z hz
        rcases List.mem_cons.1 hz with rfl | hz
        · exact h1
        · exact (hs.1 z hz).trans h1
      cases c with
      | gt =>
        obtain ⟨m, hm, hp⟩ := insertByScore_ok hx hl'
        rw [hm] at h
        cases h
        rw [List.pairwise_cons]
        refine ⟨?_, ih hl' hs.2 hm⟩
        intro z hz
        rcases List.mem_cons.1 (hp.mem_iff.1 hz) with rfl | hz
        · by_contra hlt
          have h2 := (partialCmp_lt hy hx).2 (not_le.1 hlt)
          rw [hc] at h2
          cases h2
        · exact hs.1 z hz
      | lt => exact key (by simp) (by cases h; rfl)
      | eq => exact key (by simp) (by cases h; rfl)

theorem sortByScore_sorted {l l' : List (Option Text × Fl)} (h : sortByScore l = .ok l') :
    l'.Pairwise fun a b => b.2.key ≤ a.2.key := by
  induction l generalizing l' with
  | nil => cases h; simp
  | cons x l ih =>
    have hgood : ¬ (2 ≤ (x :: l).length ∧ ∃ z ∈ x :: l, z.2 = nan) := by
      intro hb
      rw [(sortByScore_cases _).1 hb] at h
      cases h
    cases l with
    | nil => cases h; simp
    | cons y l =>
      have hnn : ∀ z ∈ x :: y :: l, z.2 ≠ nan := fun z hz hn => hgood ⟨by simp, z, hz, hn⟩
      obtain ⟨m, hm, hp⟩ := (sortByScore_cases (y :: l)).2 (by
        rintro ⟨_, z, hz, hn⟩
        exact hnn z (List.mem_cons_of_mem _ hz) hn)
      rw [sortByScore, hm] at h
      exact insertByScore_sorted (hnn x (by simp)) (fun z hz => hnn z (List.mem_cons_of_mem _ (hp.mem_iff.1 hz)))
        (ih hm) h

theorem insertByScore_fin (x : IntentResult) (l : List IntentResult) :
    insertByScore (x.name, .fin x.score) (l.map fun r => (r.name, .fin r.score)) =
      .ok ((l.orderedInsert (fun a b => b.score ≤ a.score) x).map fun r => (r.name, .fin r.score)) := by
  induction l with
  | nil => rfl
  | cons y l ih =>
    rw [List.map_cons]
    unfold insertByScore
    simp only [partialCmp, List.orderedInsert]
    by_cases h : y.score ≤ x.score
    · rw [if_pos h]
      rcases lt_or_eq_of_le h with h' | h'
      · rw [if_pos h']; rfl
      · rw [if_neg (not_lt.2 (ge_of_eq h')), if_pos h']; rfl
    · rw [if_neg h, if_neg (not_lt.2 (le_of_lt (not_le.1 h))), if_neg (ne_of_gt (not_le.1 h)), ih]
      rfl

/-- On finite scores the ranking is the one of the rest of the model. -/
theorem sortByScore_fin (l : List IntentResult) :
    sortByScore (l.map fun r => (r.name, .fin r.score)) =
      .ok ((sortDesc IntentResult.score l).map fun r => (r.name, .fin r.score)) := by
  induction l with
  | nil => rfl
  | cons x l ih =>
    rw [List.map_cons]
    unfold sortByScore
    rw [ih]
    simp only
    rw [insertByScore_fin]
    rfl

theorem foldl_add_ne_nan {r : FlRound} {l : List Fl} (hl : AllFinite l) {acc : Fl} (ha : acc ≠ nan) :
    l.foldl (add r) acc ≠ nan := by
  induction l generalizing acc with
  | nil => exact ha
  | cons x l ih =>
    rw [List.foldl_cons]
    refine ih (fun y hy => hl y (by simp [hy])) ?_
    obtain ⟨q, rfl⟩ := hl x (by simp)
    match acc, ha with
    | inf s, _ => simp [add]
    | fin a, _ => exact round_ne_nan r (a + q)

theorem foldl_add_nan (r : FlRound) (l : List Fl) : l.foldl (add r) nan = nan := by
  induction l with
  | nil => rfl
  | cons x l ih => rw [List.foldl_cons]; exact ih

theorem foldl_add_mem_nan {r : FlRound} {l : List Fl} (h : nan ∈ l) (acc : Fl) : l.foldl (add r) acc = nan := by
  induction l generalizing acc with
  | nil => simp at h
  | cons x l ih =>
    rw [List.foldl_cons]
    rcases List.mem_cons.1 h with h | h
    · subst h
      have : add r acc nan = nan := by cases acc <;> rfl
      rw [this]
      exact foldl_add_nan r l
    · exact ih h _

/-- A sum of squares of finite numbers. -/
theorem foldl_squares {r : FlRound} (l : List Fl) (hl : AllFinite l) {acc : Fl}
    (ha : acc = inf false ∨ ∃ q, 0 ≤ q ∧ acc = fin q) :
    l.foldl (fun n v => add r n (mul r v v)) acc = inf false ∨
      ∃ q, 0 ≤ q ∧ l.foldl (fun n v => add r n (mul r v v)) acc = fin q := by
  induction l generalizing acc with
  | nil => exact ha
  | cons x l ih =>
    rw [List.foldl_cons]
    refine ih (fun y hy => hl y (by simp [hy])) ?_
    obtain ⟨v, rfl⟩ := hl x (by simp)
    have hsq : mul r (fin v) (fin v) = inf false ∨ ∃ q, 0 ≤ q ∧ mul r (fin v) (fin v) = fin q := by
      have hv := mul_self_nonneg v
      rcases round_nonneg (r := r) hv with h | h
      · exact Or.inl h
      · exact Or.inr ⟨_, rnd_nonneg hv, h⟩
    rcases ha with rfl | ⟨a, ha, rfl⟩
    · left
      rcases hsq with h | ⟨q, _, h⟩ <;> rw [h] <;> rfl
    · rcases hsq with h | ⟨q, hq, h⟩
      · left; rw [h]; rfl
      · rw [h]
        have : (0 : ℚ) ≤ a + q := by linarith
        rcases round_nonneg (r := r) this with h' | h'
        · exact Or.inl h'
        · exact Or.inr ⟨_, rnd_nonneg this, h'⟩

end Snips
