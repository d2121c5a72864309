import Mathlib.Analysis.SpecialFunctions.Sigmoid
import Mathlib.Analysis.Complex.ExponentialBounds
import Verif.Spec.SinglePrecision
import Verif.Proofs.Tfidf
import Verif.Proofs.Shares
import Verif.Props.C41_Tfidf

/-! Rounding errors of the classifier. -/

namespace Snips

/-- The unit of the error analysis. -/
noncomputable def unit24 : ℝ := 1 + 1 / 2 ^ 23

theorem unit24_gt : 1 < unit24 := by unfold unit24; norm_num

theorem unit24_ge : 1 ≤ unit24 := unit24_gt.le

theorem unit24_pos : 0 < unit24 := by linarith [unit24_gt]

theorem pow24_ge (k : Nat) : 1 ≤ unit24 ^ k := one_le_pow₀ unit24_ge

theorem pow24_pos (k : Nat) : 0 < unit24 ^ k := pow_pos unit24_pos k

/-- `x` is `y` times a factor between `unit24 ^ (-k)` and `unit24 ^ k`. -/
def Scaled (k : Nat) (x y : ℝ) : Prop := ∃ t : ℝ, x = t * y ∧ (unit24 ^ k)⁻¹ ≤ t ∧ t ≤ unit24 ^ k

theorem Scaled.refl (k : Nat) (x : ℝ) : Scaled k x x :=
  ⟨1, (one_mul x).symm, inv_le_one_of_one_le₀ (pow24_ge k), pow24_ge k⟩

theorem Scaled.mono {i j : Nat} {x y : ℝ} (h : Scaled i x y) (hij : i ≤ j) : Scaled j x y := by
  obtain ⟨t, rfl, h1, h2⟩ := h
  have hp := pow_le_pow_right₀ unit24_ge hij
  exact ⟨t, rfl, (inv_anti₀ (pow24_pos i) hp).trans h1, h2.trans hp⟩

theorem Scaled.mul {i j : Nat} {x y x' y' : ℝ} (h : Scaled i x y) (h' : Scaled j x' y') : Scaled (i + j) (x * x') (y * y') := by
  obtain ⟨t, rfl, h1, h2⟩ := h
  obtain ⟨t', rfl, h1', h2'⟩ := h'
  have a := inv_pos.2 (pow24_pos i)
  have b := inv_pos.2 (pow24_pos j)
  refine ⟨t * t', by ring, ?_, ?_⟩
  · rw [pow_add, mul_inv]
    exact mul_le_mul h1 h1' b.le (a.le.trans h1)
  · rw [pow_add]
    exact mul_le_mul h2 h2' (b.le.trans h1') (pow24_pos i).le

theorem Scaled.trans {i j : Nat} {x y z : ℝ} (h : Scaled i x y) (h' : Scaled j y z) : Scaled (i + j) x z := by
  obtain ⟨t', rfl, h1', h2'⟩ := h'
  obtain ⟨t, rfl, h1, h2⟩ := h
  have a : Scaled i (t * 1) 1 := ⟨t, rfl, h1, h2⟩
  have b : Scaled j (t' * 1) 1 := ⟨t', rfl, h1', h2'⟩
  obtain ⟨s, hs, hs1, hs2⟩ := a.mul b
  refine ⟨s, ?_, hs1, hs2⟩
  have : s = t * t' := by linarith
  rw [this]
  ring

theorem Scaled.inv {k : Nat} {x y : ℝ} (h : Scaled k x y) : Scaled k x⁻¹ y⁻¹ := by
  obtain ⟨t, rfl, h1, h2⟩ := h
  have a := inv_pos.2 (pow24_pos k)
  refine ⟨t⁻¹, mul_inv t y, inv_anti₀ (a.trans_le h1) h2, ?_⟩
  rw [← inv_inv (unit24 ^ k)]
  exact inv_anti₀ a h1

theorem Scaled.div {i j : Nat} {x y x' y' : ℝ} (h : Scaled i x y) (h' : Scaled j x' y') : Scaled (i + j) (x / x') (y / y') := by
  rw [div_eq_mul_inv, div_eq_mul_inv]
  exact h.mul h'.inv

theorem scaled_iff {k : Nat} {x y : ℝ} (hy : 0 ≤ y) : Scaled k x y ↔ (unit24 ^ k)⁻¹ * y ≤ x ∧ x ≤ unit24 ^ k * y := by
  constructor
  · rintro ⟨t, rfl, h1, h2⟩
    exact ⟨mul_le_mul_of_nonneg_right h1 hy, mul_le_mul_of_nonneg_right h2 hy⟩
  · rintro ⟨h1, h2⟩
    rcases hy.eq_or_lt with rfl | hpos
    · rw [mul_zero] at h1 h2
      rw [le_antisymm h2 h1]
      exact Scaled.refl k 0
    · exact ⟨x / y, (div_mul_cancel₀ x hpos.ne').symm, (le_div_iff₀ hpos).2 h1, (div_le_iff₀ hpos).2 h2⟩

theorem Scaled.add {k : Nat} {x y x' y' : ℝ} (hy : 0 ≤ y) (hy' : 0 ≤ y') (h : Scaled k x y) (h' : Scaled k x' y') :
    Scaled k (x + x') (y + y') := by
  rw [scaled_iff hy] at h
  rw [scaled_iff hy'] at h'
  rw [scaled_iff (add_nonneg hy hy'), mul_add, mul_add]
  exact ⟨add_le_add h.1 h'.1, add_le_add h.2 h'.2⟩

theorem Scaled.nonneg {k : Nat} {x y : ℝ} (h : Scaled k x y) (hy : 0 ≤ y) : 0 ≤ x := by
  obtain ⟨t, rfl, h1, _⟩ := h
  exact mul_nonneg ((inv_pos.2 (pow24_pos k)).le.trans h1) hy

theorem Scaled.eq_zero_iff {k : Nat} {x y : ℝ} (h : Scaled k x y) : x = 0 ↔ y = 0 := by
  obtain ⟨t, rfl, h1, _⟩ := h
  have := (inv_pos.2 (pow24_pos k)).trans_le h1
  rw [mul_eq_zero, or_iff_right this.ne']

theorem Scaled.sqrt {k : Nat} {x y : ℝ} (h : Scaled (2 * k) x y) : Scaled k (Real.sqrt x) (Real.sqrt y) := by
  obtain ⟨t, rfl, h1, h2⟩ := h
  have ht : 0 ≤ t := (inv_pos.2 (pow24_pos _)).le.trans h1
  rw [mul_comm 2 k, pow_mul] at h1 h2
  refine ⟨Real.sqrt t, Real.sqrt_mul ht y, ?_, ?_⟩
  · apply Real.le_sqrt_of_sq_le
    rw [inv_pow]
    exact h1
  · rw [Real.sqrt_le_left (pow24_pos k).le]
    exact h2

theorem Scaled.abs_sub {k : Nat} {x y : ℝ} (h : Scaled k x y) : |x - y| ≤ (unit24 ^ k - 1) * |y| := by
  obtain ⟨t, rfl, h1, h2⟩ := h
  have : t * y - y = (t - 1) * y := by ring
  rw [this, abs_mul]
  refine mul_le_mul_of_nonneg_right ?_ (abs_nonneg y)
  rw [abs_le]
  refine ⟨?_, by linarith⟩
  have hp := pow24_ge k
  have hinv : 2 - unit24 ^ k ≤ (unit24 ^ k)⁻¹ := by
    rw [← one_div, le_div_iff₀ (pow24_pos k)]
    nlinarith [sq_nonneg (unit24 ^ k - 1)]
  linarith

theorem scaled_of_error {x y ε : ℝ} {k : Nat} (hy : 0 ≤ y) (h : |x - y| ≤ ε * y) (h1 : (unit24 ^ k)⁻¹ ≤ 1 - ε) (h2 : 1 + ε ≤ unit24 ^ k) :
    Scaled k x y := by
  rw [scaled_iff hy]
  rw [abs_le] at h
  constructor
  · have := mul_le_mul_of_nonneg_right h1 hy
    linarith [h.1]
  · have := mul_le_mul_of_nonneg_right h2 hy
    linarith [h.2]

/-! ### Rounding -/

theorem rnd24_neg (x : ℚ) : rounding24.rnd (-x) = -rounding24.rnd x := roundPlaces_neg _ _

theorem inv_unit24_le : unit24⁻¹ ≤ 1 - 1 / 2 ^ 24 := by
  rw [inv_le_iff_one_le_mul₀ unit24_pos]
  unfold unit24
  norm_num

theorem scaled_rnd (x : ℚ) : Scaled 1 (rounding24.rnd x : ℚ) (x : ℝ) := by
  have key : ∀ x : ℚ, 0 ≤ x → Scaled 1 (rounding24.rnd x : ℚ) (x : ℝ) := by
    intro x hx
    obtain ⟨h1, h2⟩ := relError24.2.2 x hx
    have h1' : ((((1 : ℚ) - 1 / 2 ^ 24) * x : ℚ) : ℝ) ≤ (rounding24.rnd x : ℚ) := Rat.cast_le.2 h1
    have h2' : ((rounding24.rnd x : ℚ) : ℝ) ≤ (((1 + 1 / 2 ^ 24 : ℚ) * x : ℚ) : ℝ) := Rat.cast_le.2 h2
    push_cast at h1' h2'
    have hx' : (0 : ℝ) ≤ x := by exact_mod_cast hx
    rw [scaled_iff hx', pow_one]
    constructor
    · exact (mul_le_mul_of_nonneg_right inv_unit24_le hx').trans h1'
    · refine h2'.trans (mul_le_mul_of_nonneg_right ?_ hx')
      unfold unit24
      norm_num
  rcases le_total 0 x with hx | hx
  · exact key x hx
  · obtain ⟨t, h, h1, h2⟩ := key (-x) (by linarith)
    refine ⟨t, ?_, h1, h2⟩
    rw [rnd24_neg] at h
    push_cast at h
    linarith

/-- Numbers of 24 digits. -/
def Short (x : ℚ) : Prop := rounding24.rnd x = x

theorem short_rnd (x : ℚ) : Short (rounding24.rnd x) := rounding24.idem x

theorem short_zero : Short 0 := rounding24.zero

theorem short_nat {n : Nat} (h : n < 2 ^ 24) : Short n := by
  refine roundPlaces_grid places24 (grid24_iff.2 ⟨n, 0, ?_, by simp⟩)
  rw [abs_of_nonneg (by positivity)]
  exact_mod_cast h

/-! ### Inner products -/

/-- Number of products that are not zero. -/
def activeProducts (l : List (ℚ × ℚ)) : Nat := l.countP fun p => p.1 * p.2 ≠ 0

theorem activeProducts_cons (p : ℚ × ℚ) (l : List (ℚ × ℚ)) :
    activeProducts (p :: l) = activeProducts l + if p.1 * p.2 = 0 then 0 else 1 := by
  unfold activeProducts
  rw [List.countP_cons]
  by_cases h : p.1 * p.2 = 0
  · rw [if_neg (by rw [decide_eq_true_eq]; exact not_not.2 h), if_pos h]
  · rw [if_pos (by rw [decide_eq_true_eq]; exact h), if_neg h]

theorem forall₂_mono {α : Type} {i j : Nat} {f : α → ℝ} {l : List α} {us : List ℝ}
    (h : List.Forall₂ (fun p u => Scaled i u (f p)) l us) (hij : i ≤ j) : List.Forall₂ (fun p u => Scaled j u (f p)) l us :=
  h.imp fun _ _ h => h.mono hij

theorem forall₂_scale {α : Type} {i : Nat} {f : α → ℝ} {l : List α} {us : List ℝ} {t : ℝ}
    (h : List.Forall₂ (fun p u => Scaled i u (f p)) l us) (h1 : unit24⁻¹ ≤ t) (h2 : t ≤ unit24) :
    List.Forall₂ (fun p u => Scaled (i + 1) u (f p)) l (us.map fun u => t * u) := by
  rw [List.forall₂_map_right_iff]
  refine h.imp fun p u hu => ?_
  have : Scaled 1 (t * u) u := ⟨t, rfl, by rwa [pow_one], by rwa [pow_one]⟩
  rw [Nat.add_comm]
  exact this.trans hu

theorem sum_zero_of_inactive {l : List (ℚ × ℚ)} {us : List ℝ} {k : Nat} (h0 : activeProducts l = 0)
    (h : List.Forall₂ (fun p u => Scaled k u ((p.1 : ℝ) * p.2)) l us) : us.sum = 0 := by
  induction h with
  | nil => rfl
  | @cons p u l us hp _ ih =>
    unfold activeProducts at h0 ih
    rw [List.countP_cons] at h0
    have hz : p.1 * p.2 = 0 := by
      by_contra hne
      simp [hne] at h0
    have hz' : ((p.1 : ℝ) * p.2) = 0 := by exact_mod_cast hz
    rw [List.sum_cons, ih (by omega), hp.eq_zero_iff.2 hz', add_zero]

theorem map_mul_sum (t : ℝ) (us : List ℝ) : (us.map fun u => t * u).sum = t * us.sum := by
  rw [List.sum_map_mul_left us (fun u => u) t, List.map_id']

theorem dotted_short {l : List (ℚ × ℚ)} {a : ℚ} (h : Dotted l a) : Short a := by
  induction h with
  | nil => exact short_zero
  | product x y => exact short_rnd _
  | fused x y _ _ => exact short_rnd _
  | sum _ _ _ _ => exact short_rnd _
  | perm _ _ ih => exact ih

theorem rnd_factor (x : ℚ) : ∃ t : ℝ, ((rounding24.rnd x : ℚ) : ℝ) = t * x ∧ unit24⁻¹ ≤ t ∧ t ≤ unit24 := by
  obtain ⟨t, h, h1, h2⟩ := scaled_rnd x
  rw [pow_one] at h1 h2
  exact ⟨t, h, h1, h2⟩

/-- Whatever the order of summation, the result is the sum of the exact products, each up to as many factors as there
are products other than zero. -/
theorem dotted_scaled {l : List (ℚ × ℚ)} {a : ℚ} (h : Dotted l a) :
    ∃ us : List ℝ, List.Forall₂ (fun p u => Scaled (activeProducts l) u ((p.1 : ℝ) * p.2)) l us ∧ (a : ℝ) = us.sum := by
  induction h with
  | nil => exact ⟨[], .nil, by simp⟩
  | product x y =>
    refine ⟨[((rounding24.rnd (x * y) : ℚ) : ℝ)], .cons ?_ .nil, by simp⟩
    by_cases h0 : x * y = 0
    · have h0' : ((x : ℝ) * y) = 0 := by exact_mod_cast h0
      simp only [h0', h0, rounding24.zero, Rat.cast_zero]
      exact Scaled.refl _ _
    · have : activeProducts [(x, y)] = 1 := by rw [activeProducts_cons, if_neg h0]; rfl
      rw [this]
      simpa using scaled_rnd (x * y)
  | @fused l a x y hl ih =>
    obtain ⟨us, hus, ha⟩ := ih
    by_cases h0 : x * y = 0
    · have h0' : ((x : ℝ) * y) = 0 := by exact_mod_cast h0
      have hn : activeProducts ((x, y) :: l) = activeProducts l := by rw [activeProducts_cons, if_pos h0, Nat.add_zero]
      refine ⟨0 :: us, .cons ?_ ?_, ?_⟩
      · simp only [h0']
        exact Scaled.refl _ _
      · rw [hn]; exact hus
      · rw [h0, add_zero, dotted_short hl, ha, List.sum_cons, zero_add]
    · have hn : activeProducts ((x, y) :: l) = activeProducts l + 1 := by rw [activeProducts_cons, if_neg h0]
      obtain ⟨t, ht, h1, h2⟩ := rnd_factor (a + x * y)
      rw [hn]
      refine ⟨t * (x * y) :: us.map fun u => t * u, .cons ?_ ?_, ?_⟩
      · have : Scaled 1 (t * ((x : ℝ) * y)) ((x : ℝ) * y) := ⟨t, rfl, by rwa [pow_one], by rwa [pow_one]⟩
        exact this.mono (by omega)
      · exact forall₂_scale (f := fun p : ℚ × ℚ => (p.1 : ℝ) * p.2) hus h1 h2
      · rw [ht, List.sum_cons, map_mul_sum, ← ha]
        push_cast
        ring
  | @sum l l' a b hl hl' ih ih' =>
    obtain ⟨us, hus, ha⟩ := ih
    obtain ⟨us', hus', hb⟩ := ih'
    have hn : activeProducts (l ++ l') = activeProducts l + activeProducts l' := by simp [activeProducts]
    rw [hn]
    by_cases h0 : activeProducts l = 0
    · have hz := sum_zero_of_inactive h0 hus
      refine ⟨us ++ us', List.rel_append (forall₂_mono (f := fun p : ℚ × ℚ => (p.1 : ℝ) * p.2) hus (by omega))
        (forall₂_mono (f := fun p : ℚ × ℚ => (p.1 : ℝ) * p.2) hus' (by omega)), ?_⟩
      have ha0 : a = 0 := by
        rw [hz] at ha
        exact_mod_cast ha
      rw [ha0, zero_add, dotted_short hl', hb, List.sum_append, hz, zero_add]
    · by_cases h0' : activeProducts l' = 0
      · have hz := sum_zero_of_inactive h0' hus'
        refine ⟨us ++ us', List.rel_append (forall₂_mono (f := fun p : ℚ × ℚ => (p.1 : ℝ) * p.2) hus (by omega))
          (forall₂_mono (f := fun p : ℚ × ℚ => (p.1 : ℝ) * p.2) hus' (by omega)), ?_⟩
        have hb0 : b = 0 := by
          rw [hz] at hb
          exact_mod_cast hb
        rw [hb0, add_zero, dotted_short hl, ha, List.sum_append, hz, add_zero]
      · obtain ⟨t, ht, h1, h2⟩ := rnd_factor (a + b)
        have s := forall₂_scale (f := fun p : ℚ × ℚ => (p.1 : ℝ) * p.2) hus h1 h2
        have s' := forall₂_scale (f := fun p : ℚ × ℚ => (p.1 : ℝ) * p.2) hus' h1 h2
        refine ⟨us.map (fun u => t * u) ++ us'.map (fun u => t * u),
          List.rel_append (forall₂_mono (f := fun p : ℚ × ℚ => (p.1 : ℝ) * p.2) s (by omega))
            (forall₂_mono (f := fun p : ℚ × ℚ => (p.1 : ℝ) * p.2) s' (by omega)), ?_⟩
        rw [ht, List.sum_append, map_mul_sum, map_mul_sum, ← ha, ← hb]
        push_cast
        ring
  | @perm l l' a _ hp ih =>
    obtain ⟨us, hus, ha⟩ := ih
    have hn : activeProducts l' = activeProducts l := (hp.countP_eq _).symm
    obtain ⟨us', h1, h2⟩ := List.perm_comp_forall₂ hp.symm hus
    exact ⟨us', by rw [hn]; exact h1, by rw [ha, h2.sum_eq]⟩

/-- The sum of the approximations. -/
theorem sum_error {k : Nat} {us ps : List ℝ} (h : List.Forall₂ (Scaled k) us ps) :
    |us.sum - ps.sum| ≤ (unit24 ^ k - 1) * (ps.map fun p => |p|).sum := by
  induction h with
  | nil => simp
  | @cons u p us ps hup _ ih =>
    rw [List.sum_cons, List.sum_cons, List.map_cons, List.sum_cons, mul_add]
    have e : u + us.sum - (p + ps.sum) = (u - p) + (us.sum - ps.sum) := by ring
    rw [e]
    exact (abs_add_le _ _).trans (add_le_add hup.abs_sub ih)

/-! ### The vectorizer -/

section
variable {ops : FloatOps ℚ} (hops : MachineOps ops)
include hops

theorem addOnes_machine (k : Nat) (hk : k < 2 ^ 24) : addOnes ops k ops.zero = k := by
  induction k with
  | zero => rw [addOnes, Function.iterate_zero, id, hops.zero]; rfl
  | succ k ih =>
    have := ih (by omega)
    unfold addOnes at this ⊢
    rw [Function.iterate_succ_apply', this, hops.add, hops.one]
    exact_mod_cast short_nat hk

theorem rawVector_scaled (v : Tfidf ℚ) (n : Nat) (words : List Text) (hw : words.length < 2 ^ 24) :
    List.Forall₂ (fun a x => Scaled 1 ((a : ℚ) : ℝ) x) (rawVector ops v n words) (rawVector realOps v.toReal n words) := by
  unfold rawVector
  rw [List.forall₂_map_left_iff, List.forall₂_map_right_iff, List.forall₂_same]
  intro ix _
  change Scaled 1 _ (if termCount v.vocabulary words ix = 0 then _ else _)
  by_cases h0 : termCount v.vocabulary words ix = 0
  · rw [if_pos h0, if_pos h0, hops.zero]
    simpa [realOps] using Scaled.refl 1 0
  · rw [if_neg h0, if_neg h0]
    have hidf : v.toReal.idf[ix]? = Option.map (fun q : ℚ => (q : ℝ)) (v.idf[ix]?) := by
      change (v.idf.map _)[ix]? = _
      exact List.getElem?_map ..
    rw [hidf]
    cases v.idf[ix]? with
    | none =>
      simp only [Option.elim_none, Option.map_none, hops.zero]
      simpa [realOps] using Scaled.refl 1 0
    | some d =>
      simp only [Option.elim_some, Option.map_some]
      have hc : termCount v.vocabulary words ix < 2 ^ 24 := (List.length_filter_le _ _).trans_lt hw
      rw [addOnes_machine hops _ hc, hops.mul]
      have hz : realOps.zero = (0 : ℝ) := rfl
      have e : realOps.mul (addOnes realOps (termCount v.toReal.vocabulary words ix) realOps.zero) (d : ℝ)
          = (((termCount v.vocabulary words ix : ℚ) * d : ℚ) : ℝ) := by
        rw [hz, addOnes_real]
        push_cast
        rfl
      rw [e]
      exact scaled_rnd _

open Classical in
theorem norm_scaled {l : List ℚ} {xs : List ℝ} (h : List.Forall₂ (fun a x => Scaled 1 ((a : ℚ) : ℝ) x) l xs) :
    ∀ (j : Nat) (acc : ℚ) (s : ℝ), Short acc → 0 ≤ s → Scaled (3 + j) acc s →
      Short (l.foldl (fun norm v => ops.add norm (ops.mul v v)) acc) ∧
      Scaled (3 + j + activeFeatures xs) (l.foldl (fun norm v => ops.add norm (ops.mul v v)) acc : ℚ)
        (s + (xs.map fun x => x * x).sum) := by
  induction h with
  | nil =>
    intro j acc s hs _ hsc
    refine ⟨hs, ?_⟩
    simpa [activeFeatures] using hsc
  | @cons a x l xs hax _ ih =>
    intro j acc s hs hs0 hsc
    rw [List.foldl_cons]
    by_cases hx : x = 0
    · have ha : a = 0 := by
        have := hax.eq_zero_iff.2 hx
        exact_mod_cast this
      have hstep : ops.add acc (ops.mul a a) = acc := by
        rw [hops.mul, ha, mul_zero, rounding24.zero, hops.add, add_zero]
        exact hs
      rw [hstep]
      obtain ⟨h1, h2⟩ := ih j acc s hs hs0 hsc
      refine ⟨h1, ?_⟩
      have hn : activeFeatures (x :: xs) = activeFeatures xs := by
        unfold activeFeatures
        rw [List.countP_cons_of_neg (by simp [hx])]
      rw [hn, List.map_cons, List.sum_cons, hx, mul_zero, zero_add]
      exact h2
    · have hn : activeFeatures (x :: xs) = activeFeatures xs + 1 := by
        unfold activeFeatures
        rw [List.countP_cons_of_pos (by simp [hx])]
      have hsq : Scaled 3 ((ops.mul a a : ℚ) : ℝ) (x * x) := by
        rw [hops.mul]
        have h2 := hax.mul hax
        have h1 := scaled_rnd (a * a)
        push_cast at h1
        exact h1.trans h2
      have hsum : Scaled (3 + (j + 1)) ((ops.add acc (ops.mul a a) : ℚ) : ℝ) (s + x * x) := by
        rw [hops.add]
        have h1 := scaled_rnd (acc + ops.mul a a)
        push_cast at h1
        have h2 := hsc.add hs0 (mul_self_nonneg x) (hsq.mono (by omega))
        exact (h1.trans h2).mono (by omega)
      obtain ⟨h1, h2⟩ := ih (j + 1) _ (s + x * x) (by rw [hops.add]; exact short_rnd _)
        (add_nonneg hs0 (mul_self_nonneg x)) hsum
      refine ⟨h1, ?_⟩
      rw [hn, List.map_cons, List.sum_cons, ← add_assoc s]
      exact h2.mono (by omega)

theorem normalize_scaled {l : List ℚ} {xs : List ℝ} (h : List.Forall₂ (fun a x => Scaled 1 ((a : ℚ) : ℝ) x) l xs) :
    List.Forall₂ (fun a x => Scaled ((activeFeatures xs + 4) / 2 + 3) ((a : ℚ) : ℝ) x) (normalizeVector ops l)
      (normalizeVector realOps xs) := by
  obtain ⟨_, hsum⟩ := norm_scaled hops h 0 ops.zero 0 (by rw [hops.zero]; exact short_zero) le_rfl
    (by rw [hops.zero]; simpa using Scaled.refl 3 0)
  have hreal : xs.foldl (fun norm v => realOps.add norm (realOps.mul v v)) realOps.zero = (xs.map fun x => x * x).sum := by
    have := foldl_norm xs 0
    rw [zero_add] at this
    exact this
  unfold normalizeVector
  simp only [hreal]
  generalize l.foldl (fun norm v => ops.add norm (ops.mul v v)) ops.zero = a at hsum
  rw [zero_add, Nat.add_zero] at hsum
  have hs0 : 0 ≤ (xs.map fun x => x * x).sum := List.sum_nonneg (by simp only [List.mem_map]; rintro _ ⟨x, _, rfl⟩; exact mul_self_nonneg x)
  generalize (xs.map fun x => x * x).sum = s at hsum hs0
  have ha0 : 0 ≤ a := by
    have := hsum.nonneg hs0
    exact_mod_cast this
  have hroot : Scaled ((activeFeatures xs + 4) / 2 + 1) ((ops.sqrt a : ℚ) : ℝ) (Real.sqrt s) := by
    have h1 : Scaled 1 ((ops.sqrt a : ℚ) : ℝ) (Real.sqrt a) :=
      scaled_of_error (Real.sqrt_nonneg _) (hops.sqrt a ha0) (by rw [pow_one]; exact inv_unit24_le)
        (by rw [pow_one]; unfold unit24; norm_num)
    have h2 : Scaled ((activeFeatures xs + 4) / 2) (Real.sqrt a) (Real.sqrt s) := (hsum.mono (by omega)).sqrt
    exact (h1.trans h2).mono (by omega)
  have hsafe : Scaled ((activeFeatures xs + 4) / 2 + 1) ((if ops.pos (ops.sqrt a) then ops.sqrt a else ops.one : ℚ) : ℝ)
      (if realOps.pos (realOps.sqrt s) then realOps.sqrt s else realOps.one) := by
    have hpos : realOps.pos (realOps.sqrt s) = true ↔ 0 < Real.sqrt s := by simp [realOps]
    by_cases hs : 0 < Real.sqrt s
    · have hne : ((ops.sqrt a : ℚ) : ℝ) ≠ 0 := fun h => hs.ne' (hroot.eq_zero_iff.1 h)
      have : 0 < ops.sqrt a := by
        have := lt_of_le_of_ne (hroot.nonneg hs.le) (Ne.symm hne)
        exact_mod_cast this
      rw [if_pos (hpos.2 hs), if_pos ((hops.pos _).2 this)]
      exact hroot
    · have hz : Real.sqrt s = 0 := le_antisymm (not_lt.1 hs) (Real.sqrt_nonneg s)
      have hz' : ops.sqrt a = 0 := by
        have := hroot.eq_zero_iff.2 hz
        exact_mod_cast this
      rw [if_neg (fun h => hs (hpos.1 h)), if_neg (fun h => absurd ((hops.pos _).1 h) (by rw [hz']; exact lt_irrefl 0)), hops.one]
      simpa [realOps] using Scaled.refl ((activeFeatures xs + 4) / 2 + 1) 1
  generalize (if ops.pos (ops.sqrt a) then ops.sqrt a else ops.one : ℚ) = q at hsafe
  generalize (if realOps.pos (realOps.sqrt s) then realOps.sqrt s else realOps.one : ℝ) = r at hsafe
  rw [List.forall₂_map_left_iff, List.forall₂_map_right_iff]
  refine h.imp fun b x hb => ?_
  rw [hops.div]
  have h1 := scaled_rnd (b / q)
  push_cast at h1
  exact (h1.trans (hb.div hsafe)).mono (by omega)

omit hops in
theorem activeFeatures_scaled {k : Nat} {l l' : List ℝ} (h : List.Forall₂ (Scaled k) l l') : activeFeatures l' = activeFeatures l := by
  classical
  unfold activeFeatures
  induction h with
  | nil => rfl
  | @cons a b l l' hab _ ih =>
    rw [List.countP_cons, List.countP_cons, ih]
    congr 1
    simp only [ne_eq, hab.eq_zero_iff]

omit hops in
open Classical in
theorem activeFeatures_normalize (xs : List ℝ) : activeFeatures (normalizeVector realOps xs) = activeFeatures xs := by
  obtain ⟨k, hk, h, _⟩ := normalizeVector_real xs
  rw [h]
  unfold activeFeatures
  rw [List.countP_map]
  congr 1
  funext x
  simp [hk.ne']

/-- The features a vectorizer computes are close to the exact ones. -/
theorem tfidf_scaled {env : FeatEnv} {o : HashOrd} {v : Tfidf ℚ} {utterance : Text} {w : World} {out : List ℚ}
    (hfew : FewWords env w v utterance) (h : (v.transform ops env o utterance).run w = .ok out) :
    ∃ xs, (v.toReal.transform realOps env o utterance).run w = .ok xs ∧
      List.Forall₂ (fun a x => Scaled ((activeFeatures xs + 4) / 2 + 3) ((a : ℚ) : ℝ) x) out xs := by
  classical
  obtain ⟨bs, cs, he⟩ := tfidf_run_ok h
  have he' : TfidfEntities w v.toReal utterance bs cs := he
  obtain ⟨words, hw, hr⟩ := tfidf_run ops env o v utterance w bs cs he
  obtain ⟨words', hw', hr'⟩ := tfidf_run realOps env o v.toReal utterance w bs cs he'
  have hperm : words'.Perm words := hw'.trans hw.symm
  have hraw : ∀ n, rawVector realOps v.toReal n words' = rawVector realOps v.toReal n words := by
    intro n
    unfold rawVector
    apply List.map_congr_left
    intro ix _
    rw [termCount_perm hperm]
  have hlen : v.toReal.idf.length = v.idf.length := List.length_map ..
  rw [hr, tfidfVector_eq] at h
  rw [hr', tfidfVector_eq]
  have hvoc : v.toReal.vocabulary = v.vocabulary := rfl
  simp only [hraw, termCount_perm hperm, hlen, hvoc]
  cases hm : (v.vocabulary.map Prod.snd).max? with
  | none => rw [hm] at h; cases h
  | some m =>
    rw [hm] at h
    simp only at h ⊢
    by_cases hall : ∀ ix, 0 < termCount v.vocabulary words ix → ix < v.idf.length
    · rw [if_pos hall] at h ⊢
      cases h
      refine ⟨_, rfl, ?_⟩
      rw [activeFeatures_normalize]
      exact normalize_scaled hops (rawVector_scaled hops v (m + 1) words (hfew bs cs words he hw))
    · rw [if_neg hall] at h
      cases h

theorem setPairs_real (table : Map (Text × Text) Nat) (pairs : List (Text × Text)) (features : List ℚ) :
    setPairs realOps table pairs (reals features) = (setPairs ops table pairs features).map reals := by
  induction pairs generalizing features with
  | nil => rfl
  | cons p pairs ih =>
    unfold setPairs
    cases table.get p with
    | none => exact ih features
    | some ix =>
      simp only
      have hl : (reals features).length = features.length := List.length_map ..
      rw [hl]
      by_cases hix : ix < features.length
      · rw [if_pos hix, if_pos hix, ← ih]
        congr 1
        unfold reals
        rw [List.map_set, hops.one]
        simp [realOps]
      · rw [if_neg hix, if_neg hix]
        rfl

theorem cooc_real {env : FeatEnv} {o : HashOrd} {v : Cooc} {utterance : Text} {w : World} {out : List ℚ}
    (h : (v.transform ops env o utterance).run w = .ok out) :
    (v.transform realOps env o utterance).run w = .ok (reals out) := by
  unfold Cooc.transform at h ⊢
  rw [Prog.run_builtinCached_ok] at h ⊢
  obtain ⟨bs, hb, h⟩ := h
  refine ⟨bs, hb, ?_⟩
  rw [Prog.run_custom_ok] at h ⊢
  obtain ⟨cs, hc, h⟩ := h
  refine ⟨cs, hc, ?_⟩
  rw [Prog.run_ofOutcome] at h ⊢
  simp only [Outcome.bind_eq, Outcome.bind_ok] at h ⊢
  obtain ⟨e, he, ps, hp, h⟩ := h
  refine ⟨e, he, ps, hp, ?_⟩
  have hz : List.replicate v.wordPairs.length realOps.zero = reals (List.replicate v.wordPairs.length ops.zero) := by
    unfold reals
    rw [List.map_replicate, hops.zero]
    simp [realOps]
  rw [hz, setPairs_real hops, h]
  rfl

omit hops in
theorem activeFeatures_append (l l' : List ℝ) : activeFeatures (l ++ l') = activeFeatures l + activeFeatures l' := by
  classical
  unfold activeFeatures
  exact List.countP_append

/-- The features of the classifier. -/
theorem features_scaled {env : FeatEnv} {o : HashOrd} {f : Featurizer ℚ} {input : Text} {w : World} {out : List ℚ}
    (hfew : FewWords env w f.tfidf input) (h : (f.transform ops env o input).run w = .ok out) :
    ∃ xs, (f.toReal.transform realOps env o input).run w = .ok xs ∧
      List.Forall₂ (fun a x => Scaled ((activeFeatures xs + 4) / 2 + 3) ((a : ℚ) : ℝ) x) out xs := by
  unfold Featurizer.transform at h ⊢
  rw [Prog.run_bind, Outcome.bind_ok] at h
  obtain ⟨t, ht, h⟩ := h
  obtain ⟨ts, hts, hsc⟩ := tfidf_scaled hops hfew ht
  change ∃ xs, ((f.tfidf.toReal.transform realOps env o input).bind fun features => match f.cooc with
    | none => .ret features
    | some v => (v.transform realOps env o input).bind fun more => .ret (features ++ more)).run w = .ok xs ∧ _
  cases hf : f.cooc with
  | none =>
    rw [hf] at h
    cases h
    refine ⟨ts, ?_, hsc⟩
    rw [Prog.run_bind, hts]
    rfl
  | some v =>
    rw [hf] at h
    simp only [Prog.run_bind, Outcome.bind_ok] at h
    obtain ⟨more, hm, h⟩ := h
    cases h
    refine ⟨ts ++ reals more, ?_, ?_⟩
    · simp only [Prog.run_bind, Outcome.bind_ok]
      exact ⟨ts, hts, reals more, cooc_real hops hm, rfl⟩
    · rw [activeFeatures_append]
      refine List.rel_append (hsc.imp fun _ _ h => h.mono (by omega)) ?_
      unfold reals
      rw [List.forall₂_map_right_iff, List.forall₂_same]
      exact fun q _ => Scaled.refl _ _

/-! ### The linear scores -/

omit hops in
theorem activeProducts_zip {k : Nat} {l : List ℚ} {xs : List ℝ} (h : List.Forall₂ (fun a x => Scaled k ((a : ℚ) : ℝ) x) l xs)
    (ws : List ℚ) : activeProducts (l.zip ws) ≤ activeFeatures xs := by
  classical
  induction h generalizing ws with
  | nil => simp [activeProducts]
  | @cons a x l xs hax _ ih =>
    cases ws with
    | nil => simp [activeProducts]
    | cons w ws =>
      rw [List.zip_cons_cons, activeProducts_cons]
      unfold activeFeatures at ih ⊢
      rw [List.countP_cons]
      refine Nat.add_le_add (ih ws) ?_
      by_cases hx : x = 0
      · have ha : a = 0 := by
          have := hax.eq_zero_iff.2 hx
          exact_mod_cast this
        simp [ha]
      · simp only [ne_eq, hx, not_false_eq_true, decide_true, if_true]
        split <;> omega

omit hops in
theorem zip_scaled {i k : Nat} {l : List ℚ} {xs : List ℝ} (h : List.Forall₂ (fun a x => Scaled k ((a : ℚ) : ℝ) x) l xs)
    (ws : List ℚ) {us : List ℝ} (hus : List.Forall₂ (fun (p : ℚ × ℚ) u => Scaled i u ((p.1 : ℝ) * p.2)) (l.zip ws) us) :
    List.Forall₂ (Scaled (i + k)) us (List.zipWith (· * ·) xs (reals ws)) := by
  induction h generalizing ws us with
  | nil => cases hus; exact .nil
  | @cons a x l xs hax _ ih =>
    cases ws with
    | nil => cases hus; exact .nil
    | cons w ws =>
      cases hus with
      | cons h1 h2 =>
        refine .cons ?_ (ih ws h2)
        have := hax.mul (Scaled.refl 0 (w : ℝ))
        exact (h1.trans this).mono (by omega)

omit hops in
theorem map_abs_zipWith (xs ws : List ℝ) :
    (List.zipWith (· * ·) xs ws).map (fun p => |p|) = List.zipWith (fun x w => |x * w|) xs ws := by
  rw [List.map_zipWith]

/-- The linear score of a class. -/
theorem linear_error {l : List ℚ} {xs : List ℝ}
    (h : List.Forall₂ (fun a x => Scaled ((activeFeatures xs + 4) / 2 + 3) ((a : ℚ) : ℝ) x) l xs) (b : ℚ) (ws : List ℚ) :
    |((ops.dot (ops.one :: l) (b :: ws) : ℚ) : ℝ) - (b + (List.zipWith (· * ·) xs (reals ws)).sum)| ≤
      linearMargin (activeFeatures xs) * (|(b : ℝ)| + (List.zipWith (fun x w => |x * w|) xs (reals ws)).sum) := by
  obtain ⟨us, hus, ha⟩ := dotted_scaled (hops.dot (ops.one :: l) (b :: ws))
  rw [ha]
  rw [List.zip_cons_cons] at hus
  cases hus with
  | @cons _ u _ us h1 h2 =>
    have hn : activeProducts ((ops.one, b) :: l.zip ws) ≤ activeFeatures xs + 1 := by
      rw [activeProducts_cons]
      exact Nat.add_le_add (activeProducts_zip h ws) (by split <;> omega)
    have hz := zip_scaled h ws h2
    have hb : Scaled (activeProducts ((ops.one, b) :: l.zip ws)) u (b : ℝ) := by
      have : ((ops.one : ℚ) : ℝ) * b = b := by rw [hops.one]; simp
      rw [← this]
      exact h1
    have hall : List.Forall₂ (Scaled (2 * activeFeatures xs + 6)) (u :: us) ((b : ℝ) :: List.zipWith (· * ·) xs (reals ws)) :=
      .cons (hb.mono (by omega)) (hz.imp fun _ _ h => h.mono (by omega))
    have := sum_error hall
    rw [List.map_cons, List.sum_cons, List.sum_cons, List.sum_cons, map_abs_zipWith] at this
    rw [List.sum_cons]
    exact this

/-! ### The logistic function -/

theorem exp_scaled (x : ℚ) : Scaled 3 ((ops.exp x : ℚ) : ℝ) (Real.exp x) := by
  refine scaled_of_error (Real.exp_pos _).le (hops.exp x) ?_ ?_
  · rw [inv_le_iff_one_le_mul₀ (pow24_pos 3)]
    unfold unit24
    norm_num
  · unfold unit24
    norm_num

theorem logit_scaled (z : ℚ) : Scaled 5 ((logit ops z : ℚ) : ℝ) (sigmoid z) := by
  unfold logit sigmoid
  rw [hops.div, hops.one, hops.add, hops.neg]
  have h1 := exp_scaled hops (-z)
  push_cast at h1
  have h2 := (Scaled.refl 3 1).add zero_le_one (Real.exp_pos _).le h1
  have h3 := scaled_rnd (1 + ops.exp (-z))
  push_cast at h3
  have h4 := (Scaled.refl 0 1).div (h3.trans h2)
  have h5 := scaled_rnd (1 / rounding24.rnd (1 + ops.exp (-z)))
  push_cast at h5
  exact (h5.trans h4).mono (by omega)

omit hops in
theorem sigmoid_eq (x : ℝ) : sigmoid x = Real.sigmoid x := by
  unfold sigmoid
  rw [Real.sigmoid_def, one_div]

omit hops in
theorem sigmoid_lipschitz (a b : ℝ) : |sigmoid a - sigmoid b| ≤ |a - b| / 4 := by
  rw [sigmoid_eq, sigmoid_eq]
  have hd : ∀ x ∈ (Set.univ : Set ℝ), HasDerivWithinAt Real.sigmoid (Real.sigmoid x * (1 - Real.sigmoid x)) Set.univ x :=
    fun x _ => (Real.hasDerivAt_sigmoid x).hasDerivWithinAt
  have hb : ∀ x ∈ (Set.univ : Set ℝ), ‖Real.sigmoid x * (1 - Real.sigmoid x)‖ ≤ 1 / 4 := by
    intro x _
    have h0 := Real.sigmoid_pos x
    have h1 := Real.sigmoid_lt_one x
    rw [Real.norm_eq_abs, abs_of_nonneg (mul_nonneg h0.le (by linarith))]
    nlinarith [sq_nonneg (Real.sigmoid x - 1 / 2)]
  have := Convex.norm_image_sub_le_of_norm_hasDerivWithin_le hd hb convex_univ (Set.mem_univ b) (Set.mem_univ a)
  rw [Real.norm_eq_abs, Real.norm_eq_abs] at this
  linarith

/-- A score. -/
theorem score_error (z : ℚ) (y e : ℝ) (h : |(z : ℝ) - y| ≤ e) :
    |((logit ops z : ℚ) : ℝ) - sigmoid y| ≤ 1 / 2 ^ 20 + e / 4 ∧
    |((ops.sub ops.one (logit ops z) : ℚ) : ℝ) - (1 - sigmoid y)| ≤ 1 / 2 ^ 20 + e / 4 := by
  have h1 := (logit_scaled hops z).abs_sub
  have h2 := sigmoid_lipschitz z y
  have hs0 := sigmoid_pos (z : ℝ)
  have hs1 := sigmoid_lt_one (z : ℝ)
  rw [abs_of_pos hs0] at h1
  have hu : unit24 ^ 5 - 1 ≤ 6 / 2 ^ 23 := by unfold unit24; norm_num
  have h1' : |((logit ops z : ℚ) : ℝ) - sigmoid z| ≤ 6 / 2 ^ 23 :=
    h1.trans ((mul_le_of_le_one_right (by linarith [pow24_ge 5]) hs1.le).trans hu)
  have hA : |((logit ops z : ℚ) : ℝ) - sigmoid y| ≤ 6 / 2 ^ 23 + e / 4 := by
    have := abs_sub_le ((logit ops z : ℚ) : ℝ) (sigmoid z) (sigmoid y)
    linarith
  refine ⟨hA.trans (by norm_num), ?_⟩
  rw [hops.sub, hops.one]
  have h3 := (scaled_rnd (1 - logit ops z)).abs_sub
  push_cast at h3
  have hb : |(1 : ℝ) - (logit ops z : ℚ)| ≤ 2 := by
    rw [abs_le] at h1' ⊢
    constructor <;> norm_num at h1' ⊢ <;> linarith [h1'.1, h1'.2]
  have hu1 : unit24 ^ 1 - 1 = 1 / 2 ^ 23 := by unfold unit24; norm_num
  rw [hu1] at h3
  have h3' : |((rounding24.rnd (1 - logit ops z) : ℚ) : ℝ) - (1 - (logit ops z : ℚ))| ≤ 2 / 2 ^ 23 :=
    h3.trans (by linarith)
  have := abs_sub_le ((rounding24.rnd (1 - logit ops z) : ℚ) : ℝ) (1 - (logit ops z : ℚ)) (1 - sigmoid y)
  have e1 : (1 : ℝ) - (logit ops z : ℚ) - (1 - sigmoid y) = -(((logit ops z : ℚ) : ℝ) - sigmoid y) := by ring
  rw [e1, abs_neg] at this
  refine this.trans ((add_le_add h3' hA).trans ?_)
  rw [← add_assoc]
  norm_num

/-! ### The regression -/

omit hops in
theorem coeffColumn_reals {coeffs : List (List ℚ)} {n j : Nat} {col : List ℚ} (h : coeffColumn coeffs n j = .ok col) :
    coeffColumn (coeffs.map reals) n j = .ok (reals col) := by
  unfold coeffColumn at h ⊢
  rw [mapOutcome_ok_iff] at h ⊢
  unfold reals
  rw [List.forall₂_map_right_iff]
  refine h.imp fun i q hq => ?_
  rw [unwrap_ok] at hq ⊢
  rw [List.getElem?_map]
  cases hr : coeffs[j]? with
  | none => rw [hr] at hq; cases hq
  | some row =>
    rw [hr] at hq
    simp only [Option.bind_some] at hq
    simp only [Option.map_some, Option.bind_some]
    rw [List.getElem?_map, hq]
    rfl

omit hops in
theorem logReg_reals {intercept : List ℚ} {coeffs : List (List ℚ)} {m : LogReg ℚ} (h : LogReg.new intercept coeffs = .ok m) :
    LogReg.new (reals intercept) (coeffs.map reals) = .ok ⟨m.nbFeatures, m.columns.map reals⟩ := by
  obtain ⟨⟨first, hf, hn⟩, hcols⟩ := logRegNew_ok h
  unfold LogReg.new
  simp only [Outcome.bind_eq, Outcome.bind_ok]
  refine ⟨reals first, ?_, m.columns.map reals, ?_, ?_⟩
  · rw [unwrap_ok, List.getElem?_map, hf]
    rfl
  · rw [mapOutcome_ok_iff]
    have hl : (reals intercept).length = intercept.length := List.length_map ..
    have hfl : (reals first).length = first.length := List.length_map ..
    rw [hl, hfl]
    have hz : (List.range intercept.length).zip (reals intercept)
        = ((List.range intercept.length).zip intercept).map (Prod.map id fun q : ℚ => (q : ℝ)) := List.zip_map_right ..
    rw [hz, List.forall₂_map_left_iff, List.forall₂_map_right_iff]
    refine hcols.imp ?_
    rintro ⟨j, b⟩ col ⟨c, hc, rfl⟩
    rw [Outcome.bind_ok]
    rw [hn] at hc
    exact ⟨reals c, coeffColumn_reals hc, rfl⟩
  · have hfl : (reals first).length = first.length := List.length_map ..
    rw [hfl, hn]

omit hops in
theorem run_many {F : Type} {ops : FloatOps F} {m : LogReg F} {x : List F} (hx : x.length = m.nbFeatures)
    (hone : m.columns.length ≠ 1) : m.run ops x = .ok (m.columns.map fun col => logit ops (ops.dot (ops.one :: x) col)) := by
  obtain ⟨n, columns⟩ := m
  unfold LogReg.run
  rw [if_neg (not_not.2 hx)]
  match columns, hone with
  | [], _ => rfl
  | [c], h => exact absurd rfl h
  | _ :: _ :: _, _ => rfl

/-- The scores of the regression. -/
theorem run_error {intercept : List ℚ} {coeffs : List (List ℚ)} {m : LogReg ℚ} (hm : LogReg.new intercept coeffs = .ok m)
    {l : List ℚ} {xs : List ℝ} (h : List.Forall₂ (fun a x => Scaled ((activeFeatures xs + 4) / 2 + 3) ((a : ℚ) : ℝ) x) l xs)
    {scores : List ℚ} (hs : m.run ops l = .ok scores) :
    ∃ s, LogReg.run realOps ⟨m.nbFeatures, m.columns.map reals⟩ xs = .ok s ∧ scores.length = s.length ∧
      ∀ (j : Nat) (p : ℚ) (q : ℝ), scores[j]? = some p → s[j]? = some q →
        ∃ e, ScoreError (reals intercept) (coeffs.map reals) xs j e ∧ |(p : ℝ) - q| ≤ e := by
  obtain ⟨hl, h1, h2⟩ := run_ok hs
  obtain ⟨_, hcols⟩ := logRegNew_ok hm
  have hlen : m.columns.length = intercept.length := by rw [← hcols.length_eq]; simp
  have hil : (reals intercept).length = intercept.length := List.length_map ..
  have hxl : xs.length = m.nbFeatures := by rw [← h.length_eq, hl]
  have hcolumn : ∀ (j : Nat) (col : List ℚ), m.columns[j]? = some col → ∃ (b : ℚ) (ws : List ℚ), col = b :: ws ∧
      ∃ mass, LinearMass (reals intercept) (coeffs.map reals) xs j mass ∧
        |((ops.dot (ops.one :: l) col : ℚ) : ℝ) - realOps.dot (realOps.one :: xs) (reals col)| ≤
          linearMargin (activeFeatures xs) * mass := by
    intro j col hcj
    have hjl : j < intercept.length := by rw [← hlen]; exact (List.getElem?_eq_some_iff.1 hcj).1
    have hzip : ((List.range intercept.length).zip intercept)[j]? = some (j, intercept[j]) := by
      rw [List.getElem?_zip_eq_some]
      exact ⟨by simp [hjl], List.getElem?_eq_getElem hjl⟩
    obtain ⟨col', hcol', row, hrow, hcc⟩ := forall₂_getElem? hcols hzip
    rw [hcj] at hcol'
    cases hcol'
    obtain ⟨hrl, hri⟩ := coeffColumn_ok (coeffColumn_reals hrow)
    refine ⟨intercept[j], row, hcc, _, ⟨(intercept[j] : ℝ), reals row, ?_, ?_, ?_, rfl⟩, ?_⟩
    · unfold reals
      rw [List.getElem?_map, List.getElem?_eq_getElem hjl]
      rfl
    · rw [hrl, hxl]
    · intro i hi
      exact hri i (by omega)
    · have := linear_error hops h intercept[j] row
      rw [hcc]
      have hd : realOps.dot (realOps.one :: xs) (reals (intercept[j] :: row))
          = intercept[j] + (List.zipWith (· * ·) xs (reals row)).sum := by
        simp [realOps, reals]
      rw [hd]
      exact this
  by_cases hone : m.columns.length = 1
  · unfold LogReg.run
    rw [if_neg (not_not.2 hxl)]
    obtain ⟨col, hcol⟩ := List.length_eq_one_iff.1 hone
    obtain ⟨b, ws, _, mass, hmass, herr⟩ := hcolumn 0 col (by rw [hcol]; rfl)
    obtain ⟨e1, e2⟩ := score_error hops _ _ _ herr
    rw [h2 col hcol, hcol]
    refine ⟨_, rfl, rfl, fun j p q hp hq => ⟨_, ⟨mass, ?_, rfl⟩, ?_⟩⟩
    · rw [if_pos (by rw [hil, ← hlen, hone])]
      exact hmass
    · match j, hp, hq with
      | 0, hp, hq =>
        cases hp
        cases hq
        exact e2
      | 1, hp, hq =>
        cases hp
        cases hq
        exact e1
  · rw [h1 hone]
    refine ⟨_, run_many (m := ⟨m.nbFeatures, m.columns.map reals⟩) hxl (by simpa using hone), by simp, fun j p q hp hq => ?_⟩
    rw [List.getElem?_map] at hp
    rw [List.map_map, List.getElem?_map] at hq
    cases hcj : m.columns[j]? with
    | none => rw [hcj] at hp; simp at hp
    | some col =>
      rw [hcj] at hp hq
      obtain ⟨b, ws, _, mass, hmass, herr⟩ := hcolumn j col hcj
      obtain ⟨e1, _⟩ := score_error hops _ _ _ herr
      refine ⟨_, ⟨mass, ?_, rfl⟩, ?_⟩
      · rw [if_neg (by rw [hil, ← hlen]; exact hone)]
        exact hmass
      · cases hp
        cases hq
        exact e1

/-! ### Saturation -/

omit hops in
theorem rnd24_one_add : rounding24.rnd (1 + 1 / 2 ^ 24) = 1 := by
  change roundPlaces place24 (1 + 1 / 2 ^ 24) = 1
  have hpos : (0 : ℚ) < 1 + 1 / 2 ^ 24 := by norm_num
  have hL : Int.log 2 |(1 + 1 / 2 ^ 24 : ℚ)| = 0 := by
    have a := (mag_lt_iff hpos.ne' (k := 1)).1 (by rw [abs_of_pos hpos]; norm_num)
    have b : ¬ Int.log 2 |(1 + 1 / 2 ^ 24 : ℚ)| < 0 := by
      intro h
      have := (mag_lt_iff hpos.ne' (k := 0)).2 h
      rw [abs_of_pos hpos] at this
      norm_num at this
    omega
  unfold roundPlaces
  rw [hL]
  have : ((1 : ℚ) + 1 / 2 ^ 24) / 2 ^ place24 0 = ((2 ^ 23 : ℤ) : ℚ) + 1 / 2 := by
    rw [show place24 0 = -23 by decide]
    norm_num
  rw [this]
  have hf : ⌊((2 ^ 23 : ℤ) : ℚ) + 1 / 2⌋ = 2 ^ 23 := by
    rw [Int.floor_eq_iff]
    constructor <;> norm_num
  have hh : halfEven (((2 ^ 23 : ℤ) : ℚ) + 1 / 2) = 2 ^ 23 := by
    unfold halfEven
    rw [hf]
    norm_num
  rw [hh, show place24 0 = -23 by decide]
  norm_num

theorem logit_saturates {z : ℚ} (hz : 17 ≤ z) : logit ops z = 1 := by
  have he : ((ops.exp (-z) : ℚ) : ℝ) ≤ 1 / 2 ^ 24 := by
    have h1 := (abs_le.1 (hops.exp (-z))).2
    push_cast at h1
    have hz' : (17 : ℝ) ≤ z := by exact_mod_cast hz
    have h2 : Real.exp (-(z : ℝ)) ≤ Real.exp (-17) := Real.exp_le_exp.2 (by linarith)
    have h3 : (27 / 10 : ℝ) ^ 17 ≤ Real.exp 17 := by
      have : Real.exp 17 = Real.exp 1 ^ 17 := by rw [← Real.exp_nat_mul]; norm_num
      rw [this]
      exact pow_le_pow_left₀ (by norm_num) (by linarith [Real.exp_one_gt_d9]) 17
    have h4 : Real.exp (-17) ≤ ((27 / 10 : ℝ) ^ 17)⁻¹ := by
      rw [Real.exp_neg]
      exact inv_anti₀ (by norm_num) h3
    have h5 : (1 + 1 / 2 ^ 22) * ((27 / 10 : ℝ) ^ 17)⁻¹ ≤ 1 / 2 ^ 24 := by norm_num
    have h6 := h2.trans h4
    nlinarith [h1, h5, h6]
  have he' : ops.exp (-z) ≤ 1 / 2 ^ 24 := by
    have : ((ops.exp (-z) : ℚ) : ℝ) ≤ ((1 / 2 ^ 24 : ℚ) : ℝ) := by push_cast; exact he
    exact_mod_cast this
  have h0 : 0 ≤ ops.exp (-z) := by
    have := (exp_scaled hops (-z)).nonneg (Real.exp_pos _).le
    exact_mod_cast this
  unfold logit
  rw [hops.div, hops.one, hops.add, hops.neg]
  have hr : rounding24.rnd (1 + ops.exp (-z)) = 1 := by
    apply le_antisymm
    · have := rounding24.mono (show 1 + ops.exp (-z) ≤ 1 + 1 / 2 ^ 24 by linarith)
      rwa [rnd24_one_add] at this
    · have := rounding24.mono (show (1 : ℚ) ≤ 1 + ops.exp (-z) by linarith)
      rwa [rounding24.one] at this
  rw [hr, div_one, rounding24.one]

end

end Snips
