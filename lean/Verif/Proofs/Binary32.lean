import Verif.Spec.Binary32
import Mathlib.Tactic.Linarith
import Mathlib.Tactic.Positivity
import Mathlib.Tactic.FieldSimp
import Mathlib.Tactic.Ring
import Mathlib.Tactic.NormNum

namespace Snips

/-! ### Nearest integers -/

theorem halfEven_int (n : ℤ) : halfEven (n : ℚ) = n := by
  unfold halfEven
  simp

theorem halfEven_bounds (x : ℚ) : (halfEven x : ℚ) - 1 / 2 ≤ x ∧ x ≤ halfEven x + 1 / 2 := by
  have h1 := Int.floor_le x
  have h2 := Int.lt_floor_add_one x
  unfold halfEven
  split_ifs with a b c
  · constructor <;> linarith
  · push_cast; constructor <;> linarith
  · constructor <;> linarith
  · push_cast; constructor <;> linarith

theorem halfEven_near (x : ℚ) (n : ℤ) : |x - halfEven x| ≤ |x - n| := by
  obtain ⟨h1, h2⟩ := halfEven_bounds x
  have habs : |x - halfEven x| ≤ 1 / 2 := abs_le.2 ⟨by linarith, by linarith⟩
  by_cases h : n = halfEven x
  · rw [h]
  · have : 1 ≤ |(halfEven x : ℚ) - n| := by
      have : 1 ≤ |halfEven x - n| := Int.one_le_abs (by omega)
      exact_mod_cast this
    have h3 : |(halfEven x : ℚ) - n| ≤ |x - halfEven x| + |x - n| := by
      have := abs_sub_le (halfEven x : ℚ) x n
      rw [abs_sub_comm (halfEven x : ℚ) x] at this
      exact this
    linarith

theorem halfEven_tie {x : ℚ} {n : ℤ} (hn : n ≠ halfEven x) (h : |x - n| = |x - halfEven x|) : halfEven x % 2 = 0 := by
  obtain ⟨h1, h2⟩ := halfEven_bounds x
  have hf1 := Int.floor_le x
  have hf2 := Int.lt_floor_add_one x
  have habs : |x - halfEven x| ≤ 1 / 2 := abs_le.2 ⟨by linarith, by linarith⟩
  have hge : 1 ≤ |(halfEven x : ℚ) - n| := by
    have : 1 ≤ |halfEven x - n| := Int.one_le_abs (by omega)
    exact_mod_cast this
  have h3 : |(halfEven x : ℚ) - n| ≤ |x - halfEven x| + |x - n| := by
    have := abs_sub_le (halfEven x : ℚ) x n
    rw [abs_sub_comm (halfEven x : ℚ) x] at this
    exact this
  have hhalf : |x - halfEven x| = 1 / 2 := by linarith
  unfold halfEven at hhalf ⊢
  split_ifs at hhalf ⊢ with a b c
  · rw [abs_of_nonneg (by linarith)] at hhalf
    linarith
  · push_cast at hhalf
    rw [abs_of_nonpos (by linarith)] at hhalf
    linarith
  · exact c
  · omega

theorem halfEven_mono {x y : ℚ} (h : x ≤ y) : halfEven x ≤ halfEven y := by
  rcases h.eq_or_lt with rfl | h
  · exact le_refl _
  by_contra hlt
  push Not at hlt
  obtain ⟨h1, h2⟩ := halfEven_bounds x
  obtain ⟨h3, h4⟩ := halfEven_bounds y
  have : (halfEven y : ℚ) + 1 ≤ halfEven x := by exact_mod_cast hlt
  linarith

theorem halfEven_neg (x : ℚ) : halfEven (-x) = -halfEven x := by
  obtain ⟨h1, h2⟩ := halfEven_bounds x
  obtain ⟨h3, h4⟩ := halfEven_bounds (-x)
  by_contra hne
  have hn : -halfEven x ≠ halfEven (-x) := fun h => hne h.symm
  have h5 : |(-x) - ((-halfEven x : ℤ) : ℚ)| = |x - halfEven x| := by
    push_cast
    rw [show -x - -(halfEven x : ℚ) = -(x - halfEven x) by ring, abs_neg]
  have h6 : |x - ((-halfEven (-x) : ℤ) : ℚ)| = |(-x) - halfEven (-x)| := by
    push_cast
    rw [show x - -(halfEven (-x) : ℚ) = -(-x - halfEven (-x)) by ring, abs_neg]
  have h7 := halfEven_near x (-halfEven (-x))
  have h8 := halfEven_near (-x) (-halfEven x)
  have heq : |x - halfEven x| = |(-x) - halfEven (-x)| := le_antisymm (h6 ▸ h7) (h5 ▸ h8)
  have e1 := halfEven_tie hn (h5.trans heq)
  have e2 := halfEven_tie (x := x) (n := -halfEven (-x)) (by omega) (h6.trans heq.symm)
  -- both are even and differ by at most one
  have hd : (halfEven (-x) : ℚ) - -halfEven x ≤ 1 := by linarith
  have hd' : (-halfEven x : ℚ) - halfEven (-x) ≤ 1 := by linarith
  have i1 : halfEven (-x) + halfEven x ≤ 1 := by have : ((halfEven (-x) + halfEven x : ℤ) : ℚ) ≤ 1 := by push_cast; linarith
                                                 exact_mod_cast this
  have i2 : -1 ≤ halfEven (-x) + halfEven x := by have : (-1 : ℚ) ≤ ((halfEven (-x) + halfEven x : ℤ) : ℚ) := by push_cast; linarith
                                                  exact_mod_cast this
  omega

/-! ### Choices of the last place -/

/-- A choice of last places: at most 24 bits, more for larger numbers, and exactly 24 wherever it changes. -/
structure Places (g : ℤ → ℤ) : Prop where
  bits : ∀ L, L - 23 ≤ g L
  mono : ∀ {L L'}, L ≤ L' → g L ≤ g L'
  full : ∀ {L L'}, g L < g L' → g L' = L' - 23

theorem places24 : Places place24 :=
  ⟨fun _ => le_refl _, fun h => by unfold place24; omega, fun _ => rfl⟩

theorem places32 : Places place32 :=
  ⟨fun _ => by unfold place32; omega, fun h => by unfold place32; omega, fun h => by unfold place32 at *; omega⟩

/-- The multiples of a power of 2 that are among the numbers. -/
def Grid (g : ℤ → ℤ) (z : ℚ) : Prop := ∃ m k : ℤ, |m| < 2 ^ 24 ∧ g (k + 23) ≤ k ∧ z = m * 2 ^ k

theorem two_zpow_pos (k : ℤ) : (0 : ℚ) < 2 ^ k := zpow_pos (by norm_num) k

theorem zpow_split {a b : ℤ} (h : b ≤ a) : (2 : ℚ) ^ a = ((2 ^ (a - b).toNat : ℤ) : ℚ) * 2 ^ b := by
  push_cast
  rw [← zpow_natCast, ← zpow_add₀ (by norm_num)]
  congr 1
  omega

section

variable {g : ℤ → ℤ}

theorem mag_le {x : ℚ} (hx : x ≠ 0) : (2 : ℚ) ^ Int.log 2 |x| ≤ |x| := by
  have := Int.zpow_log_le_self (b := 2) (r := |x|) (by norm_num) (abs_pos.2 hx)
  simpa using this

theorem lt_mag (x : ℚ) : |x| < (2 : ℚ) ^ (Int.log 2 |x| + 1) := by
  have := Int.lt_zpow_succ_log_self (b := 2) (by norm_num) |x|
  simpa using this

theorem mag_lt_iff {x : ℚ} (hx : x ≠ 0) {k : ℤ} : |x| < (2 : ℚ) ^ k ↔ Int.log 2 |x| < k := by
  have := Int.lt_zpow_iff_log_lt (b := 2) (by norm_num) (x := k) (abs_pos.2 hx)
  simpa using this

theorem roundPlaces_zero (g : ℤ → ℤ) : roundPlaces g 0 = 0 := by
  unfold roundPlaces
  rw [zero_div, show halfEven 0 = 0 by simpa using halfEven_int 0]
  simp

theorem roundPlaces_neg (g : ℤ → ℤ) (x : ℚ) : roundPlaces g (-x) = -roundPlaces g x := by
  unfold roundPlaces
  rw [abs_neg, neg_div, halfEven_neg]
  push_cast
  ring

/-- A multiple of the last place is kept. -/
theorem roundPlaces_multiple {x : ℚ} {n : ℤ} (h : x = n * 2 ^ g (Int.log 2 |x|)) : roundPlaces g x = x := by
  unfold roundPlaces
  have hx : x / 2 ^ g (Int.log 2 |x|) = n := by
    rw [div_eq_iff (two_zpow_pos _).ne']
    exact h
  rw [hx, halfEven_int]
  exact h.symm

/-- The numbers are kept. -/
theorem roundPlaces_grid (hg : Places g) {z : ℚ} (h : Grid g z) : roundPlaces g z = z := by
  obtain ⟨m, k, hm, hk, rfl⟩ := h
  by_cases h0 : m = 0
  · subst h0
    simpa using roundPlaces_zero g
  have hne : (m * 2 ^ k : ℚ) ≠ 0 := mul_ne_zero (by exact_mod_cast h0) (two_zpow_pos k).ne'
  have hlt : |(m * 2 ^ k : ℚ)| < 2 ^ (k + 24) := by
    rw [abs_mul, abs_of_pos (two_zpow_pos k), zpow_add₀ (by norm_num), mul_comm]
    refine mul_lt_mul_of_pos_left ?_ (two_zpow_pos k)
    exact_mod_cast hm
  have hL := (mag_lt_iff hne).1 hlt
  have hle : g (Int.log 2 |(m * 2 ^ k : ℚ)|) ≤ k := (hg.mono (by omega)).trans hk
  refine roundPlaces_multiple (n := m * 2 ^ (k - g (Int.log 2 |(m * 2 ^ k : ℚ)|)).toNat) ?_
  conv_lhs => rw [zpow_split hle]
  push_cast
  ring

theorem roundPlaces_nonneg {x : ℚ} (hx : 0 ≤ x) : 0 ≤ roundPlaces g x := by
  unfold roundPlaces
  have : (0 : ℤ) ≤ halfEven (x / 2 ^ g (Int.log 2 |x|)) := by
    have h := halfEven_mono (x := 0) (y := x / 2 ^ g (Int.log 2 |x|)) (div_nonneg hx (two_zpow_pos _).le)
    rwa [show halfEven 0 = 0 by simpa using halfEven_int 0] at h
  exact mul_nonneg (by exact_mod_cast this) (two_zpow_pos _).le

theorem roundPlaces_mono_pos (hg : Places g) {x y : ℚ} (hx : 0 < x) (h : x ≤ y) : roundPlaces g x ≤ roundPlaces g y := by
  have hy : 0 < y := hx.trans_le h
  have hL : Int.log 2 |x| ≤ Int.log 2 |y| := by
    rw [abs_of_pos hx, abs_of_pos hy]
    exact Int.log_mono_right hx h
  rcases (hg.mono hL).eq_or_lt with he | hlt
  · unfold roundPlaces
    rw [he]
    refine mul_le_mul_of_nonneg_right ?_ (two_zpow_pos _).le
    exact_mod_cast halfEven_mono (div_le_div_of_nonneg_right h (two_zpow_pos _).le)
  · have hfull := hg.full hlt
    have hL' : Int.log 2 |x| < Int.log 2 |y| := by
      rcases hL.eq_or_lt with he | h
      · rw [he] at hlt; exact absurd hlt (lt_irrefl _)
      · exact h
    have hxB : x ≤ 2 ^ Int.log 2 |y| := by
      have := (mag_lt_iff hx.ne').2 hL'
      rw [abs_of_pos hx] at this
      exact this.le
    have hBy : (2 : ℚ) ^ Int.log 2 |y| ≤ y := by
      exact (mag_le hy.ne').trans (abs_of_pos hy).le
    refine le_trans (b := (2 : ℚ) ^ Int.log 2 |y|) ?_ ?_
    · have h1 : g (Int.log 2 |x|) ≤ Int.log 2 |y| := by omega
      unfold roundPlaces
      conv_rhs => rw [zpow_split h1]
      refine mul_le_mul_of_nonneg_right ?_ (two_zpow_pos _).le
      have h2 : x / 2 ^ g (Int.log 2 |x|) ≤ ((2 ^ (Int.log 2 |y| - g (Int.log 2 |x|)).toNat : ℤ) : ℚ) := by
        rw [div_le_iff₀ (two_zpow_pos _), ← zpow_split h1]
        exact hxB
      have h3 := halfEven_mono h2
      rw [halfEven_int] at h3
      exact_mod_cast h3
    · have h1 : g (Int.log 2 |y|) ≤ Int.log 2 |y| := by omega
      unfold roundPlaces
      conv_lhs => rw [zpow_split h1]
      refine mul_le_mul_of_nonneg_right ?_ (two_zpow_pos _).le
      have h2 : ((2 ^ (Int.log 2 |y| - g (Int.log 2 |y|)).toNat : ℤ) : ℚ) ≤ y / 2 ^ g (Int.log 2 |y|) := by
        rw [le_div_iff₀ (two_zpow_pos _), ← zpow_split h1]
        exact hBy
      have h3 := halfEven_mono h2
      rw [halfEven_int] at h3
      exact_mod_cast h3

theorem roundPlaces_mono (hg : Places g) {x y : ℚ} (h : x ≤ y) : roundPlaces g x ≤ roundPlaces g y := by
  rcases lt_trichotomy 0 x with hx | rfl | hx
  · exact roundPlaces_mono_pos hg hx h
  · rw [roundPlaces_zero]
    exact roundPlaces_nonneg h
  · by_cases hy : 0 ≤ y
    · have h1 := roundPlaces_nonneg (g := g) (x := -x) (by linarith)
      rw [roundPlaces_neg] at h1
      exact le_trans (by linarith) (roundPlaces_nonneg hy)
    · have h1 := roundPlaces_mono_pos hg (x := -y) (y := -x) (by linarith) (by linarith)
      rw [roundPlaces_neg, roundPlaces_neg] at h1
      linarith

/-- A rounded number is one of the numbers. -/
theorem grid_roundPlaces (hg : Places g) (x : ℚ) (hle : g (g (Int.log 2 |x|) + 23) ≤ g (Int.log 2 |x|))
    (hnext : g (g (Int.log 2 |x|) + 24) ≤ g (Int.log 2 |x|) + 1) : Grid g (roundPlaces g x) := by
  generalize hk : g (Int.log 2 |x|) = k at *
  have hround : roundPlaces g x = halfEven (x / 2 ^ k) * 2 ^ k := by unfold roundPlaces; rw [hk]
  have hb := hg.bits (Int.log 2 |x|)
  have hlt : |x / 2 ^ k| ≤ ((2 ^ 24 : ℤ) : ℚ) := by
    rw [abs_div, abs_of_pos (two_zpow_pos k), div_le_iff₀ (two_zpow_pos k)]
    refine (lt_mag x).le.trans ?_
    rw [show ((2 ^ 24 : ℤ) : ℚ) = 2 ^ (24 : ℤ) by norm_num, ← zpow_add₀ (by norm_num)]
    exact zpow_le_zpow_right₀ (by norm_num) (by omega)
  obtain ⟨l1, l2⟩ := abs_le.1 hlt
  have m1 := halfEven_mono l1
  have m2 := halfEven_mono l2
  rw [halfEven_int] at m2
  rw [show (-((2 ^ 24 : ℤ) : ℚ)) = ((-(2 ^ 24) : ℤ) : ℚ) by push_cast; rfl, halfEven_int] at m1
  have habs : |halfEven (x / 2 ^ k)| ≤ 2 ^ 24 := abs_le.2 ⟨m1, m2⟩
  rcases habs.lt_or_eq with hlt' | heq
  · exact ⟨_, k, hlt', hle, hround⟩
  · refine ⟨(halfEven (x / 2 ^ k)).sign * 2 ^ 23, k + 1, ?_, by rw [show k + 1 + 23 = k + 24 by ring]; exact hnext, ?_⟩
    · rw [abs_mul]
      have : |(halfEven (x / 2 ^ k)).sign| ≤ 1 := by
        rcases lt_trichotomy (halfEven (x / 2 ^ k)) 0 with h | h | h
        · rw [Int.sign_eq_neg_one_of_neg h]; simp
        · rw [h]; simp
        · rw [Int.sign_eq_one_of_pos h]; simp
      have h2 : |(2 ^ 23 : ℤ)| = 2 ^ 23 := by norm_num
      rw [h2]
      nlinarith
    · rw [hround]
      have h2 : halfEven (x / 2 ^ k) = (halfEven (x / 2 ^ k)).sign * 2 ^ 24 := by
        conv_lhs => rw [← Int.sign_mul_abs (halfEven (x / 2 ^ k)), heq]
      generalize hs : (halfEven (x / 2 ^ k)).sign = s at h2 ⊢
      rw [zpow_add₀ (by norm_num), h2]
      push_cast
      ring

/-- No number is nearer. -/
theorem roundPlaces_nearest (hg : Places g) (x : ℚ) {z : ℚ} (hz : Grid g z) : |x - roundPlaces g x| ≤ |x - z| := by
  obtain ⟨m, k, hm, hk, rfl⟩ := hz
  have hmult : ∀ n : ℤ, |x - roundPlaces g x| ≤ |x - n * 2 ^ g (Int.log 2 |x|)| := by
    intro n
    have h := halfEven_near (x / 2 ^ g (Int.log 2 |x|)) n
    have h1 : ∀ q : ℚ, |x - q * 2 ^ g (Int.log 2 |x|)| = |x / 2 ^ g (Int.log 2 |x|) - q| * 2 ^ g (Int.log 2 |x|) := by
      intro q
      have hp := two_zpow_pos (g (Int.log 2 |x|))
      rw [← abs_of_pos hp, ← abs_mul, abs_of_pos hp, sub_mul, div_mul_cancel₀ _ hp.ne']
    unfold roundPlaces
    rw [h1, h1]
    exact mul_le_mul_of_nonneg_right h (two_zpow_pos _).le
  by_cases hle : g (Int.log 2 |x|) ≤ k
  · rw [zpow_split hle]
    have := hmult (m * 2 ^ (k - g (Int.log 2 |x|)).toNat)
    rw [← mul_assoc]
    exact_mod_cast this
  · push Not at hle
    have hfull : g (Int.log 2 |x|) = Int.log 2 |x| - 23 := hg.full (lt_of_le_of_lt hk hle)
    by_cases hx : x = 0
    · subst hx
      rw [roundPlaces_zero]
      rw [sub_zero, abs_zero]
      exact abs_nonneg _
    have hzlt : |(m * 2 ^ k : ℚ)| < 2 ^ Int.log 2 |x| := by
      have h1 : |(m * 2 ^ k : ℚ)| < 2 ^ (24 : ℤ) * 2 ^ k := by
        rw [abs_mul, abs_of_pos (two_zpow_pos k)]
        refine mul_lt_mul_of_pos_right ?_ (two_zpow_pos k)
        exact_mod_cast hm
      rw [← zpow_add₀ (by norm_num)] at h1
      exact lt_of_lt_of_le h1 (zpow_le_zpow_right₀ (by norm_num) (by omega))
    have hmag := mag_le hx
    have hB : g (Int.log 2 |x|) ≤ Int.log 2 |x| := by omega
    rcases lt_or_gt_of_ne hx with hneg | hpos
    · have h1 := hmult (-(2 ^ (Int.log 2 |x| - g (Int.log 2 |x|)).toNat))
      push_cast at h1
      have h2 := zpow_split hB
      push_cast at h2
      rw [neg_mul, ← h2] at h1
      refine h1.trans ?_
      rw [abs_of_neg hneg] at hmag hzlt ⊢
      rw [abs_lt] at hzlt
      rw [abs_of_nonpos (by linarith), abs_of_nonpos (by linarith)]
      linarith
    · have h1 := hmult (2 ^ (Int.log 2 |x| - g (Int.log 2 |x|)).toNat)
      rw [← zpow_split hB] at h1
      refine h1.trans ?_
      rw [abs_of_pos hpos] at hmag hzlt ⊢
      rw [abs_lt] at hzlt
      rw [abs_of_nonneg (by linarith), abs_of_nonneg (by linarith)]
      linarith

/-- A number that is as near is a multiple of the same power of 2. -/
theorem tie_multiple (hg : Places g) (x : ℚ) {z : ℚ} (hz : Grid g z) (h : |x - z| ≤ |x - roundPlaces g x|) :
    ∃ n : ℤ, z = n * 2 ^ g (Int.log 2 |x|) := by
  obtain ⟨m, k, hm, hk, rfl⟩ := hz
  have hp := two_zpow_pos (g (Int.log 2 |x|))
  have h1 : ∀ q : ℚ, |x - q * 2 ^ g (Int.log 2 |x|)| = |x / 2 ^ g (Int.log 2 |x|) - q| * 2 ^ g (Int.log 2 |x|) := by
    intro q
    rw [← abs_of_pos hp, ← abs_mul, abs_of_pos hp, sub_mul, div_mul_cancel₀ _ hp.ne']
  by_cases hle : g (Int.log 2 |x|) ≤ k
  · refine ⟨m * 2 ^ (k - g (Int.log 2 |x|)).toNat, ?_⟩
    conv_lhs => rw [zpow_split hle]
    push_cast
    ring
  · push Not at hle
    have hfull : g (Int.log 2 |x|) = Int.log 2 |x| - 23 := hg.full (lt_of_le_of_lt hk hle)
    by_cases hx : x = 0
    · subst hx
      rw [roundPlaces_zero] at h
      simp only [zero_sub, abs_neg, sub_zero, abs_zero] at h
      exact ⟨0, by rw [abs_eq_zero.1 (le_antisymm h (abs_nonneg _))]; simp⟩
    exfalso
    have hzlt : |(m * 2 ^ k : ℚ)| < 2 ^ Int.log 2 |x| := by
      have h1 : |(m * 2 ^ k : ℚ)| < 2 ^ (24 : ℤ) * 2 ^ k := by
        rw [abs_mul, abs_of_pos (two_zpow_pos k)]
        refine mul_lt_mul_of_pos_right ?_ (two_zpow_pos k)
        exact_mod_cast hm
      rw [← zpow_add₀ (by norm_num)] at h1
      exact lt_of_lt_of_le h1 (zpow_le_zpow_right₀ (by norm_num) (by omega))
    have hmag := mag_le hx
    have hB : g (Int.log 2 |x|) ≤ Int.log 2 |x| := by omega
    have hmult : ∀ n : ℤ, |x - roundPlaces g x| ≤ |x - n * 2 ^ g (Int.log 2 |x|)| := by
      intro n
      have h := halfEven_near (x / 2 ^ g (Int.log 2 |x|)) n
      unfold roundPlaces
      rw [h1, h1]
      exact mul_le_mul_of_nonneg_right h hp.le
    rcases lt_or_gt_of_ne hx with hneg | hpos
    · have h1 := hmult (-(2 ^ (Int.log 2 |x| - g (Int.log 2 |x|)).toNat))
      push_cast at h1
      have h2 := zpow_split hB
      push_cast at h2
      rw [neg_mul, ← h2] at h1
      replace h1 := h.trans h1
      rw [abs_of_neg hneg] at hmag hzlt h1
      rw [abs_lt] at hzlt
      rw [abs_of_nonpos (by linarith), abs_of_nonpos (by linarith)] at h1
      linarith
    · have h1 := hmult (2 ^ (Int.log 2 |x| - g (Int.log 2 |x|)).toNat)
      rw [← zpow_split hB] at h1
      replace h1 := h.trans h1
      rw [abs_of_pos hpos] at hmag hzlt h1
      rw [abs_lt] at hzlt
      rw [abs_of_nonneg (by linarith), abs_of_nonneg (by linarith)] at h1
      linarith

/-- If another number is as near, the multiple is even. -/
theorem roundPlaces_tie (hg : Places g) (x : ℚ) {z : ℚ} (hz : Grid g z) (hne : z ≠ roundPlaces g x)
    (h : |x - z| = |x - roundPlaces g x|) : halfEven (x / 2 ^ g (Int.log 2 |x|)) % 2 = 0 := by
  obtain ⟨n, rfl⟩ := tie_multiple hg x hz h.le
  have hp := two_zpow_pos (g (Int.log 2 |x|))
  have h1 : ∀ q : ℚ, |x - q * 2 ^ g (Int.log 2 |x|)| = |x / 2 ^ g (Int.log 2 |x|) - q| * 2 ^ g (Int.log 2 |x|) := by
    intro q
    rw [← abs_of_pos hp, ← abs_mul, abs_of_pos hp, sub_mul, div_mul_cancel₀ _ hp.ne']
  refine halfEven_tie (n := n) ?_ ?_
  · intro he
    apply hne
    unfold roundPlaces
    rw [he]
  · unfold roundPlaces at h
    rw [h1, h1] at h
    exact mul_right_cancel₀ hp.ne' h

end

end Snips
