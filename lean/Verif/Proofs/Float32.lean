import Verif.Proofs.Binary32
import Verif.Proofs.Weights
import Verif.Proofs.Prog
import Verif.Proofs.Tags

namespace Snips

/-! ### The numbers of 24 bits -/

theorem grid24_iff {z : ℚ} : Grid place24 z ↔ ∃ m k : ℤ, |m| < 2 ^ 24 ∧ z = m * 2 ^ k := by
  constructor
  · rintro ⟨m, k, hm, -, rfl⟩
    exact ⟨m, k, hm, rfl⟩
  · rintro ⟨m, k, hm, rfl⟩
    exact ⟨m, k, hm, by unfold place24; omega, rfl⟩

theorem grid32_iff {z : ℚ} : Grid place32 z ↔ ∃ m k : ℤ, |m| < 2 ^ 24 ∧ -149 ≤ k ∧ z = m * 2 ^ k := by
  have : ∀ k, place32 (k + 23) ≤ k ↔ -149 ≤ k := fun k => by unfold place32; omega
  constructor
  · rintro ⟨m, k, hm, hk, rfl⟩
    exact ⟨m, k, hm, (this k).1 hk, rfl⟩
  · rintro ⟨m, k, hm, hk, rfl⟩
    exact ⟨m, k, hm, (this k).2 hk, rfl⟩

theorem grid24_round (x : ℚ) : Grid place24 (roundPlaces place24 x) :=
  grid_roundPlaces places24 x (by unfold place24; omega) (by unfold place24; omega)

theorem grid32_round (x : ℚ) : Grid place32 (roundPlaces place32 x) :=
  grid_roundPlaces places32 x (by unfold place32; omega) (by unfold place32; omega)

theorem grid24_zpow (k : ℤ) : Grid place24 (2 ^ k) := grid24_iff.2 ⟨1, k, by norm_num, by simp⟩

theorem round24_zpow (k : ℤ) : roundPlaces place24 (2 ^ k) = 2 ^ k := roundPlaces_grid places24 (grid24_zpow k)

/-- Rounding to 24 bits, without limits of the exponent. -/
def rounding24 : Rounding where
  rnd := roundPlaces place24
  mono := roundPlaces_mono places24
  idem x := roundPlaces_grid places24 (grid24_round x)
  zero := roundPlaces_zero _
  one := by simpa using round24_zpow 0
  half := by simpa using round24_zpow (-1)
  double x := by
    obtain ⟨m, k, hm, hz⟩ := grid24_iff.1 (grid24_round x)
    refine roundPlaces_grid places24 (grid24_iff.2 ⟨m, k + 1, hm, ?_⟩)
    rw [hz, zpow_add₀ (by norm_num)]
    ring
  pos {x} hx := by
    have h := roundPlaces_mono places24 (x := 2 ^ Int.log 2 |x|) (y := x) ((mag_le hx.ne').trans (abs_of_pos hx).le)
    rw [round24_zpow] at h
    exact (two_zpow_pos _).trans_le h

theorem grid32_max : Grid place32 max32 := grid32_iff.2 ⟨2 ^ 24 - 1, 104, by norm_num, by norm_num, by
  unfold max32
  push_cast
  norm_num⟩

/-- Rounding to binary32. -/
def round32 : FlRound where
  rnd := roundPlaces place32
  top := max32
  mono := roundPlaces_mono places32
  zero := roundPlaces_zero _
  one := roundPlaces_grid places32 (grid32_iff.2 ⟨1, 0, by norm_num, by norm_num, by simp⟩)
  rndTop := roundPlaces_grid places32 grid32_max
  rndBottom := by rw [roundPlaces_neg, roundPlaces_grid places32 grid32_max]
  one_le := by unfold max32; norm_num

/-- Above the subnormal numbers both roundings agree. -/
theorem round32_eq {x : ℚ} (h : x = 0 ∨ (2 : ℚ) ^ (-126 : ℤ) ≤ |x|) : roundPlaces place32 x = roundPlaces place24 x := by
  rcases h with rfl | h
  · rw [roundPlaces_zero, roundPlaces_zero]
  · have hx : x ≠ 0 := by
      rintro rfl
      rw [abs_zero] at h
      exact absurd h (not_le.2 (two_zpow_pos _))
    have hL : -126 ≤ Int.log 2 |x| := by
      by_contra hlt
      push Not at hlt
      exact absurd ((mag_lt_iff hx).2 hlt) (not_lt.2 h)
    have : place32 (Int.log 2 |x|) = place24 (Int.log 2 |x|) := by unfold place32 place24; omega
    unfold roundPlaces
    rw [this]

/-! ### Rounding to binary32 is the one of IEEE 754 -/

theorem binary32_grid {z : ℚ} (h : Binary32 z) : Grid place32 z := by
  obtain ⟨m, e, hm, h1, -, rfl⟩ := h
  exact grid32_iff.2 ⟨m, e, hm, h1, rfl⟩

theorem grid_binary32 {z : ℚ} (h : Grid place32 z) (hle : |z| ≤ max32) : Binary32 z := by
  obtain ⟨m, k, hm, hk, rfl⟩ := grid32_iff.1 h
  by_cases hk' : k ≤ 104
  · exact ⟨m, k, hm, hk, hk', rfl⟩
  · push Not at hk'
    have hs := zpow_split hk'.le
    refine ⟨m * 2 ^ (k - 104).toNat, 104, ?_, by norm_num, le_refl _, ?_⟩
    · rw [hs, ← mul_assoc, abs_mul, abs_of_pos (two_zpow_pos 104)] at hle
      unfold max32 at hle
      have h2 : |(m : ℚ) * ((2 ^ (k - 104).toNat : ℤ) : ℚ)| ≤ 2 ^ 24 - 1 := by
        have hp := two_zpow_pos 104
        rw [show (2 : ℚ) ^ 104 = 2 ^ (104 : ℤ) by norm_num] at hle
        exact le_of_mul_le_mul_right hle hp
      have h3 : |m * 2 ^ (k - 104).toNat| ≤ 2 ^ 24 - 1 := by exact_mod_cast h2
      omega
    · rw [hs]
      push_cast
      ring

/-- Half a step beyond the largest number. -/
def limit32 : ℚ := (2 ^ 25 - 1) * 2 ^ 103

theorem log_between {x : ℚ} (h1 : max32 < x) (h2 : x < 2 ^ (128 : ℤ)) : Int.log 2 |x| = 127 := by
  have hx : 0 < x := lt_trans (by unfold max32; norm_num) h1
  have a := (mag_lt_iff hx.ne' (k := 128)).1 (by rw [abs_of_pos hx]; exact h2)
  have b : ¬ Int.log 2 |x| < 127 := by
    intro h
    have := (mag_lt_iff hx.ne' (k := 127)).2 h
    rw [abs_of_pos hx] at this
    have : max32 < 2 ^ (127 : ℤ) := h1.trans this
    unfold max32 at this
    norm_num at this
  omega

theorem round32_in_range_pos {x : ℚ} (hx : 0 ≤ x) (h : x < limit32) : roundPlaces place32 x ≤ max32 := by
  by_cases hle : x ≤ max32
  · have := roundPlaces_mono places32 hle
    rwa [roundPlaces_grid places32 grid32_max] at this
  · push Not at hle
    have hL := log_between hle (h.trans (by unfold limit32; norm_num))
    have hround : roundPlaces place32 x = halfEven (x / 2 ^ (104 : ℤ)) * 2 ^ (104 : ℤ) := by
      unfold roundPlaces
      rw [hL]
      rfl
    rw [hround]
    have hb := (halfEven_bounds (x / 2 ^ (104 : ℤ))).1
    have hlt : x / 2 ^ (104 : ℤ) < 2 ^ 24 - 1 / 2 := by
      rw [div_lt_iff₀ (two_zpow_pos _)]
      refine h.trans_le ?_
      unfold limit32
      norm_num
    have h1 : (halfEven (x / 2 ^ (104 : ℤ)) : ℚ) < 2 ^ 24 := by linarith
    have h2 : halfEven (x / 2 ^ (104 : ℤ)) < 2 ^ 24 := by exact_mod_cast h1
    have h3 : (halfEven (x / 2 ^ (104 : ℤ)) : ℚ) ≤ 2 ^ 24 - 1 := by
      have : halfEven (x / 2 ^ (104 : ℤ)) ≤ 2 ^ 24 - 1 := by omega
      exact_mod_cast this
    unfold max32
    rw [show (2 : ℚ) ^ 104 = 2 ^ (104 : ℤ) by norm_num]
    exact mul_le_mul_of_nonneg_right h3 (two_zpow_pos _).le

theorem round32_in_range {x : ℚ} (h : |x| < limit32) : |roundPlaces place32 x| ≤ max32 := by
  by_cases hx : 0 ≤ x
  · rw [abs_of_nonneg hx] at h
    rw [abs_of_nonneg (roundPlaces_nonneg hx)]
    exact round32_in_range_pos hx h
  · push Not at hx
    rw [abs_of_neg hx] at h
    have h1 := round32_in_range_pos (x := -x) (by linarith) h
    have h2 := roundPlaces_nonneg (g := place32) (x := -x) (by linarith)
    rw [roundPlaces_neg] at h1 h2
    rw [abs_of_nonpos (by linarith)]
    exact h1

theorem round32_limit : roundPlaces place32 limit32 = 2 ^ (128 : ℤ) := by
  have hL : Int.log 2 |limit32| = 127 := log_between (by unfold max32 limit32; norm_num) (by unfold limit32; norm_num)
  unfold roundPlaces
  rw [hL]
  have : limit32 / 2 ^ place32 127 = ((2 ^ 24 - 1 : ℤ) : ℚ) + 1 / 2 := by
    rw [show place32 127 = 104 by decide]
    unfold limit32
    norm_num
  rw [this]
  have hf : ⌊((2 ^ 24 - 1 : ℤ) : ℚ) + 1 / 2⌋ = 2 ^ 24 - 1 := by
    rw [Int.floor_eq_iff]
    constructor <;> norm_num
  have hh : halfEven (((2 ^ 24 - 1 : ℤ) : ℚ) + 1 / 2) = 2 ^ 24 := by
    unfold halfEven
    rw [hf]
    norm_num
  rw [hh, show place32 127 = 104 by decide]
  norm_num

theorem round32_overflow {x : ℚ} (h : limit32 ≤ x) : max32 < roundPlaces place32 x := by
  have := roundPlaces_mono places32 h
  rw [round32_limit] at this
  exact lt_of_lt_of_le (by unfold max32; norm_num) this

theorem roundsTo32 {x : ℚ} (h : |x| < limit32) : RoundsTo32 x (roundPlaces place32 x) := by
  have hr := round32_in_range h
  refine ⟨grid_binary32 (grid32_round x) hr, fun z hz => roundPlaces_nearest places32 x (binary32_grid hz),
    fun z hz hne heq => ?_⟩
  have heven := roundPlaces_tie places32 x (binary32_grid hz) hne heq
  generalize hn : halfEven (x / 2 ^ place32 (Int.log 2 |x|)) = n at heven
  generalize hk : place32 (Int.log 2 |x|) = k at hn
  have hy : roundPlaces place32 x = n * 2 ^ k := by unfold roundPlaces; rw [hk, hn]
  rw [hy] at hr ⊢
  have hp := two_zpow_pos k
  have hkmin : -149 ≤ k := by rw [← hk]; unfold place32; omega
  have hle : |n| ≤ 2 ^ 24 := by
    have hlt : |x / 2 ^ k| ≤ ((2 ^ 24 : ℤ) : ℚ) := by
      rw [abs_div, abs_of_pos hp, div_le_iff₀ hp]
      refine (lt_mag x).le.trans ?_
      rw [show ((2 ^ 24 : ℤ) : ℚ) = 2 ^ (24 : ℤ) by norm_num, ← zpow_add₀ (by norm_num)]
      refine zpow_le_zpow_right₀ (by norm_num) ?_
      have := places32.bits (Int.log 2 |x|)
      omega
    obtain ⟨l1, l2⟩ := abs_le.1 hlt
    have m1 := halfEven_mono l1
    have m2 := halfEven_mono l2
    rw [halfEven_int] at m2
    rw [show (-((2 ^ 24 : ℤ) : ℚ)) = ((-(2 ^ 24) : ℤ) : ℚ) by push_cast; rfl, halfEven_int] at m1
    rw [hn] at m1 m2
    exact abs_le.2 ⟨m1, m2⟩
  have hbound : ∀ a : ℤ, ((2 ^ 23 : ℤ) : ℚ) * 2 ^ a ≤ max32 → a ≤ 104 := by
    intro a ha
    by_contra hlt
    push Not at hlt
    have h1 : (2 : ℚ) ^ (105 : ℤ) ≤ 2 ^ a := zpow_le_zpow_right₀ (by norm_num) (by omega)
    have h2 : ((2 ^ 23 : ℤ) : ℚ) * 2 ^ (105 : ℤ) ≤ max32 := le_trans (mul_le_mul_of_nonneg_left h1 (by norm_num)) ha
    unfold max32 at h2
    norm_num at h2
  rcases hle.lt_or_eq with hlt | heq'
  · by_cases hmin : k = -149
    · exact ⟨n, k, hlt, hkmin, by omega, rfl, .inr hmin, heven⟩
    · have hfull : k = Int.log 2 |x| - 23 := by rw [← hk] at hmin ⊢; unfold place32 at *; omega
      have hx : x ≠ 0 := by
        rintro rfl
        rw [zero_div, show halfEven 0 = 0 by simpa using halfEven_int 0] at hn
        subst hn
        rw [hy] at hne heq
        simp only [Int.cast_zero, zero_mul, sub_zero, zero_sub, abs_neg, abs_zero, abs_eq_zero] at heq hne
        exact hne heq
      have hge : 2 ^ 23 ≤ |n| := by
        have hmag := mag_le hx
        have h1 : ((2 ^ 23 : ℤ) : ℚ) ≤ |x| / 2 ^ k := by
          rw [le_div_iff₀ hp, show ((2 ^ 23 : ℤ) : ℚ) = 2 ^ (23 : ℤ) by norm_num, ← zpow_add₀ (by norm_num)]
          rw [show (23 : ℤ) + k = Int.log 2 |x| by omega]
          exact hmag
        have h2 := halfEven_mono h1
        rw [halfEven_int] at h2
        rcases lt_or_gt_of_ne hx with hneg | hpos
        · rw [abs_of_neg hneg, neg_div, halfEven_neg, hn] at h2
          exact h2.trans (neg_le_abs n)
        · rw [abs_of_pos hpos, hn] at h2
          exact h2.trans (le_abs_self n)
      refine ⟨n, k, hlt, hkmin, hbound k ?_, rfl, .inl hge, heven⟩
      rw [abs_mul, abs_of_pos hp] at hr
      refine le_trans (mul_le_mul_of_nonneg_right ?_ hp.le) hr
      exact_mod_cast hge
  · have h2 : n = n.sign * 2 ^ 24 := by
      conv_lhs => rw [← Int.sign_mul_abs n, heq']
    have hsign : |n.sign| = 1 := by
      have : n ≠ 0 := by rintro rfl; simp at heq'
      rcases lt_or_gt_of_ne this with h | h
      · rw [Int.sign_eq_neg_one_of_neg h]; rfl
      · rw [Int.sign_eq_one_of_pos h]; rfl
    have habs : |n.sign * 2 ^ 23| = 2 ^ 23 := by rw [abs_mul, hsign]; norm_num
    refine ⟨n.sign * 2 ^ 23, k + 1, by rw [habs]; norm_num, by omega, ?_, ?_, .inl (by rw [habs]), by omega⟩
    · apply hbound
      rw [abs_mul, abs_of_pos hp, ← Int.cast_abs, heq'] at hr
      rw [zpow_add₀ (by norm_num)]
      refine le_trans (le_of_eq ?_) hr
      push_cast
      ring
    · generalize n.sign = s at h2
      rw [zpow_add₀ (by norm_num), h2]
      push_cast
      ring

/-! ### Operations on finite numbers -/

/-- A magnitude at which nothing special happens. -/
def Ordinary (x : ℚ) : Prop := x = 0 ∨ (2 : ℚ) ^ (-126 : ℤ) ≤ x ∧ x ≤ 2 ^ (126 : ℤ)

theorem Ordinary.round {x : ℚ} (h : Ordinary x) : Fl.round round32 x = .fin (rounding24.rnd x) := by
  have heq : roundPlaces place32 x = roundPlaces place24 x := by
    rcases h with h | ⟨h1, -⟩
    · exact round32_eq (.inl h)
    · exact round32_eq (.inr (h1.trans (le_abs_self x)))
  have hnn : 0 ≤ x := by
    rcases h with rfl | ⟨h1, -⟩
    · exact le_refl _
    · exact (two_zpow_pos _).le.trans h1
  have hle : x ≤ max32 := by
    rcases h with rfl | ⟨-, h2⟩
    · unfold max32; norm_num
    · exact h2.trans (by unfold max32; norm_num)
  have h1 : roundPlaces place32 x ≤ max32 := by
    have := roundPlaces_mono places32 hle
    rwa [roundPlaces_grid places32 grid32_max] at this
  have h2 := roundPlaces_nonneg (g := place32) hnn
  have h3 : (0 : ℚ) ≤ max32 := hnn.trans hle
  unfold Fl.round
  change (if max32 < roundPlaces place32 x then _ else if roundPlaces place32 x < -max32 then _ else _) = _
  rw [if_neg (not_lt.2 h1), if_neg (by linarith)]
  change Fl.fin (roundPlaces place32 x) = Fl.fin (roundPlaces place24 x)
  rw [heq]

theorem rnd24_le_zpow {x : ℚ} {k : ℤ} (h : x ≤ 2 ^ k) : rounding24.rnd x ≤ 2 ^ k := by
  have := rounding24.mono h
  rwa [show rounding24.rnd (2 ^ k) = 2 ^ k from round24_zpow k] at this

theorem zpow_le_rnd24 {x : ℚ} {k : ℤ} (h : 2 ^ k ≤ x) : 2 ^ k ≤ rounding24.rnd x := by
  have := rounding24.mono h
  rwa [show rounding24.rnd (2 ^ k) = 2 ^ k from round24_zpow k] at this

theorem zpow_ge {a b : ℤ} (h : a ≤ b) : (2 : ℚ) ^ a ≤ 2 ^ b := zpow_le_zpow_right₀ (by norm_num) h

theorem ordinary_of {x : ℚ} {a b : ℤ} (h1 : 2 ^ a ≤ x) (h2 : x ≤ 2 ^ b) (ha : -126 ≤ a) (hb : b ≤ 126) : Ordinary x :=
  .inr ⟨(zpow_ge ha).trans h1, h2.trans (zpow_ge hb)⟩

theorem weight_bounds {n : Nat} (hn : n < 2 ^ 64) :
    flSlotWeight round32 n = .fin (slotWeight rounding24 n) ∧ (2 : ℚ) ^ (-65 : ℤ) ≤ slotWeight rounding24 n ∧
      slotWeight rounding24 n ≤ 1 := by
  have hn' : (n : ℚ) ≤ 2 ^ (64 : ℤ) := by
    rw [show (2 : ℚ) ^ (64 : ℤ) = ((2 ^ 64 : ℕ) : ℚ) by norm_num]
    exact_mod_cast hn.le
  have o1 : Ordinary (n : ℚ) := by
    by_cases h0 : n = 0
    · left; rw [h0]; rfl
    · have : (1 : ℚ) ≤ n := by exact_mod_cast Nat.one_le_iff_ne_zero.2 h0
      exact ordinary_of (a := 0) (by simpa using this) hn' (by norm_num) (by norm_num)
  have b1 : 0 ≤ rounding24.rnd n := rnd_nonneg rounding24 (by positivity)
  have b2 : rounding24.rnd n ≤ 2 ^ (64 : ℤ) := rnd24_le_zpow hn'
  have b3 : (1 : ℚ) + rounding24.rnd n ≤ 2 ^ (65 : ℤ) := by
    have : (1 : ℚ) + 2 ^ (64 : ℤ) ≤ 2 ^ (65 : ℤ) := by norm_num
    linarith
  have b3' : (2 : ℚ) ^ (0 : ℤ) ≤ 1 + rounding24.rnd n := by rw [zpow_zero]; linarith
  have o2 : Ordinary (1 + rounding24.rnd n) := ordinary_of b3' b3 (by norm_num) (by norm_num)
  have c1 := zpow_le_rnd24 b3'
  have c2 := rnd24_le_zpow b3
  rw [zpow_zero] at c1
  have cpos : 0 < rounding24.rnd (1 + rounding24.rnd n) := by linarith
  have d1 : 1 / rounding24.rnd (1 + rounding24.rnd n) ≤ 2 ^ (0 : ℤ) := by
    rw [zpow_zero, div_le_one cpos]
    exact c1
  have d2 : (2 : ℚ) ^ (-65 : ℤ) ≤ 1 / rounding24.rnd (1 + rounding24.rnd n) := by
    rw [le_div_iff₀ cpos]
    calc (2 : ℚ) ^ (-65 : ℤ) * rounding24.rnd (1 + rounding24.rnd n) ≤ 2 ^ (-65 : ℤ) * 2 ^ (65 : ℤ) :=
          mul_le_mul_of_nonneg_left c2 (two_zpow_pos _).le
      _ = 1 := by norm_num
  have o3 : Ordinary (1 / rounding24.rnd (1 + rounding24.rnd n)) := ordinary_of d2 d1 (by norm_num) (by norm_num)
  refine ⟨?_, zpow_le_rnd24 d2, (rnd24_le_zpow d1).trans_eq (zpow_zero _)⟩
  unfold flSlotWeight
  rw [o1.round]
  simp only [Fl.add]
  rw [o2.round]
  simp only [Fl.div]
  rw [if_neg cpos.ne', o3.round]
  rfl

/-- Adding a weight to 2^24 changes nothing. -/
theorem rnd24_saturates : rounding24.rnd (2 ^ 24 + 1) = 2 ^ 24 := by
  change roundPlaces place24 (2 ^ 24 + 1) = 2 ^ 24
  have hpos : (0 : ℚ) < 2 ^ 24 + 1 := by norm_num
  have hL : Int.log 2 |(2 ^ 24 + 1 : ℚ)| = 24 := by
    have a := (mag_lt_iff hpos.ne' (k := 25)).1 (by rw [abs_of_pos hpos]; norm_num)
    have b : ¬ Int.log 2 |(2 ^ 24 + 1 : ℚ)| < 24 := by
      intro h
      have := (mag_lt_iff hpos.ne' (k := 24)).2 h
      rw [abs_of_pos hpos] at this
      norm_num at this
    omega
  unfold roundPlaces
  rw [hL]
  have : ((2 : ℚ) ^ 24 + 1) / 2 ^ place24 24 = ((2 ^ 23 : ℤ) : ℚ) + 1 / 2 := by
    rw [show place24 24 = 1 by decide]
    norm_num
  rw [this]
  have hf : ⌊((2 ^ 23 : ℤ) : ℚ) + 1 / 2⌋ = 2 ^ 23 := by
    rw [Int.floor_eq_iff]
    constructor <;> norm_num
  have hh : halfEven (((2 ^ 23 : ℤ) : ℚ) + 1 / 2) = 2 ^ 23 := by
    unfold halfEven
    rw [hf]
    norm_num
  rw [hh, show place24 24 = 1 by decide]
  norm_num

theorem total_fl (ns : List Nat) (hns : ∀ n ∈ ns, n < 2 ^ 64) (acc : ℚ) (h0 : acc = 0 ∨ (2 : ℚ) ^ (-65 : ℤ) ≤ acc)
    (h1 : acc ≤ 2 ^ 24) :
    (ns.map (flSlotWeight round32)).foldl (Fl.add round32) (.fin acc)
      = .fin ((ns.map (slotWeight rounding24)).foldl (fun acc w => rounding24.rnd (acc + w)) acc) ∧
    (ns.map (slotWeight rounding24)).foldl (fun acc w => rounding24.rnd (acc + w)) acc ≤ 2 ^ 24 := by
  induction ns generalizing acc with
  | nil => exact ⟨rfl, h1⟩
  | cons n ns ih =>
    obtain ⟨w1, w2, w3⟩ := weight_bounds (hns n (by simp))
    have hacc : 0 ≤ acc := by
      rcases h0 with rfl | h
      · exact le_refl _
      · exact (two_zpow_pos _).le.trans h
    have hlow : (2 : ℚ) ^ (-65 : ℤ) ≤ acc + slotWeight rounding24 n := by linarith
    have hup : acc + slotWeight rounding24 n ≤ 2 ^ 24 + 1 := by linarith
    have ho : Ordinary (acc + slotWeight rounding24 n) :=
      ordinary_of (b := 25) hlow (hup.trans (by norm_num)) (by norm_num) (by norm_num)
    have hle : rounding24.rnd (acc + slotWeight rounding24 n) ≤ 2 ^ 24 := by
      have := rounding24.mono hup
      rwa [rnd24_saturates] at this
    simp only [List.map_cons, List.foldl_cons]
    rw [w1]
    simp only [Fl.add]
    rw [ho.round]
    exact ih (fun n hn => hns n (by simp [hn])) _ (.inr (zpow_le_rnd24 hlow)) hle

/-! ### Rankings -/

/-- A result with its finite score. -/
def InternalResult.toFl (r : InternalResult) : FlResult := ⟨r.intent.name, .fin r.intent.score, r.slots⟩

theorem partialCmp_fin (a b : ℚ) : Fl.partialCmp (.fin a) (.fin b) = some (if a < b then .lt else if a = b then .eq else .gt) :=
  rfl

theorem flInsert_fin (x : InternalResult) (l : List InternalResult) :
    flInsert x.toFl (l.map InternalResult.toFl)
      = .ok ((l.orderedInsert (fun a b => b.intent.score ≤ a.intent.score) x).map InternalResult.toFl) := by
  induction l with
  | nil => rfl
  | cons y l ih =>
    simp only [List.map_cons, flInsert, List.orderedInsert]
    change (match Fl.partialCmp (.fin y.intent.score) (.fin x.intent.score) with
      | none => _ | some .gt => _ | some _ => _) = _
    rw [partialCmp_fin]
    by_cases h : y.intent.score ≤ x.intent.score
    · rw [if_pos h]
      rcases h.lt_or_eq with h' | h'
      · rw [if_pos h']; rfl
      · rw [if_neg (by rw [h']; exact lt_irrefl _), if_pos h']; rfl
    · push Not at h
      rw [if_neg (not_le.2 h), if_neg (not_lt.2 h.le), if_neg h.ne', ih]
      rfl

theorem flSort_fin (l : List InternalResult) :
    flSort (l.map InternalResult.toFl) = .ok ((sortDesc (fun r => r.intent.score) l).map InternalResult.toFl) := by
  induction l with
  | nil => rfl
  | cons x l ih =>
    simp only [List.map_cons, flSort]
    rw [ih]
    exact flInsert_fin x _

theorem flRank_eq (rs : List InternalResult) (hs : ∀ r ∈ rs, r.slots.length < 2 ^ 64) (topN : Nat) :
    flRankByWeight round32 rs topN = .ok ((rankByWeight rounding24 rs topN).map InternalResult.toFl) := by
  have hns : ∀ n ∈ rs.map (fun r => r.slots.length), n < 2 ^ 64 := by
    intro n hn
    obtain ⟨r, hr, rfl⟩ := List.mem_map.1 hn
    exact hs r hr
  obtain ⟨t1, t2⟩ := total_fl (rs.map fun r => r.slots.length) hns 0 (.inl rfl) (by norm_num)
  simp only [List.map_map] at t1 t2
  have hmap : (rs.map fun x => (⟨x.intent.name, Fl.div round32 (flSlotWeight round32 x.slots.length)
      (flTotalWeight round32 (rs.map fun x => flSlotWeight round32 x.slots.length)), x.slots⟩ : FlResult))
      = (rs.map fun r => { r with intent := { r.intent with score := rounding24.rnd (slotWeight rounding24 r.slots.length /
          totalWeight rounding24 (rs.map fun r => slotWeight rounding24 r.slots.length)) } }).map InternalResult.toFl := by
    rw [List.map_map]
    refine List.map_congr_left fun r hr => ?_
    obtain ⟨w1, w2, w3⟩ := weight_bounds (hs r hr)
    have ht : flTotalWeight round32 (rs.map fun x => flSlotWeight round32 x.slots.length)
        = .fin (totalWeight rounding24 (rs.map fun r => slotWeight rounding24 r.slots.length)) := t1
    have hle : slotWeight rounding24 r.slots.length ≤ totalWeight rounding24 (rs.map fun r => slotWeight rounding24 r.slots.length) :=
      weight_le_total rounding24 hr
    have hup : totalWeight rounding24 (rs.map fun r => slotWeight rounding24 r.slots.length) ≤ 2 ^ (24 : ℤ) := t2
    generalize totalWeight rounding24 (rs.map fun r => slotWeight rounding24 r.slots.length) = total at ht hle hup ⊢
    rw [ht, w1]
    have hpos : 0 < total := lt_of_lt_of_le (slotWeight_pos rounding24 _) hle
    have ho : Ordinary (slotWeight rounding24 r.slots.length / total) := by
      refine ordinary_of (a := -89) (b := 0) ?_ ?_ (by norm_num) (by norm_num)
      · rw [le_div_iff₀ hpos]
        calc (2 : ℚ) ^ (-89 : ℤ) * total ≤ 2 ^ (-89 : ℤ) * 2 ^ (24 : ℤ) := mul_le_mul_of_nonneg_left hup (two_zpow_pos _).le
          _ = 2 ^ (-65 : ℤ) := by norm_num
          _ ≤ _ := w2
      · rw [zpow_zero, div_le_one hpos]
        exact hle
    simp only [Function.comp, InternalResult.toFl, Fl.div]
    rw [if_neg hpos.ne', ho.round]
  unfold flRankByWeight
  simp only
  rw [hmap, flSort_fin]
  simp only [Outcome.bind, rankByWeight, List.map_take]

theorem flMax_eq (best : InternalResult) (l : List InternalResult) (hs : ∀ r ∈ best :: l, r.slots.length < 2 ^ 64) :
    flMaxFrom round32 best l = .ok (l.foldl (fun best x =>
      if slotWeight rounding24 best.slots.length ≤ slotWeight rounding24 x.slots.length then x else best) best) := by
  induction l generalizing best with
  | nil => rfl
  | cons x l ih =>
    simp only [flMaxFrom, List.foldl_cons]
    rw [(weight_bounds (hs best (by simp))).1, (weight_bounds (hs x (by simp))).1, partialCmp_fin]
    by_cases h : slotWeight rounding24 best.slots.length ≤ slotWeight rounding24 x.slots.length
    · rw [if_pos h, ← ih x (fun r hr => hs r (by simp only [List.mem_cons] at hr ⊢; tauto))]
      rcases h.lt_or_eq with h' | h'
      · rw [if_pos h']
      · rw [if_neg (by rw [h']; exact lt_irrefl _), if_pos h']
    · push Not at h
      rw [if_neg (not_le.2 h), if_neg (not_lt.2 h.le), if_neg h.ne',
        ← ih best (fun r hr => hs r (by simp only [List.mem_cons] at hr ⊢; tauto))]

theorem flBest_eq (m : List (Text × List InternalResult)) (hs : ∀ e ∈ m, ∀ r ∈ e.2, r.slots.length < 2 ^ 64) :
    flBest round32 m = .ok (m.filterMap fun nr => maxByLast (fun r => slotWeight rounding24 r.slots.length) nr.2) := by
  induction m with
  | nil => rfl
  | cons e m ih =>
    obtain ⟨n, l⟩ := e
    have ih := ih fun e he => hs e (by simp [he])
    cases l with
    | nil => simpa [flBest, maxByLast] using ih
    | cons x xs =>
      simp only [flBest]
      rw [flMax_eq x xs (hs (n, x :: xs) (by simp)), ih]
      rfl

theorem flPick_eq (l : List InternalResult) : flPick (l.map InternalResult.toFl) = (pickUnambiguous l).toFl := by
  cases l with
  | nil => rfl
  | cons x l =>
    simp only [List.map_cons, flPick, pickUnambiguous]
    change (match Fl.partialCmp (.fin x.intent.score) (.fin (1 / 2)) with
      | some .lt => _ | some .eq => _ | _ => _) = _
    rw [partialCmp_fin]
    by_cases h : x.intent.score ≤ 1 / 2
    · rw [if_pos h]
      rcases h.lt_or_eq with h' | h'
      · rw [if_pos h']; rfl
      · rw [if_neg (by rw [h']; exact lt_irrefl _), if_pos h']; rfl
    · push Not at h
      rw [if_neg (not_le.2 h), if_neg (not_lt.2 h.le), if_neg h.ne']

end Snips
