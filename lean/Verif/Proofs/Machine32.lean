import Verif.Spec.Machine32
import Verif.Props.C92_SinglePrecision
import Verif.Proofs.Nan

/-! # Where binary32 numbers behave like numbers of 24 places -/

namespace Snips

/-! ### Rounding -/

/-- A multiple of the least positive binary32 number. -/
def Fine (x : ℚ) : Prop := ∃ n : ℤ, x = n * 2 ^ (-149 : ℤ)

theorem Fine.add {x y : ℚ} : Fine x → Fine y → Fine (x + y) := by
  rintro ⟨n, rfl⟩ ⟨m, rfl⟩
  exact ⟨n + m, by push_cast; ring⟩

theorem multiple_of_grid {m e k : ℤ} (h : k ≤ e) : ∃ n : ℤ, (m : ℚ) * 2 ^ e = n * 2 ^ k := by
  refine ⟨m * 2 ^ (e - k).toNat, ?_⟩
  rw [zpow_split h]
  push_cast
  ring

theorem Binary32.fine {x : ℚ} (h : Binary32 x) : Fine x := by
  obtain ⟨m, e, _, h1, _, rfl⟩ := h
  exact multiple_of_grid h1

theorem Binary32.grid24 {x : ℚ} (h : Binary32 x) : Grid place24 x := by
  obtain ⟨m, e, hm, _, _, rfl⟩ := h
  exact grid24_iff.2 ⟨m, e, hm, rfl⟩

/-- A number of 24 places is a multiple of the last of them. -/
theorem grid24_multiple {z : ℚ} {k : ℤ} (hz : Grid place24 z) (h : z = 0 ∨ (2 : ℚ) ^ k ≤ |z|) : ∃ n : ℤ, z = n * 2 ^ (k - 23) := by
  rcases h with rfl | h
  · exact ⟨0, by simp⟩
  · obtain ⟨m, e, hm, rfl⟩ := grid24_iff.1 hz
    apply multiple_of_grid
    rw [abs_mul, abs_of_pos (two_zpow_pos e)] at h
    have h1 : |(m : ℚ)| < 2 ^ (24 : ℤ) := by
      have : ((|m| : ℤ) : ℚ) < ((2 ^ 24 : ℤ) : ℚ) := by exact_mod_cast hm
      push_cast at this
      norm_num at this ⊢
      exact this
    have h2 : (2 : ℚ) ^ k < 2 ^ (24 + e) := by
      rw [zpow_add₀ (by norm_num)]
      exact h.trans_lt (mul_lt_mul_of_pos_right h1 (two_zpow_pos e))
    have := (zpow_lt_zpow_iff_right₀ (by norm_num : (1 : ℚ) < 2)).1 h2
    omega

theorem fine_mul {x y : ℚ} {j k : ℤ} (hx : ∃ n : ℤ, x = n * 2 ^ j) (hy : ∃ n : ℤ, y = n * 2 ^ k) (h : -149 ≤ j + k) :
    Fine (x * y) := by
  obtain ⟨n, rfl⟩ := hx
  obtain ⟨m, rfl⟩ := hy
  have := multiple_of_grid (m := n * m) h
  obtain ⟨i, hi⟩ := this
  refine ⟨i, ?_⟩
  rw [← hi, zpow_add₀ (by norm_num)]
  push_cast
  ring

/-- A number that is rounded to binary32 as if there were no limits of the exponent. -/
structure Safe (x : ℚ) : Prop where
  low : x = 0 ∨ (2 : ℚ) ^ (-126 : ℤ) ≤ |x| ∨ Fine x
  high : |x| ≤ 2 ^ (126 : ℤ)

theorem Safe.eq {x : ℚ} (h : Safe x) : roundPlaces place32 x = rounding24.rnd x := by
  change _ = roundPlaces place24 x
  by_cases hb : (2 : ℚ) ^ (-126 : ℤ) ≤ |x|
  · exact round32_eq (.inr hb)
  · rcases h.low with h0 | h1 | ⟨n, hn⟩
    · exact round32_eq (.inl h0)
    · exact absurd h1 hb
    · have hs : |n| < 2 ^ 24 := by
        rw [hn, abs_mul, abs_of_pos (two_zpow_pos _), not_le] at hb
        have h2 : |(n : ℚ)| * 2 ^ (-149 : ℤ) < 2 ^ (24 : ℤ) * 2 ^ (-149 : ℤ) := by
          rw [← zpow_add₀ (by norm_num)]
          exact hb.trans (zpow_lt_zpow_right₀ (by norm_num) (by norm_num))
        have h3 := lt_of_mul_lt_mul_right h2 (two_zpow_pos (-149)).le
        rw [show (2 : ℚ) ^ (24 : ℤ) = ((2 ^ 24 : ℤ) : ℚ) by norm_num, ← Int.cast_abs] at h3
        exact_mod_cast h3
      rw [roundPlaces_grid places32 (grid32_iff.2 ⟨n, -149, hs, le_refl _, hn⟩),
        roundPlaces_grid places24 (grid24_iff.2 ⟨n, -149, hs, hn⟩)]

theorem zpow126_le : (2 : ℚ) ^ (126 : ℤ) ≤ max32 := by unfold max32; norm_num

theorem Safe.binary32 {x : ℚ} (h : Safe x) : Binary32 (rounding24.rnd x) := by
  rw [← h.eq]
  refine grid_binary32 (grid32_round x) ?_
  have hx := h.high.trans zpow126_le
  rw [abs_le] at hx ⊢
  have h1 := roundPlaces_mono places32 hx.1
  have h2 := roundPlaces_mono places32 hx.2
  rw [roundPlaces_neg, roundPlaces_grid places32 grid32_max] at h1
  rw [roundPlaces_grid places32 grid32_max] at h2
  exact ⟨h1, h2⟩

theorem Safe.round {x : ℚ} (h : Safe x) : Fl.round round32 x = .fin (rounding24.rnd x) := by
  have hx := h.high.trans zpow126_le
  rw [abs_le] at hx
  rw [Fl.round_inRange (r := round32) hx.1 hx.2]
  exact congrArg Fl.fin h.eq

theorem rnd24_abs (x : ℚ) : |rounding24.rnd x| = rounding24.rnd |x| := by
  have hn : ∀ y : ℚ, 0 ≤ y → 0 ≤ rounding24.rnd y := fun y hy => by
    have := rounding24.mono hy
    rwa [rounding24.zero] at this
  rcases le_total 0 x with h | h
  · rw [abs_of_nonneg h, abs_of_nonneg (hn x h)]
  · have := hn (-x) (by linarith)
    rw [rnd24_neg] at this
    rw [abs_of_nonpos h, abs_of_nonpos (by linarith), rnd24_neg]

theorem rnd24_abs_le {x : ℚ} {k : ℤ} (h : |x| ≤ 2 ^ k) : |rounding24.rnd x| ≤ 2 ^ k := by
  rw [rnd24_abs]
  exact rnd24_le_zpow h

theorem le_rnd24_abs {x : ℚ} {k : ℤ} (h : 2 ^ k ≤ |x|) : 2 ^ k ≤ |rounding24.rnd x| := by
  rw [rnd24_abs]
  exact zpow_le_rnd24 h

/-- Magnitudes stay between two powers of 2. -/
theorem rnd24_between {x : ℚ} {j k : ℤ} (h : x = 0 ∨ 2 ^ j ≤ |x| ∧ |x| ≤ 2 ^ k) :
    rounding24.rnd x = 0 ∨ 2 ^ j ≤ |rounding24.rnd x| ∧ |rounding24.rnd x| ≤ 2 ^ k := by
  rcases h with rfl | ⟨h1, h2⟩
  · exact .inl rounding24.zero
  · exact .inr ⟨le_rnd24_abs h1, rnd24_abs_le h2⟩

theorem short_mul_zpow {n : Nat} (h : n < 2 ^ 24) (k : ℤ) : Short (n * 2 ^ k) := by
  refine roundPlaces_grid places24 (grid24_iff.2 ⟨n, k, ?_, by simp⟩)
  rw [abs_of_nonneg (by positivity)]
  exact_mod_cast h

theorem rnd24_abs_le_mul {x : ℚ} {n : Nat} (hn : n < 2 ^ 24) {k : ℤ} (h : |x| ≤ n * 2 ^ k) : |rounding24.rnd x| ≤ n * 2 ^ k := by
  rw [rnd24_abs]
  have := rounding24.mono h
  rwa [short_mul_zpow hn k] at this

theorem safe_between {x : ℚ} {j k : ℤ} (h : x = 0 ∨ 2 ^ j ≤ |x| ∧ |x| ≤ 2 ^ k) (hj : -126 ≤ j) (hk : k ≤ 126) : Safe x := by
  rcases h with rfl | ⟨h1, h2⟩
  · exact ⟨.inl rfl, by rw [abs_zero]; positivity⟩
  · exact ⟨.inr (.inl ((zpow_ge hj).trans h1)), h2.trans (zpow_ge hk)⟩

theorem between_mul {x y : ℚ} {i j k l : ℤ} (hx : x = 0 ∨ 2 ^ i ≤ |x| ∧ |x| ≤ 2 ^ j) (hy : y = 0 ∨ 2 ^ k ≤ |y| ∧ |y| ≤ 2 ^ l) :
    x * y = 0 ∨ (2 : ℚ) ^ (i + k) ≤ |x * y| ∧ |x * y| ≤ (2 : ℚ) ^ (j + l) := by
  rcases hx with rfl | ⟨h1, h2⟩
  · exact .inl (zero_mul _)
  · rcases hy with rfl | ⟨h3, h4⟩
    · exact .inl (mul_zero _)
    · right
      rw [abs_mul, zpow_add₀ (by norm_num), zpow_add₀ (by norm_num)]
      exact ⟨mul_le_mul h1 h3 (two_zpow_pos _).le (abs_nonneg _), mul_le_mul h2 h4 (abs_nonneg _) (two_zpow_pos _).le⟩

theorem between_mono {x : ℚ} {i j i' j' : ℤ} (h : x = 0 ∨ (2 : ℚ) ^ i ≤ |x| ∧ |x| ≤ (2 : ℚ) ^ j) (hi : i' ≤ i) (hj : j ≤ j') :
    x = 0 ∨ (2 : ℚ) ^ i' ≤ |x| ∧ |x| ≤ (2 : ℚ) ^ j' :=
  h.imp id fun h => ⟨(zpow_ge hi).trans h.1, h.2.trans (zpow_ge hj)⟩

/-! ### Inner products -/

/-- What is known of every feature. -/
structure PlainFeature (x : ℚ) : Prop where
  short : Grid place24 x
  size : x = 0 ∨ (2 : ℚ) ^ (-57 : ℤ) ≤ |x| ∧ |x| ≤ (2 : ℚ) ^ (45 : ℤ)

theorem plainFeature_zero : PlainFeature 0 := ⟨grid24_iff.2 ⟨0, 0, by norm_num, by simp⟩, .inl rfl⟩

theorem plainFeature_one : PlainFeature 1 := ⟨grid24_iff.2 ⟨1, 0, by norm_num, by simp⟩, .inr ⟨by norm_num, by norm_num⟩⟩

/-- The number of a finite value. -/
def Fl.value : Fl → ℚ
  | .fin q => q
  | _ => 0

theorem fins_value (l : List ℚ) : (fins l).map Fl.value = l := by
  unfold fins
  rw [List.map_map]
  exact List.map_id' l

/-- A pair of a feature and a coefficient. -/
def PlainPair (p : Fl × Fl) : Prop := ∃ x y : ℚ, p = (.fin x, .fin y) ∧ PlainFeature x ∧ Between32 (-40) 40 y

theorem plain_product {x y : ℚ} (hx : PlainFeature x) (hy : Between32 (-40) 40 y) :
    Fine (x * y) ∧ |x * y| ≤ 2 ^ (85 : ℤ) := by
  constructor
  · exact fine_mul (grid24_multiple hx.short (hx.size.imp id And.left)) (grid24_multiple hy.1.grid24 (hy.2.imp id And.left)) (by norm_num)
  · rcases between_mul hx.size hy.2 with h | h
    · rw [h, abs_zero]
      positivity
    · exact h.2

theorem count_bound {n : Nat} (h : n < 2 ^ 24) : (n : ℚ) * 2 ^ (85 : ℤ) ≤ 2 ^ (126 : ℤ) := by
  have : (n : ℚ) ≤ 2 ^ (24 : ℤ) := by
    have : (n : ℚ) ≤ ((2 ^ 24 : ℕ) : ℚ) := by exact_mod_cast h.le
    push_cast at this
    exact_mod_cast this
  calc (n : ℚ) * 2 ^ (85 : ℤ) ≤ 2 ^ (24 : ℤ) * 2 ^ (85 : ℤ) := mul_le_mul_of_nonneg_right this (two_zpow_pos _).le
    _ = 2 ^ (109 : ℤ) := by rw [← zpow_add₀ (by norm_num)]; norm_num
    _ ≤ 2 ^ (126 : ℤ) := zpow_ge (by norm_num)

/-- The inner product of features and coefficients is a number, and one that a machine without limits of the exponent
could compute. -/
theorem dotted32_dotted {l : List (Fl × Fl)} {z : Fl} (h : Dotted32 l z) (hl : ∀ p ∈ l, PlainPair p) (hn : l.length < 2 ^ 24) :
    ∃ q, z = .fin q ∧ Dotted (l.map fun p => (p.1.value, p.2.value)) q ∧ Binary32 q ∧ |q| ≤ l.length * 2 ^ (85 : ℤ) := by
  induction h with
  | nil => exact ⟨0, rfl, .nil, ⟨0, 0, by norm_num, by norm_num, by norm_num, by simp⟩, by simp⟩
  | product x y =>
    obtain ⟨a, b, h, ha, hb⟩ := hl (x, y) (by simp)
    cases h
    obtain ⟨h1, h2⟩ := plain_product ha hb
    have hs : Safe (a * b) := ⟨.inr (.inr h1), h2.trans (zpow_ge (by norm_num))⟩
    refine ⟨_, hs.round, .product a b, hs.binary32, ?_⟩
    have := rnd24_abs_le h2
    simpa using this
  | @fused l a x y hd ih =>
    obtain ⟨x', y', h, hx, hy⟩ := hl (.fin x, .fin y) (by simp)
    cases h
    rw [List.length_cons] at hn
    obtain ⟨q, hq, hdot, hb, hle⟩ := ih (fun p hp => hl p (by simp [hp])) (by omega)
    cases hq
    obtain ⟨h1, h2⟩ := plain_product hx hy
    have hsum : |a + x * y| ≤ ((l.length + 1 : Nat) : ℚ) * 2 ^ (85 : ℤ) := by
      refine (abs_add_le _ _).trans ?_
      push_cast
      rw [add_mul, one_mul]
      exact add_le_add hle h2
    have hs : Safe (a + x * y) := ⟨.inr (.inr (hb.fine.add h1)), hsum.trans (count_bound hn)⟩
    exact ⟨_, hs.round, .fused x y hdot, hs.binary32, rnd24_abs_le_mul hn hsum⟩
  | @sum l l' a b hd hd' ih ih' =>
    rw [List.length_append] at hn
    obtain ⟨q, rfl, hdot, hb, hle⟩ := ih (fun p hp => hl p (by simp [hp])) (by omega)
    obtain ⟨q', rfl, hdot', hb', hle'⟩ := ih' (fun p hp => hl p (by simp [hp])) (by omega)
    have hsum : |q + q'| ≤ ((l.length + l'.length : Nat) : ℚ) * 2 ^ (85 : ℤ) := by
      refine (abs_add_le _ _).trans ?_
      push_cast
      rw [add_mul]
      exact add_le_add hle hle'
    have hs : Safe (q + q') := ⟨.inr (.inr (hb.fine.add hb'.fine)), hsum.trans (count_bound hn)⟩
    refine ⟨_, hs.round, ?_, hs.binary32, ?_⟩
    · rw [List.map_append]
      exact .sum hdot hdot'
    · rw [List.length_append]
      exact rnd24_abs_le_mul hn hsum
  | @perm l l' a hd hp ih =>
    obtain ⟨q, rfl, hdot, hb, hle⟩ := ih (fun p h => hl p (hp.mem_iff.1 h)) (by rw [hp.length_eq]; exact hn)
    exact ⟨q, rfl, hdot.perm (hp.map _), hb, by rw [← hp.length_eq]; exact hle⟩

/-! ### The machine without limits of the exponent -/

open Classical in
/-- The machine without limits of the exponent that computes the same roots and inner products where it can. -/
noncomputable def ops24 (ops : FloatOps Fl) : FloatOps ℚ :=
  { leftToRight with
    sqrt := fun x => if h : ∃ y : ℚ, ops.sqrt (.fin x) = .fin y ∧ |(y : ℝ) - Real.sqrt x| ≤ 1 / 2 ^ 24 * Real.sqrt x
      then h.choose else leftToRight.sqrt x
    dot := fun a b => if h : ∃ q : ℚ, ops.dot (fins a) (fins b) = .fin q ∧ Dotted (a.zip b) q then h.choose
      else leftToRight.dot a b }

theorem ops24_machine (ops : FloatOps Fl) : MachineOps (ops24 ops) where
  zero := rfl
  one := rfl
  add _ _ := rfl
  sub _ _ := rfl
  mul _ _ := rfl
  div _ _ := rfl
  neg _ := rfl
  exp := leftToRight_machine.exp
  sqrt x hx := by
    unfold ops24
    dsimp only
    split
    · rename_i h
      exact h.choose_spec.2
    · exact leftToRight_machine.sqrt x hx
  pos := leftToRight_machine.pos
  dot a b := by
    unfold ops24
    dsimp only
    split
    · rename_i h
      exact h.choose_spec.2
    · exact leftToRight_machine.dot a b

section
variable {ops : FloatOps Fl} (hops : Machine32 ops)
include hops

theorem sqrt32_eq {x : ℚ} (hx : Binary32 x) (h0 : 0 ≤ x) : ops.sqrt (.fin x) = .fin ((ops24 ops).sqrt x) := by
  have h := hops.sqrt x hx h0
  have e : (ops24 ops).sqrt x = h.choose := dif_pos h
  rw [e]
  exact h.choose_spec.1

theorem dot32_eq {a b : List ℚ} (ha : ∀ x ∈ a, PlainFeature x) (hb : ∀ y ∈ b, Between32 (-40) 40 y) (hn : a.length < 2 ^ 24) :
    ops.dot (fins a) (fins b) = .fin ((ops24 ops).dot a b) ∧ Binary32 ((ops24 ops).dot a b) := by
  have hz : (fins a).zip (fins b) = (a.zip b).map fun p => (Fl.fin p.1, Fl.fin p.2) := List.zip_map ..
  obtain ⟨q, hq, hd, hbin, _⟩ := dotted32_dotted (hops.dot (fins a) (fins b))
    (by
      rw [hz]
      intro p hp
      obtain ⟨⟨x, y⟩, hxy, rfl⟩ := List.mem_map.1 hp
      exact ⟨x, y, rfl, ha x (List.of_mem_zip hxy).1, hb y (List.of_mem_zip hxy).2⟩)
    (by
      rw [List.length_zip]
      exact (min_le_left _ _).trans_lt (by unfold fins; rw [List.length_map]; exact hn))
  rw [hz, List.map_map] at hd
  have hid : (a.zip b).map ((fun p : Fl × Fl => (p.1.value, p.2.value)) ∘ fun p : ℚ × ℚ => (Fl.fin p.1, Fl.fin p.2)) = a.zip b :=
    List.map_id' _
  rw [hid] at hd
  have h : ∃ q : ℚ, ops.dot (fins a) (fins b) = .fin q ∧ Dotted (a.zip b) q := ⟨q, hq, hd⟩
  have e : (ops24 ops).dot a b = h.choose := dif_pos h
  have e2 : h.choose = q := Fl.fin.inj (h.choose_spec.1.symm.trans hq)
  rw [e, e2]
  exact ⟨hq, hbin⟩

/-! ### The features -/

theorem addOnes32 (k : Nat) (hk : k < 2 ^ 24) : addOnes ops k ops.zero = .fin k := by
  induction k with
  | zero => rw [addOnes, Function.iterate_zero, id, hops.zero]; rfl
  | succ k ih =>
    have := ih (by omega)
    unfold addOnes at this ⊢
    rw [Function.iterate_succ_apply', this, hops.add, hops.one]
    have hs : Safe ((k : ℚ) + 1) := by
      refine safe_between (j := 0) (k := 24) (.inr ?_) (by norm_num) (by norm_num)
      rw [abs_of_nonneg (by positivity)]
      constructor
      · have : (0 : ℚ) ≤ k := by positivity
        norm_num
      · have : ((k + 1 : Nat) : ℚ) ≤ ((2 ^ 24 : Nat) : ℚ) := by exact_mod_cast hk.le
        push_cast at this
        exact_mod_cast this
    refine hs.round.trans ?_
    have := short_nat hk
    push_cast at this ⊢
    exact congrArg Fl.fin this

/-- The size of a term before the normalization. -/
def RawSize (x : ℚ) : Prop := x = 0 ∨ (2 : ℚ) ^ (-10 : ℤ) ≤ |x| ∧ |x| ≤ (2 : ℚ) ^ (34 : ℤ)

theorem rawVector32 (v : Tfidf ℚ) (hidf : ∀ d ∈ v.idf, Between32 (-10) 10 d) (n : Nat) (words : List Text)
    (hw : words.length < 2 ^ 24) :
    rawVector ops v.toFl n words = fins (rawVector (ops24 ops) v n words) ∧
    ∀ x ∈ rawVector (ops24 ops) v n words, RawSize x ∧ Grid place24 x := by
  have hz : (ops24 ops).zero = 0 := rfl
  have key : ∀ ix, ∃ x : ℚ, (if termCount v.toFl.vocabulary words ix = 0 then ops.zero else (v.toFl.idf[ix]?).elim ops.zero
        (fun d => ops.mul (addOnes ops (termCount v.toFl.vocabulary words ix) ops.zero) d)) = .fin x ∧
      (if termCount v.vocabulary words ix = 0 then (ops24 ops).zero else (v.idf[ix]?).elim (ops24 ops).zero
        (fun d => (ops24 ops).mul (addOnes (ops24 ops) (termCount v.vocabulary words ix) (ops24 ops).zero) d)) = x ∧
      RawSize x ∧ Grid place24 x := by
    intro ix
    change ∃ x : ℚ, (if termCount v.vocabulary words ix = 0 then _ else _) = _ ∧ _
    by_cases h0 : termCount v.vocabulary words ix = 0
    · rw [if_pos h0, if_pos h0, hops.zero, hz]
      exact ⟨0, rfl, rfl, .inl rfl, plainFeature_zero.short⟩
    · rw [if_neg h0, if_neg h0]
      have hi : v.toFl.idf[ix]? = (v.idf[ix]?).map Fl.fin := List.getElem?_map ..
      rw [hi]
      cases hd : v.idf[ix]? with
      | none =>
        rw [Option.map_none, Option.elim_none, Option.elim_none, hops.zero, hz]
        exact ⟨0, rfl, rfl, .inl rfl, plainFeature_zero.short⟩
      | some d =>
        rw [Option.map_some, Option.elim_some, Option.elim_some]
        have hc : termCount v.vocabulary words ix < 2 ^ 24 := (List.length_filter_le _ _).trans_lt hw
        have hb := hidf d (List.mem_of_getElem? hd)
        change ∃ x : ℚ, ops.mul (addOnes ops (termCount v.vocabulary words ix) ops.zero) (.fin d) = _ ∧ _
        rw [addOnes32 hops _ hc, addOnes_machine (ops24_machine ops) _ hc, hops.mul, (ops24_machine ops).mul]
        generalize termCount v.vocabulary words ix = k at h0 hc
        have hk : ((k : ℚ)) = 0 ∨ (2 : ℚ) ^ (0 : ℤ) ≤ |(k : ℚ)| ∧ |(k : ℚ)| ≤ (2 : ℚ) ^ (24 : ℤ) := by
          right
          rw [abs_of_nonneg (by positivity)]
          constructor
          · have : ((1 : Nat) : ℚ) ≤ k := by exact_mod_cast Nat.one_le_iff_ne_zero.2 h0
            simpa using this
          · have : (k : ℚ) ≤ ((2 ^ 24 : Nat) : ℚ) := by exact_mod_cast hc.le
            push_cast at this
            exact_mod_cast this
        have hm := between_mul hk hb.2
        refine ⟨_, (safe_between hm (by norm_num) (by norm_num)).round, rfl, ?_, grid24_round _⟩
        have := rnd24_between hm
        norm_num at this ⊢
        exact between_mono (by norm_num; exact this) (le_refl _) (le_refl _)
  constructor
  · unfold rawVector fins
    rw [List.map_map]
    apply List.map_congr_left
    intro ix _
    obtain ⟨x, h1, h2, _⟩ := key ix
    rw [h1, Function.comp_apply, h2]
  · intro x hx
    unfold rawVector at hx
    obtain ⟨ix, _, rfl⟩ := List.mem_map.1 hx
    obtain ⟨x, _, h2, h3⟩ := key ix
    rw [h2]
    exact h3

theorem norm32 (l : List ℚ) (hl : ∀ x ∈ l, RawSize x) : ∀ (n : Nat) (acc : ℚ), Binary32 acc → 0 ≤ acc →
    (acc = 0 ∨ (2 : ℚ) ^ (-20 : ℤ) ≤ |acc|) → |acc| ≤ n * 2 ^ (68 : ℤ) → n + l.length < 2 ^ 24 →
    ∃ a : ℚ, (fins l).foldl (fun norm v => ops.add norm (ops.mul v v)) (.fin acc) = .fin a ∧
      l.foldl (fun norm v => (ops24 ops).add norm ((ops24 ops).mul v v)) acc = a ∧
      Binary32 a ∧ 0 ≤ a ∧ (a = 0 ∨ (2 : ℚ) ^ (-20 : ℤ) ≤ |a|) ∧ |a| ≤ ((n + l.length : Nat) : ℚ) * 2 ^ (68 : ℤ) := by
  induction l with
  | nil =>
    intro n acc h1 h2 h3 h4 _
    exact ⟨acc, rfl, rfl, h1, h2, h3, by simpa using h4⟩
  | cons v l ih =>
    intro n acc h1 h2 h3 h4 hn
    rw [List.length_cons] at hn
    have hv := hl v (by simp)
    have hm := between_mul hv hv
    have hsm := safe_between hm (by norm_num) (by norm_num)
    have hp : 0 ≤ rounding24.rnd (v * v) := by
      have := rounding24.mono (mul_self_nonneg v)
      rwa [rounding24.zero] at this
    have hrm := rnd24_between hm
    have hple : |rounding24.rnd (v * v)| ≤ 2 ^ (68 : ℤ) := by
      rcases hrm with h | h
      · rw [h, abs_zero]; positivity
      · exact h.2.trans (zpow_ge (by norm_num))
    have hsum : |acc + rounding24.rnd (v * v)| ≤ ((n + 1 : Nat) : ℚ) * 2 ^ (68 : ℤ) := by
      refine (abs_add_le _ _).trans ?_
      push_cast
      rw [add_mul, one_mul]
      exact add_le_add h4 hple
    have hss : Safe (acc + rounding24.rnd (v * v)) := by
      refine ⟨.inr (.inr (h1.fine.add hsm.binary32.fine)), hsum.trans ?_⟩
      refine le_trans ?_ (count_bound (show n + 1 < 2 ^ 24 by omega))
      exact mul_le_mul_of_nonneg_left (zpow_ge (by norm_num)) (by positivity)
    have hge : acc + rounding24.rnd (v * v) = 0 ∨ (2 : ℚ) ^ (-20 : ℤ) ≤ |acc + rounding24.rnd (v * v)| := by
      rw [abs_of_nonneg (add_nonneg h2 hp)]
      rcases hrm with h | h
      · rw [h, add_zero]
        rwa [abs_of_nonneg h2] at h3
      · right
        have := h.1
        rw [abs_of_nonneg hp] at this
        have e : (2 : ℚ) ^ (-20 : ℤ) ≤ rounding24.rnd (v * v) := by
          refine le_trans (zpow_ge ?_) this
          norm_num
        linarith
    have hstep : ops.add (.fin acc) (ops.mul (.fin v) (.fin v)) = .fin (rounding24.rnd (acc + rounding24.rnd (v * v))) := by
      rw [hops.mul, hops.add]
      change Fl.add round32 (.fin acc) (Fl.round round32 (v * v)) = _
      rw [hsm.round]
      exact hss.round
    obtain ⟨a, ha, ha', hb, hc, hd, he⟩ := ih (fun x hx => hl x (by simp [hx])) (n + 1)
      (rounding24.rnd (acc + rounding24.rnd (v * v))) hss.binary32
      (by
        have := rounding24.mono (add_nonneg h2 hp)
        rwa [rounding24.zero] at this)
      (by
        rcases hge with h | h
        · rw [h, rounding24.zero]; exact .inl rfl
        · exact .inr (le_rnd24_abs h))
      (rnd24_abs_le_mul (by omega) hsum) (by omega)
    refine ⟨a, ?_, ?_, hb, hc, hd, ?_⟩
    · change (fins l).foldl _ (ops.add (.fin acc) (ops.mul (.fin v) (.fin v))) = _
      rw [hstep]
      exact ha
    · rw [List.foldl_cons, (ops24_machine ops).add, (ops24_machine ops).mul]
      exact ha'
    · rw [List.length_cons, show n + (l.length + 1) = n + 1 + l.length by omega]
      exact he

theorem normalize32 (l : List ℚ) (hl : ∀ x ∈ l, RawSize x ∧ Grid place24 x) (hn : l.length < 2 ^ 24) :
    normalizeVector ops (fins l) = fins (normalizeVector (ops24 ops) l) ∧
    ∀ x ∈ normalizeVector (ops24 ops) l, PlainFeature x := by
  obtain ⟨a, h1, h2, hb, h0, hlow, hhigh⟩ := norm32 hops l (fun x hx => (hl x hx).1) 0 0
    ⟨0, 0, by norm_num, by norm_num, by norm_num, by simp⟩ le_rfl (.inl rfl) (by simp) (by omega)
  rw [Nat.zero_add] at hhigh
  have hz : (ops24 ops).zero = 0 := rfl
  unfold normalizeVector
  rw [hops.zero, hz]
  simp only [h1, h2, sqrt32_eq hops hb h0, hops.pos, hops.one]
  have herr := (ops24_machine ops).sqrt a h0
  generalize hy : (ops24 ops).sqrt a = y at herr
  have hsize : y = 0 ∨ (2 : ℚ) ^ (-11 : ℤ) ≤ y ∧ y ≤ (2 : ℚ) ^ (47 : ℤ) := by
    rw [abs_of_nonneg h0] at hlow hhigh
    rcases hlow with rfl | hlow
    · left
      rw [Rat.cast_zero, Real.sqrt_zero, mul_zero, sub_zero] at herr
      have := abs_nonpos_iff.1 herr
      exact_mod_cast this
    · right
      have hal : ((2 : ℝ) ^ (-10 : ℤ)) ^ 2 ≤ (a : ℝ) := by
        have : (((2 : ℚ) ^ (-20 : ℤ) : ℚ) : ℝ) ≤ a := Rat.cast_le.2 hlow
        push_cast at this
        rw [← zpow_natCast, ← zpow_mul]
        exact this
      have hah : (a : ℝ) ≤ ((2 : ℝ) ^ (46 : ℤ)) ^ 2 := by
        have h3 : a ≤ 2 ^ (92 : ℤ) := by
          refine hhigh.trans ?_
          have : (l.length : ℚ) ≤ 2 ^ (24 : ℤ) := by
            have : (l.length : ℚ) ≤ ((2 ^ 24 : Nat) : ℚ) := by exact_mod_cast hn.le
            push_cast at this
            exact_mod_cast this
          calc (l.length : ℚ) * 2 ^ (68 : ℤ) ≤ 2 ^ (24 : ℤ) * 2 ^ (68 : ℤ) := mul_le_mul_of_nonneg_right this (two_zpow_pos _).le
            _ = 2 ^ (92 : ℤ) := by rw [← zpow_add₀ (by norm_num)]; norm_num
        have : (a : ℝ) ≤ (((2 : ℚ) ^ (92 : ℤ) : ℚ) : ℝ) := Rat.cast_le.2 h3
        norm_num at this ⊢
        exact this
      have s1 : (2 : ℝ) ^ (-10 : ℤ) ≤ Real.sqrt a := Real.le_sqrt_of_sq_le hal
      have s2 : Real.sqrt a ≤ (2 : ℝ) ^ (46 : ℤ) := Real.sqrt_le_iff.2 ⟨by positivity, hah⟩
      rw [abs_le] at herr
      have r1 : ((2 : ℝ) ^ (-11 : ℤ)) ≤ y := by norm_num at s1 herr ⊢; linarith [herr.1]
      have r2 : (y : ℝ) ≤ (2 : ℝ) ^ (47 : ℤ) := by norm_num at s2 herr ⊢; linarith [herr.2]
      constructor
      · have : (((2 : ℚ) ^ (-11 : ℤ) : ℚ) : ℝ) ≤ y := by push_cast; exact r1
        exact_mod_cast this
      · have : (y : ℝ) ≤ (((2 : ℚ) ^ (47 : ℤ) : ℚ) : ℝ) := by norm_num at r2 ⊢; exact r2
        exact_mod_cast this
  have hsafe : ∃ t : ℚ, (if Fl.isPos (.fin y) then Fl.fin y else Fl.fin 1) = .fin t ∧
      (if (ops24 ops).pos y then y else (ops24 ops).one) = t ∧ (2 : ℚ) ^ (-11 : ℤ) ≤ t ∧ t ≤ (2 : ℚ) ^ (47 : ℤ) := by
    rcases hsize with rfl | h
    · refine ⟨1, if_neg (by simp [Fl.isPos]), if_neg ?_, by norm_num, by norm_num⟩
      rw [(ops24_machine ops).pos]
      exact lt_irrefl 0
    · have hp : 0 < y := (two_zpow_pos _).trans_le h.1
      exact ⟨y, if_pos (by simp [Fl.isPos, hp]), if_pos (((ops24_machine ops).pos y).2 hp), h⟩
  obtain ⟨t, ht, ht', t1, t2⟩ := hsafe
  rw [ht, ht']
  have tpos : 0 < t := (two_zpow_pos _).trans_le t1
  have hdiv : ∀ x ∈ l, Safe (x / t) ∧ PlainFeature (rounding24.rnd (x / t)) := by
    intro x hx
    have hti : t⁻¹ = 0 ∨ (2 : ℚ) ^ (-47 : ℤ) ≤ |t⁻¹| ∧ |t⁻¹| ≤ (2 : ℚ) ^ (11 : ℤ) := by
      right
      rw [abs_of_pos (inv_pos.2 tpos)]
      constructor
      · rw [zpow_neg]
        exact inv_anti₀ tpos t2
      · have := inv_anti₀ (two_zpow_pos (-11)) t1
        rwa [← zpow_neg, neg_neg] at this
    have hm := between_mul (hl x hx).1 hti
    rw [← div_eq_mul_inv] at hm
    refine ⟨safe_between hm (by norm_num) (by norm_num), grid24_round _, ?_⟩
    exact between_mono (rnd24_between hm) (by norm_num) (by norm_num)
  constructor
  · unfold fins
    rw [List.map_map, List.map_map]
    apply List.map_congr_left
    intro x hx
    rw [Function.comp_apply, Function.comp_apply, hops.div, (ops24_machine ops).div]
    change (if t = 0 then _ else Fl.round round32 (x / t)) = _
    rw [if_neg tpos.ne', (hdiv x hx).1.round]
  · intro x hx
    obtain ⟨z, hz, rfl⟩ := List.mem_map.1 hx
    rw [(ops24_machine ops).div]
    exact (hdiv z hz).2

theorem tfidf32 {env : FeatEnv} {o : HashOrd} {v : Tfidf ℚ} (hidf : ∀ d ∈ v.idf, Between32 (-10) 10 d) {utterance : Text} {w : World}
    (hfew : FewWords env w v utterance) {xs : List ℝ} (h : (v.toReal.transform realOps env o utterance).run w = .ok xs)
    (hn : xs.length < 2 ^ 24) :
    ∃ l : List ℚ, (v.toFl.transform ops env o utterance).run w = .ok (fins l) ∧
      (v.transform (ops24 ops) env o utterance).run w = .ok l ∧ ∀ x ∈ l, PlainFeature x := by
  obtain ⟨bs, cs, he⟩ := tfidf_run_ok h
  have he1 : TfidfEntities w v utterance bs cs := he
  have he2 : TfidfEntities w v.toFl utterance bs cs := he
  obtain ⟨words, hw, hr⟩ := tfidf_run realOps env o v.toReal utterance w bs cs he
  obtain ⟨words1, hw1, hr1⟩ := tfidf_run (ops24 ops) env o v utterance w bs cs he1
  obtain ⟨words2, hw2, hr2⟩ := tfidf_run ops env o v.toFl utterance w bs cs he2
  have hp : words.Perm words1 := hw.trans hw1.symm
  have hp2 : words2.Perm words1 := hw2.trans hw1.symm
  have hraw : ∀ n, rawVector ops v.toFl n words2 = rawVector ops v.toFl n words1 := by
    intro n
    unfold rawVector
    apply List.map_congr_left
    intro ix _
    rw [termCount_perm hp2]
  have hlen1 : v.toReal.idf.length = v.idf.length := List.length_map ..
  have hlen2 : v.toFl.idf.length = v.idf.length := List.length_map ..
  have hv1 : v.toReal.vocabulary = v.vocabulary := rfl
  have hv2 : v.toFl.vocabulary = v.vocabulary := rfl
  rw [hr, tfidfVector_eq] at h
  rw [hr1, hr2, tfidfVector_eq, tfidfVector_eq]
  have c1 : (∀ ix, 0 < termCount v.vocabulary words ix → ix < v.toReal.idf.length) ↔
      ∀ ix, 0 < termCount v.vocabulary words1 ix → ix < v.idf.length := by
    simp only [hlen1, termCount_perm hp]
  have c2 : (∀ ix, 0 < termCount v.vocabulary words2 ix → ix < v.toFl.idf.length) ↔
      ∀ ix, 0 < termCount v.vocabulary words1 ix → ix < v.idf.length := by
    simp only [hlen2, termCount_perm hp2]
  rw [hv1] at h
  rw [hv2]
  cases hm : (v.vocabulary.map Prod.snd).max? with
  | none => rw [hm] at h; cases h
  | some m =>
    rw [hm] at h
    simp only at h ⊢
    by_cases hall : ∀ ix, 0 < termCount v.vocabulary words1 ix → ix < v.idf.length
    · rw [if_pos (c1.2 hall)] at h
      rw [if_pos (c2.2 hall), if_pos hall]
      cases h
      have hl : m + 1 < 2 ^ 24 := by
        unfold normalizeVector rawVector at hn
        simpa using hn
      obtain ⟨a1, a2⟩ := rawVector32 hops v hidf (m + 1) words1 (hfew bs cs words1 he1 hw1)
      obtain ⟨b1, b2⟩ := normalize32 hops _ a2 (by unfold rawVector; rw [List.length_map, List.length_range]; exact hl)
      refine ⟨_, ?_, rfl, b2⟩
      rw [hraw, a1, b1]
    · rw [if_neg fun h' => hall (c1.1 h')] at h
      cases h

omit hops in
theorem setPairs_map {F G : Type} (φ : F → G) {opsF : FloatOps F} {opsG : FloatOps G} (h1 : φ opsF.one = opsG.one)
    (table : Map (Text × Text) Nat) (pairs : List (Text × Text)) (features : List F) :
    setPairs opsG table pairs (features.map φ) = (setPairs opsF table pairs features).map (List.map φ) := by
  induction pairs generalizing features with
  | nil => rfl
  | cons p pairs ih =>
    unfold setPairs
    cases table.get p with
    | none => exact ih features
    | some ix =>
      simp only [List.length_map]
      by_cases hix : ix < features.length
      · rw [if_pos hix, if_pos hix, ← ih, List.map_set, h1]
      · rw [if_neg hix, if_neg hix]
        rfl

omit hops in
theorem setPairs_mem {F : Type} {ops : FloatOps F} {table : Map (Text × Text) Nat} {pairs : List (Text × Text)} {features out : List F}
    (h : setPairs ops table pairs features = .ok out) : ∀ x ∈ out, x ∈ features ∨ x = ops.one := by
  induction pairs generalizing features with
  | nil => cases h; exact fun x hx => .inl hx
  | cons p pairs ih =>
    unfold setPairs at h
    cases hp : table.get p with
    | none => rw [hp] at h; exact ih h
    | some ix =>
      rw [hp] at h
      simp only at h
      split at h
      · intro x hx
        rcases ih h x hx with h1 | h1
        · exact List.mem_or_eq_of_mem_set h1
        · exact .inr h1
      · cases h

theorem cooc32 {env : FeatEnv} {o : HashOrd} {v : Cooc} {utterance : Text} {w : World} {xs : List ℝ}
    (h : (v.transform realOps env o utterance).run w = .ok xs) :
    ∃ l : List ℚ, (v.transform ops env o utterance).run w = .ok (fins l) ∧
      (v.transform (ops24 ops) env o utterance).run w = .ok l ∧ ∀ x ∈ l, PlainFeature x := by
  unfold Cooc.transform at h ⊢
  rw [Prog.run_builtinCached_ok] at h
  obtain ⟨bs, hb, h⟩ := h
  rw [Prog.run_custom_ok] at h
  obtain ⟨cs, hc, h⟩ := h
  rw [Prog.run_ofOutcome] at h
  simp only [Outcome.bind_eq, Outcome.bind_ok] at h
  obtain ⟨e, he, ps, hp, h⟩ := h
  have hz : List.replicate v.wordPairs.length realOps.zero
      = (List.replicate v.wordPairs.length (0 : ℚ)).map fun q : ℚ => (q : ℝ) := by
    rw [List.map_replicate]
    simp [realOps]
  rw [hz, setPairs_map (opsF := ops24 ops) (fun q : ℚ => (q : ℝ)) (by simp [ops24, leftToRight, realOps])] at h
  obtain ⟨l, hl⟩ : ∃ l, setPairs (ops24 ops) v.wordPairs ps (List.replicate v.wordPairs.length (0 : ℚ)) = .ok l := by
    cases hs : setPairs (ops24 ops) v.wordPairs ps (List.replicate v.wordPairs.length (0 : ℚ)) with
    | ok l => exact ⟨l, rfl⟩
    | err e => rw [hs] at h; cases h
    | panic => rw [hs] at h; cases h
  refine ⟨l, ?_, ?_, ?_⟩
  · rw [Prog.run_builtinCached_ok]
    refine ⟨bs, hb, ?_⟩
    rw [Prog.run_custom_ok]
    refine ⟨cs, hc, ?_⟩
    rw [Prog.run_ofOutcome]
    simp only [Outcome.bind_eq, Outcome.bind_ok]
    refine ⟨e, he, ps, hp, ?_⟩
    have hz' : List.replicate v.wordPairs.length ops.zero = (List.replicate v.wordPairs.length (0 : ℚ)).map Fl.fin := by
      rw [List.map_replicate, hops.zero]
    rw [hz', setPairs_map (opsF := ops24 ops) Fl.fin hops.one.symm, hl]
    rfl
  · rw [Prog.run_builtinCached_ok]
    refine ⟨bs, hb, ?_⟩
    rw [Prog.run_custom_ok]
    refine ⟨cs, hc, ?_⟩
    rw [Prog.run_ofOutcome]
    simp only [Outcome.bind_eq, Outcome.bind_ok]
    exact ⟨e, he, ps, hp, hl⟩
  · intro x hx
    rcases setPairs_mem hl x hx with h1 | h1
    · rw [List.eq_of_mem_replicate h1]
      exact plainFeature_zero
    · rw [h1]
      exact plainFeature_one

/-- The features in binary32 are numbers near the exact ones. -/
theorem features32 {env : FeatEnv} {o : HashOrd} {f : Featurizer ℚ} (hidf : ∀ d ∈ f.tfidf.idf, Between32 (-10) 10 d) {input : Text}
    {w : World} (hfew : FewWords env w f.tfidf input) {xs : List ℝ}
    (h : (f.toReal.transform realOps env o input).run w = .ok xs) (hn : xs.length < 2 ^ 24) :
    ∃ l : List ℚ, (f.toFl.transform ops env o input).run w = .ok (fins l) ∧ (∀ x ∈ l, PlainFeature x) ∧
      List.Forall₂ (fun a x => Scaled ((activeFeatures xs + 4) / 2 + 3) ((a : ℚ) : ℝ) x) l xs := by
  have key : ∃ l : List ℚ, (f.toFl.transform ops env o input).run w = .ok (fins l) ∧
      (f.transform (ops24 ops) env o input).run w = .ok l ∧ ∀ x ∈ l, PlainFeature x := by
    unfold Featurizer.transform at h ⊢
    rw [Prog.run_bind, Outcome.bind_ok] at h
    obtain ⟨t, ht, h⟩ := h
    change ((match f.cooc with
      | none => Prog.ret t
      | some v => (v.transform realOps env o input).bind fun more => .ret (t ++ more) : Prog (List ℝ))).run w = .ok xs at h
    change ∃ l : List ℚ, (((f.tfidf.toFl.transform ops env o input).bind fun features => match f.cooc with
      | none => .ret features
      | some v => (v.transform ops env o input).bind fun more => .ret (features ++ more) : Prog (List Fl))).run w = _ ∧ _
    cases hf : f.cooc with
    | none =>
      rw [hf] at h
      cases h
      obtain ⟨l, h1, h2, h3⟩ := tfidf32 hops hidf hfew ht hn
      refine ⟨l, ?_, ?_, h3⟩
      · rw [Prog.run_bind, h1]
        rfl
      · rw [Prog.run_bind, h2]
        rfl
    | some v =>
      rw [hf] at h
      simp only [Prog.run_bind, Outcome.bind_ok] at h
      obtain ⟨more, hm, h⟩ := h
      cases h
      rw [List.length_append] at hn
      obtain ⟨l, h1, h2, h3⟩ := tfidf32 hops hidf hfew ht (by omega)
      obtain ⟨l', h1', h2', h3'⟩ := cooc32 hops hm
      refine ⟨l ++ l', ?_, ?_, ?_⟩
      · simp only [Prog.run_bind, Outcome.bind_ok]
        refine ⟨_, h1, _, h1', ?_⟩
        unfold fins
        rw [List.map_append]
        rfl
      · simp only [Prog.run_bind, Outcome.bind_ok]
        exact ⟨_, h2, _, h2', rfl⟩
      · intro x hx
        rcases List.mem_append.1 hx with h | h
        · exact h3 x h
        · exact h3' x h
  obtain ⟨l, h1, h2, h3⟩ := key
  obtain ⟨xs', hx', hs⟩ := features_scaled (ops24_machine ops) hfew h2
  rw [h] at hx'
  cases hx'
  exact ⟨l, h1, h3, hs⟩

/-! ### The logistic function -/

theorem logit32 {z : ℚ} (hz : Binary32 z) :
    ∃ p : ℚ, logit ops (.fin z) = .fin p ∧ Binary32 p ∧ 0 ≤ p ∧ p ≤ 1 ∧ |(p : ℝ) - sigmoid z| ≤ 6 / 2 ^ 23 := by
  have hz' : Binary32 (-z) := by
    obtain ⟨m, e, hm, h1, h2, rfl⟩ := hz
    exact ⟨-m, e, by rwa [abs_neg], h1, h2, by push_cast; ring⟩
  have hb0 : Binary32 0 := ⟨0, 0, by norm_num, by norm_num, by norm_num, by simp⟩
  have hs0 := sigmoid_pos (z : ℝ)
  have hE := Real.exp_pos (-(z : ℝ))
  have hsle : sigmoid z ≤ (Real.exp (-(z : ℝ)))⁻¹ := by
    unfold sigmoid
    rw [one_div]
    exact inv_anti₀ hE (by linarith)
  have hsge : 1 - Real.exp (-(z : ℝ)) ≤ sigmoid z := by
    unfold sigmoid
    rw [le_div_iff₀ (by linarith)]
    nlinarith
  have hs1 := sigmoid_lt_one (z : ℝ)
  unfold logit
  rw [hops.neg, hops.one, hops.add, hops.div]
  change ∃ p, Fl.div round32 (.fin 1) (Fl.add round32 (.fin 1) (ops.exp (.fin (-z)))) = _ ∧ _
  -- a great exponential
  have hgreat : (2 : ℝ) ^ 99 ≤ Real.exp (-(z : ℝ)) → ∀ d : Fl, (d = .inf false ∨ ∃ q : ℚ, d = .fin q ∧ 2 ^ 99 ≤ q) →
      ∃ p : ℚ, Fl.div round32 (.fin 1) d = .fin p ∧ Binary32 p ∧ 0 ≤ p ∧ p ≤ 1 ∧ |(p : ℝ) - sigmoid z| ≤ 6 / 2 ^ 23 := by
    intro hg d hd
    have hsm : sigmoid z ≤ 1 / 2 ^ 99 := by
      have := inv_anti₀ (by positivity) hg
      rw [one_div]
      linarith
    rcases hd with rfl | ⟨q, rfl, hq⟩
    · refine ⟨0, rfl, hb0, le_rfl, zero_le_one, ?_⟩
      rw [Rat.cast_zero, zero_sub, abs_neg, abs_of_pos hs0]
      norm_num at hsm ⊢
      linarith
    · have hq1 : (1 : ℚ) ≤ q := by norm_num at hq; linarith
      obtain ⟨h1, h2, h3⟩ := Fl.one_div_fin (r := round32) hq1
      refine ⟨_, h1, ?_, h2, h3, ?_⟩
      · refine grid_binary32 (grid32_round _) ?_
        rw [abs_of_nonneg h2]
        exact h3.trans (by unfold max32; norm_num)
      · have hle : round32.rnd (1 / q) ≤ 1 / 2 ^ 99 := by
          have hq0 : (1 : ℚ) / q ≤ 1 / 2 ^ 99 := one_div_le_one_div_of_le (by positivity) hq
          have := round32.mono hq0
          have e : round32.rnd (1 / 2 ^ 99) = 1 / 2 ^ 99 :=
            roundPlaces_grid places32 (grid32_iff.2 ⟨1, -99, by norm_num, by norm_num, by norm_num⟩)
          rwa [e] at this
        have hle' : ((round32.rnd (1 / q) : ℚ) : ℝ) ≤ 1 / 2 ^ 99 := by
          have : ((round32.rnd (1 / q) : ℚ) : ℝ) ≤ (((1 : ℚ) / 2 ^ 99 : ℚ) : ℝ) := Rat.cast_le.2 hle
          push_cast at this
          exact this
        have h0 : (0 : ℝ) ≤ ((round32.rnd (1 / q) : ℚ) : ℝ) := by exact_mod_cast h2
        generalize ((round32.rnd (1 / q) : ℚ) : ℝ) = t at hle' h0
        rw [abs_le]
        norm_num at hle' hsm ⊢
        constructor <;> linarith
  rcases hops.exp (-z) hz' with ⟨y, hy, hy0, herr⟩ | ⟨hy, hbig⟩
  · rw [hy]
    push_cast at herr
    rw [abs_le] at herr
    by_cases hyb : y < 2 ^ 100
    · have hsum : Safe (1 + y) := by
        refine safe_between (j := 0) (k := 101) (.inr ?_) (by norm_num) (by norm_num)
        rw [abs_of_nonneg (by linarith)]
        norm_num at hyb ⊢
        constructor <;> linarith
      have hd1 : 1 ≤ rounding24.rnd (1 + y) := by
        have := rounding24.mono (show (1 : ℚ) ≤ 1 + y by linarith)
        rwa [rounding24.one] at this
      have hd2 : rounding24.rnd (1 + y) ≤ 2 ^ (101 : ℤ) := by
        apply rnd24_le_zpow
        norm_num at hyb ⊢
        linarith
      have hinv : Safe (1 / rounding24.rnd (1 + y)) := by
        refine safe_between (j := -101) (k := 0) (.inr ?_) (by norm_num) (by norm_num)
        rw [abs_of_nonneg (by positivity), zpow_neg, ← one_div, zpow_zero]
        exact ⟨one_div_le_one_div_of_le (by linarith) hd2, (div_le_one (by linarith)).2 hd1⟩
      have hadd : Fl.add round32 (.fin 1) (.fin y) = .fin (rounding24.rnd (1 + y)) := hsum.round
      have hdiv : Fl.div round32 (.fin 1) (.fin (rounding24.rnd (1 + y))) = .fin (rounding24.rnd (1 / rounding24.rnd (1 + y))) := by
        change (if rounding24.rnd (1 + y) = 0 then _ else Fl.round round32 _) = _
        rw [if_neg (by linarith), hinv.round]
      rw [hadd, hdiv]
      refine ⟨_, rfl, hinv.binary32, ?_, ?_, ?_⟩
      · have := rounding24.mono (show (0 : ℚ) ≤ 1 / rounding24.rnd (1 + y) by positivity)
        rwa [rounding24.zero] at this
      · have := rounding24.mono (show 1 / rounding24.rnd (1 + y) ≤ (1 : ℚ) from (div_le_one (by linarith)).2 hd1)
        rwa [rounding24.one] at this
      · -- the exponential as a factor, up to an amount that is lost
        by_cases hys : y ≤ 1 / 2 ^ 24
        · have hr : rounding24.rnd (1 + y) = 1 := by
            apply le_antisymm _ hd1
            have := rounding24.mono (show 1 + y ≤ 1 + 1 / 2 ^ 24 by linarith)
            rwa [rnd24_one_add] at this
          rw [hr, div_one, rounding24.one, Rat.cast_one]
          have hysr : (y : ℝ) ≤ 1 / 2 ^ 24 := by
            have : (y : ℝ) ≤ ((1 / 2 ^ 24 : ℚ) : ℝ) := Rat.cast_le.2 hys
            push_cast at this
            exact this
          have hEs : Real.exp (-(z : ℝ)) ≤ 2 / 2 ^ 24 := by
            norm_num at herr hysr ⊢
            linarith [herr.1]
          rw [abs_le]
          norm_num at hEs ⊢
          constructor <;> linarith
        · push Not at hys
          have hysr : (1 : ℝ) / 2 ^ 24 < y := by
            have : ((1 / 2 ^ 24 : ℚ) : ℝ) < y := Rat.cast_lt.2 hys
            push_cast at this
            exact this
          have hEl : (1 : ℝ) / 2 ^ 25 ≤ Real.exp (-(z : ℝ)) := by
            norm_num at herr hysr ⊢
            linarith [herr.2]
          have hrel : |(y : ℝ) - Real.exp (-(z : ℝ))| ≤ (1 / 2 ^ 22 + 1 / 2 ^ 60) * Real.exp (-(z : ℝ)) := by
            rw [abs_le]
            norm_num at herr hEl ⊢
            constructor <;> linarith [herr.1, herr.2]
          have hsc : Scaled 3 (y : ℝ) (Real.exp (-(z : ℝ))) := by
            refine scaled_of_error hE.le hrel ?_ ?_
            · rw [inv_le_iff_one_le_mul₀ (pow24_pos 3)]
              unfold unit24
              norm_num
            · unfold unit24
              norm_num
          have h2 := (Scaled.refl 3 1).add zero_le_one hE.le hsc
          have h3 := scaled_rnd (1 + y)
          push_cast at h3
          have h4 := (Scaled.refl 0 1).div (h3.trans h2)
          have h5 := scaled_rnd (1 / rounding24.rnd (1 + y))
          push_cast at h5
          have h6 : Scaled 5 ((rounding24.rnd (1 / rounding24.rnd (1 + y)) : ℚ) : ℝ) (sigmoid z) := (h5.trans h4).mono (by omega)
          have h7 := h6.abs_sub
          rw [abs_of_pos hs0] at h7
          have hu : unit24 ^ 5 - 1 ≤ 6 / 2 ^ 23 := by unfold unit24; norm_num
          exact h7.trans ((mul_le_of_le_one_right (by linarith [pow24_ge 5]) hs1.le).trans hu)
    · push Not at hyb
      have hybr : (2 : ℝ) ^ 100 ≤ y := by
        have : ((2 ^ 100 : ℚ) : ℝ) ≤ y := Rat.cast_le.2 hyb
        push_cast at this
        exact this
      refine hgreat ?_ _ ?_
      · norm_num at herr hybr ⊢
        linarith [herr.2]
      · have hsum : (2 : ℚ) ^ 99 ≤ round32.rnd (1 + y) := by
          have := round32.mono (show (2 : ℚ) ^ 99 ≤ 1 + y by norm_num at hyb ⊢; linarith)
          have e : round32.rnd (2 ^ 99) = 2 ^ 99 :=
            roundPlaces_grid places32 (grid32_iff.2 ⟨1, 99, by norm_num, by norm_num, by norm_num⟩)
          rwa [e] at this
        rcases Fl.round_nonneg (r := round32) (show (0 : ℚ) ≤ 1 + y by linarith) with h | h
        · exact .inl h
        · exact .inr ⟨_, h, hsum⟩
  · rw [hy]
    refine hgreat ?_ _ (.inl rfl)
    push_cast at hbig
    norm_num at hbig ⊢
    linarith

/-- A score. -/
theorem score32 {z : ℚ} (hz : Binary32 z) (y e : ℝ) (h : |(z : ℝ) - y| ≤ e) :
    ∃ p p' : ℚ, logit ops (.fin z) = .fin p ∧ ops.sub ops.one (logit ops (.fin z)) = .fin p' ∧
      (0 ≤ p ∧ p ≤ 1) ∧ (0 ≤ p' ∧ p' ≤ 1) ∧
      |(p : ℝ) - sigmoid y| ≤ 1 / 2 ^ 20 + e / 4 ∧ |(p' : ℝ) - (1 - sigmoid y)| ≤ 1 / 2 ^ 20 + e / 4 := by
  obtain ⟨p, hp, hb, h0, h1, herr⟩ := logit32 hops hz
  have h2 := sigmoid_lipschitz z y
  have hA : |(p : ℝ) - sigmoid y| ≤ 6 / 2 ^ 23 + e / 4 := by
    have := abs_sub_le (p : ℝ) (sigmoid z) (sigmoid y)
    linarith
  have hs : Safe (1 + -p) := by
    refine ⟨.inr (.inr (Fine.add (Binary32.fine ⟨1, 0, by norm_num, by norm_num, by norm_num, by norm_num⟩) ?_)), ?_⟩
    · obtain ⟨n, hn⟩ := hb.fine
      exact ⟨-n, by rw [hn]; push_cast; ring⟩
    · rw [abs_of_nonneg (by linarith)]
      norm_num
      linarith
  refine ⟨p, rounding24.rnd (1 + -p), hp, ?_, ⟨h0, h1⟩, ⟨?_, ?_⟩, hA.trans (by norm_num), ?_⟩
  · rw [hp, hops.one, hops.sub]
    exact hs.round
  · have := rounding24.mono (show (0 : ℚ) ≤ 1 + -p by linarith)
    rwa [rounding24.zero] at this
  · have := rounding24.mono (show 1 + -p ≤ (1 : ℚ) by linarith)
    rwa [rounding24.one] at this
  · have h3 := (scaled_rnd (1 + -p)).abs_sub
    push_cast at h3
    have hu1 : unit24 ^ 1 - 1 = 1 / 2 ^ 23 := by unfold unit24; norm_num
    rw [hu1] at h3
    have hp0 : (0 : ℝ) ≤ p := by exact_mod_cast h0
    have hp1 : (p : ℝ) ≤ 1 := by exact_mod_cast h1
    have hb1 : |(1 : ℝ) + -p| ≤ 1 := by rw [abs_le]; constructor <;> linarith
    have h3' : |((rounding24.rnd (1 + -p) : ℚ) : ℝ) - (1 + -p)| ≤ 1 / 2 ^ 23 := by
      refine h3.trans ?_
      linarith
    have := abs_sub_le ((rounding24.rnd (1 + -p) : ℚ) : ℝ) (1 + -p) (1 - sigmoid y)
    have e1 : (1 : ℝ) + -p - (1 - sigmoid y) = -((p : ℝ) - sigmoid y) := by ring
    rw [e1, abs_neg] at this
    refine this.trans ((add_le_add h3' hA).trans ?_)
    rw [← add_assoc]
    norm_num

/-! ### The regression -/

omit hops in
theorem coeffColumn_map {F G : Type} (φ : F → G) {coeffs : List (List F)} {n j : Nat} {col : List F}
    (h : coeffColumn coeffs n j = .ok col) : coeffColumn (coeffs.map (List.map φ)) n j = .ok (col.map φ) := by
  unfold coeffColumn at h ⊢
  rw [mapOutcome_ok_iff] at h ⊢
  rw [List.forall₂_map_right_iff]
  refine h.imp fun i q hq => ?_
  rw [unwrap_ok] at hq ⊢
  rw [List.getElem?_map]
  cases hr : coeffs[j]? with
  | none => rw [hr] at hq; cases hq
  | some row =>
    rw [hr] at hq
    simp only [Option.bind_some] at hq
    simp only [Option.map_some, Option.bind_some]
    rw [List.getElem?_map, hq]
    rfl

omit hops in
theorem logReg_map {F G : Type} (φ : F → G) {intercept : List F} {coeffs : List (List F)} {m : LogReg F}
    (h : LogReg.new intercept coeffs = .ok m) :
    LogReg.new (intercept.map φ) (coeffs.map (List.map φ)) = .ok ⟨m.nbFeatures, m.columns.map (List.map φ)⟩ := by
  obtain ⟨⟨first, hf, hn⟩, hcols⟩ := logRegNew_ok h
  unfold LogReg.new
  simp only [Outcome.bind_eq, Outcome.bind_ok]
  refine ⟨first.map φ, ?_, m.columns.map (List.map φ), ?_, ?_⟩
  · rw [unwrap_ok, List.getElem?_map, hf]
    rfl
  · rw [mapOutcome_ok_iff, List.length_map, List.length_map]
    have hz : (List.range intercept.length).zip (intercept.map φ)
        = ((List.range intercept.length).zip intercept).map (Prod.map id φ) := List.zip_map_right ..
    rw [hz, List.forall₂_map_left_iff, List.forall₂_map_right_iff]
    refine hcols.imp ?_
    rintro ⟨j, b⟩ col ⟨c, hc, rfl⟩
    rw [Outcome.bind_ok]
    rw [hn] at hc
    exact ⟨c.map φ, coeffColumn_map φ hc, rfl⟩
  · rw [List.length_map, hn]

omit hops in
/-- A regression of finite numbers comes from one of rational numbers. -/
theorem logReg_fins {intercept : List ℚ} {coeffs : List (List ℚ)} {m : LogReg Fl}
    (h : LogReg.new (fins intercept) (coeffs.map fins) = .ok m) :
    ∃ m' : LogReg ℚ, LogReg.new intercept coeffs = .ok m' ∧ m = ⟨m'.nbFeatures, m'.columns.map fins⟩ := by
  have h1 := logReg_map Fl.value h
  rw [fins_value, List.map_map, show (List.map Fl.value ∘ fins) = id from funext fins_value, List.map_id] at h1
  refine ⟨_, h1, ?_⟩
  have h2 := logReg_map Fl.fin h1
  exact Outcome.ok.inj (h.symm.trans h2)

/-- The scores of the regression. -/
theorem run32 {intercept : List ℚ} {coeffs : List (List ℚ)} {m : LogReg ℚ} (hm : LogReg.new intercept coeffs = .ok m)
    (hi : ∀ b ∈ intercept, Between32 (-40) 40 b) (hc : ∀ row ∈ coeffs, ∀ c ∈ row, Between32 (-40) 40 c)
    {l : List ℚ} {xs : List ℝ} (h : List.Forall₂ (fun a x => Scaled ((activeFeatures xs + 4) / 2 + 3) ((a : ℚ) : ℝ) x) l xs)
    (hl : ∀ x ∈ l, PlainFeature x) (hn : xs.length + 1 < 2 ^ 24)
    {s : List ℝ} (hs : LogReg.run realOps ⟨m.nbFeatures, m.columns.map reals⟩ xs = .ok s) :
    ∃ scores : List ℚ, LogReg.run ops ⟨m.nbFeatures, m.columns.map fins⟩ (fins l) = .ok (fins scores) ∧ scores.length = s.length ∧
      (∀ p ∈ scores, 0 ≤ p ∧ p ≤ 1) ∧
      ∀ (j : Nat) (p : ℚ) (q : ℝ), scores[j]? = some p → s[j]? = some q →
        ∃ e, ScoreError (reals intercept) (coeffs.map reals) xs j e ∧ |(p : ℝ) - q| ≤ e := by
  obtain ⟨hxl, h1, h2⟩ := run_ok hs
  simp only at hxl
  obtain ⟨_, hcols⟩ := logRegNew_ok hm
  have hlen : m.columns.length = intercept.length := by rw [← hcols.length_eq]; simp
  have hil : (reals intercept).length = intercept.length := List.length_map ..
  have hll : l.length = m.nbFeatures := by rw [h.length_eq, hxl]
  have hfl : (fins l).length = m.nbFeatures := by unfold fins; rw [List.length_map, hll]
  have hcolumn : ∀ (j : Nat) (col : List ℚ), m.columns[j]? = some col →
      ∃ (z : ℚ) (mass : ℝ), ops.dot (ops.one :: fins l) (fins col) = .fin z ∧ Binary32 z ∧
        LinearMass (reals intercept) (coeffs.map reals) xs j mass ∧
        |(z : ℝ) - realOps.dot (realOps.one :: xs) (reals col)| ≤ linearMargin (activeFeatures xs) * mass := by
    intro j col hcj
    have hjl : j < intercept.length := by rw [← hlen]; exact (List.getElem?_eq_some_iff.1 hcj).1
    have hzip : ((List.range intercept.length).zip intercept)[j]? = some (j, intercept[j]) := by
      rw [List.getElem?_zip_eq_some]
      exact ⟨by simp [hjl], List.getElem?_eq_getElem hjl⟩
    obtain ⟨col', hcol', row, hrow, hcc⟩ := forall₂_getElem? hcols hzip
    rw [hcj] at hcol'
    cases hcol'
    obtain ⟨hrl, hri⟩ := coeffColumn_ok (coeffColumn_reals hrow)
    obtain ⟨hrl', hri'⟩ := coeffColumn_ok hrow
    have hbetween : ∀ y ∈ col, Between32 (-40) 40 y := by
      rw [hcc]
      intro y hy
      rcases List.mem_cons.1 hy with rfl | hy
      · exact hi _ (List.getElem_mem hjl)
      · obtain ⟨i, hi'⟩ := List.mem_iff_getElem?.1 hy
        have hlt : i < m.nbFeatures := by rw [← hrl']; exact (List.getElem?_eq_some_iff.1 hi').1
        have := hri' i hlt
        rw [hi'] at this
        obtain ⟨r, hr, hri2⟩ := Option.bind_eq_some_iff.1 this
        exact hc r (List.mem_of_getElem? hr) y (List.mem_of_getElem? hri2)
    have hones : ops.one :: fins l = fins (1 :: l) := by rw [hops.one]; rfl
    obtain ⟨hd1, hd2⟩ := dot32_eq hops (a := 1 :: l) (b := col)
      (fun x hx => by rcases List.mem_cons.1 hx with rfl | hx; exacts [plainFeature_one, hl x hx]) hbetween
      (by rw [List.length_cons, hll, ← hxl]; exact hn)
    refine ⟨_, _, by rw [hones]; exact hd1, hd2, ⟨(intercept[j] : ℝ), reals row, ?_, ?_, ?_, rfl⟩, ?_⟩
    · unfold reals
      rw [List.getElem?_map, List.getElem?_eq_getElem hjl]
      rfl
    · rw [hrl, hxl]
    · intro i hi
      exact hri i (by omega)
    · have := linear_error (ops24_machine ops) h intercept[j] row
      rw [hcc]
      have hd : realOps.dot (realOps.one :: xs) (reals (intercept[j] :: row))
          = intercept[j] + (List.zipWith (· * ·) xs (reals row)).sum := by
        simp [realOps, reals]
      rw [hd]
      exact this
  by_cases hone : m.columns.length = 1
  · obtain ⟨col, hcol⟩ := List.length_eq_one_iff.1 hone
    obtain ⟨z, mass, hz, hb, hmass, herr⟩ := hcolumn 0 col (by rw [hcol]; rfl)
    obtain ⟨p, p', e1, e2, b1, b2, r1, r2⟩ := score32 hops hb _ _ herr
    have hs' := h2 (reals col) (by simp only; rw [hcol]; rfl)
    refine ⟨[p', p], ?_, by rw [hs']; rfl, ?_, ?_⟩
    · unfold LogReg.run
      rw [if_neg (not_not.2 hfl)]
      simp only [hcol, List.map_cons, List.map_nil, hz, e1]
      rw [e1] at e2
      rw [e2]
      rfl
    · intro q hq
      rcases List.mem_cons.1 hq with rfl | hq
      · exact b2
      · rw [List.mem_singleton.1 hq]
        exact b1
    · intro j p0 q hp hq
      refine ⟨_, ⟨mass, ?_, rfl⟩, ?_⟩
      · rw [if_pos (by rw [hil, ← hlen, hone])]
        exact hmass
      · rw [hs'] at hq
        match j, hp, hq with
        | 0, hp, hq =>
          cases hp
          cases hq
          exact r2
        | 1, hp, hq =>
          cases hp
          cases hq
          exact r1
  · have hs' := h1 (by simpa using hone)
    have hscore : ∀ col ∈ m.columns, ∃ p : ℚ, logit ops (ops.dot (ops.one :: fins l) (fins col)) = .fin p ∧ 0 ≤ p ∧ p ≤ 1 := by
      intro col hcol
      obtain ⟨j, hj⟩ := List.mem_iff_getElem?.1 hcol
      obtain ⟨z, mass, hz, hb, hmass, herr⟩ := hcolumn j col hj
      obtain ⟨p, _, e1, _, b1, _⟩ := score32 hops hb _ _ herr
      exact ⟨p, by rw [hz, e1], b1⟩
    refine ⟨m.columns.map fun col => (logit ops (ops.dot (ops.one :: fins l) (fins col))).value, ?_, ?_, ?_, ?_⟩
    · rw [run_many (m := ⟨m.nbFeatures, m.columns.map fins⟩) hfl (by simpa using hone)]
      congr 1
      unfold fins
      rw [List.map_map, List.map_map]
      apply List.map_congr_left
      intro col hcol
      obtain ⟨p, hp, _⟩ := hscore col hcol
      unfold fins at hp
      simp only [Function.comp_apply]
      rw [hp]
      rfl
    · rw [hs']
      simp
    · intro p hp
      obtain ⟨col, hcol, rfl⟩ := List.mem_map.1 hp
      obtain ⟨p, hp, b⟩ := hscore col hcol
      rw [hp]
      exact b
    · intro j p q hp hq
      rw [hs', List.getElem?_map, List.getElem?_map] at hq
      rw [List.getElem?_map] at hp
      cases hcj : m.columns[j]? with
      | none => rw [hcj] at hp; simp at hp
      | some col =>
        rw [hcj] at hp hq
        obtain ⟨z, mass, hz, hb, hmass, herr⟩ := hcolumn j col hcj
        obtain ⟨p1, _, e1, _, _, _, r1, _⟩ := score32 hops hb _ _ herr
        refine ⟨_, ⟨mass, ?_, rfl⟩, ?_⟩
        · rw [if_neg (by rw [hil, ← hlen]; exact hone)]
          exact hmass
        · cases hp
          cases hq
          simp only
          rw [hz, e1]
          exact r1

end

end Snips
