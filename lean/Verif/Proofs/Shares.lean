import Mathlib.Algebra.Order.Ring.Pow
import Verif.Proofs.Float32
import Verif.Spec.Shares
import Verif.Props.C36_Rankings

/-! Rounding errors of the confidences. -/

namespace Snips

theorem relError24 : rounding24.RelError (1 / 2 ^ 24) := by
  refine ⟨by norm_num, by norm_num, fun x hx => ?_⟩
  rcases hx.eq_or_lt with rfl | hpos
  · rw [rounding24.zero]; simp
  · have hp := two_zpow_pos (Int.log 2 |x| - 23)
    obtain ⟨h1, h2⟩ := halfEven_bounds (x / 2 ^ (Int.log 2 |x| - 23))
    have hm := (mag_le hpos.ne').trans (abs_of_pos hpos).le
    have hr : rounding24.rnd x = halfEven (x / 2 ^ (Int.log 2 |x| - 23)) * 2 ^ (Int.log 2 |x| - 23) := rfl
    have hx' : x / 2 ^ (Int.log 2 |x| - 23) * 2 ^ (Int.log 2 |x| - 23) = x := div_mul_cancel₀ _ hp.ne'
    have hstep : (2 : ℚ) ^ (Int.log 2 |x| - 23) ≤ x / 2 ^ 23 := by
      rw [zpow_sub₀ (by norm_num), le_div_iff₀ (by norm_num)]
      calc (2 : ℚ) ^ Int.log 2 |x| / 2 ^ (23 : ℤ) * 2 ^ 23 = 2 ^ Int.log 2 |x| := by
            rw [show (2 : ℚ) ^ (23 : ℤ) = 2 ^ 23 by norm_num]; exact div_mul_cancel₀ _ (by norm_num)
        _ ≤ x := hm
    have e1 := mul_le_mul_of_nonneg_right h1 hp.le
    have e2 := mul_le_mul_of_nonneg_right h2 hp.le
    rw [hr]
    constructor <;> nlinarith

attribute [local irreducible] rounding24

/-- Each of two numbers is at most `c ^ j` times the other. -/
structure Near (c : ℚ) (j : Nat) (x y : ℚ) : Prop where
  le : x ≤ c ^ j * y
  ge : y ≤ c ^ j * x

section
variable {c : ℚ} (hc : 1 ≤ c)
include hc

theorem Near.trans {i j : Nat} {x y z : ℚ} (h : Near c i x y) (h' : Near c j y z) : Near c (i + j) x z := by
  have h1 : 0 ≤ c ^ i := by positivity
  have h2 : 0 ≤ c ^ j := by positivity
  constructor
  · calc x ≤ c ^ i * y := h.le
      _ ≤ c ^ i * (c ^ j * z) := mul_le_mul_of_nonneg_left h'.le h1
      _ = c ^ (i + j) * z := by rw [pow_add]; ring
  · calc z ≤ c ^ j * y := h'.ge
      _ ≤ c ^ j * (c ^ i * x) := mul_le_mul_of_nonneg_left h.ge h2
      _ = c ^ (i + j) * x := by rw [pow_add]; ring

theorem Near.one_add {j : Nat} {x y : ℚ} (h : Near c j x y) : Near c j (1 + x) (1 + y) := by
  have h1 : 1 ≤ c ^ j := one_le_pow₀ hc
  exact ⟨by have := h.le; linarith, by have := h.ge; linarith⟩

omit hc in
theorem Near.div {i j : Nat} {x y u v : ℚ} (hx : 0 < x) (hy : 0 < y) (hu : 0 < u) (hv : 0 < v) (h : Near c i x y) (h' : Near c j u v)
    (hc0 : 0 < c) : Near c (i + j) (x / u) (y / v) := by
  have key : ∀ {i j : Nat} {x y u v : ℚ}, 0 < x → 0 < y → 0 < u → 0 < v → x ≤ c ^ i * y → v ≤ c ^ j * u →
      x / u ≤ c ^ (i + j) * (y / v) := by
    intro i j x y u v _ hy hu hv h1 h2
    rw [div_le_iff₀ hu, mul_assoc, div_mul_eq_mul_div, ← mul_div_assoc, le_div_iff₀ hv]
    calc x * v ≤ c ^ i * y * (c ^ j * u) := mul_le_mul h1 h2 hv.le (by positivity)
      _ = c ^ (i + j) * (y * u) := by rw [pow_add]; ring
  exact ⟨key hx hy hu hv h.le h'.ge, key hy hx hv hu h.ge h'.le⟩

omit hc in
theorem Near.sum {α : Type} {j : Nat} {f g : α → ℚ} (l : List α) (h : ∀ a ∈ l, Near c j (f a) (g a)) :
    Near c j (l.map f).sum (l.map g).sum := by
  induction l with
  | nil => exact ⟨by simp, by simp⟩
  | cons a l ih =>
    have h1 := h a (by simp)
    have h2 := ih fun b hb => h b (by simp [hb])
    simp only [List.map_cons, List.sum_cons]
    exact ⟨by have := h1.le; have := h2.le; linarith, by have := h1.ge; have := h2.ge; linarith⟩

end

section
variable {rd : Rounding} {ε : ℚ} (hr : rd.RelError ε)
include hr

theorem one_le_ratio : 1 ≤ 1 / (1 - ε) := by
  rw [le_div_iff₀ (by have := hr.2.1; linarith)]
  have := hr.1
  linarith

theorem near_rnd {x : ℚ} (hx : 0 ≤ x) : Near (1 / (1 - ε)) 1 (rd.rnd x) x := by
  obtain ⟨h0, h1, h⟩ := hr
  obtain ⟨ha, hb⟩ := h x hx
  have hpos : 0 < 1 - ε := by linarith
  rw [show (1 / (1 - ε)) = (1 - ε)⁻¹ by rw [one_div]]
  constructor
  · rw [pow_one, inv_mul_eq_div, le_div_iff₀ hpos]
    nlinarith [mul_nonneg h0 hx, mul_nonneg (mul_nonneg h0 h0) hx]
  · rw [pow_one, inv_mul_eq_div, le_div_iff₀ hpos]
    linarith

theorem near_weight (n : Nat) : Near (1 / (1 - ε)) 3 (slotWeight rd n) (1 / (1 + n)) := by
  have hc := one_le_ratio hr
  have hn : (0 : ℚ) ≤ n := by positivity
  have h0 : 0 ≤ rd.rnd (n : ℚ) := rnd_nonneg rd hn
  have h1 := (near_rnd hr hn).one_add hc
  have h2 := (near_rnd hr (x := 1 + rd.rnd (n : ℚ)) (by linarith)).trans hc h1
  have hd : 0 < rd.rnd (1 + rd.rnd (n : ℚ)) := rd.pos (by linarith)
  have h3 : Near (1 / (1 - ε)) (0 + 2) (1 / rd.rnd (1 + rd.rnd (n : ℚ))) (1 / (1 + n)) :=
    Near.div one_pos one_pos hd (by positivity) ⟨by simp, by simp⟩ h2 (by linarith)
  exact (near_rnd hr (by positivity)).trans hc h3

theorem near_total (ws : List ℚ) (hw : ∀ w ∈ ws, 0 ≤ w) : Near (1 / (1 - ε)) ws.length (totalWeight rd ws) ws.sum := by
  obtain ⟨h1, h2⟩ := foldl_relError hr ws hw 0 (le_refl _)
  have hc := one_le_ratio hr
  obtain ⟨h0, hlt, _⟩ := hr
  have hpos : 0 < 1 - ε := by linarith
  have hs : 0 ≤ ws.sum := List.sum_nonneg hw
  rw [zero_add] at h1 h2
  constructor
  · refine h2.trans (mul_le_mul_of_nonneg_right (pow_le_pow_left₀ (by linarith) ?_ _) hs)
    rw [le_div_iff₀ hpos]
    nlinarith
  · rw [div_pow, one_pow, div_mul_eq_mul_div, one_mul, le_div_iff₀ (by positivity)]
    rw [mul_comm]
    exact h1

omit hr in
theorem weightOf_pos (m : Text × List InternalSlot) : (0 : ℚ) < 1 / (1 + m.2.length) := by positivity

omit hr in
theorem weightOf_le {ms : List (Text × List InternalSlot)} {m : Text × List InternalSlot} (hm : m ∈ ms) :
    (1 : ℚ) / (1 + m.2.length) ≤ (ms.map fun m => (1 : ℚ) / (1 + m.2.length)).sum :=
  List.single_le_sum (fun x hx => by obtain ⟨y, _, rfl⟩ := List.mem_map.1 hx; exact (weightOf_pos y).le) _
    (List.mem_map.2 ⟨m, hm, rfl⟩)

theorem near_conf {ms : List (Text × List InternalSlot)} {m : Text × List InternalSlot} (hm : m ∈ ms) :
    Near (1 / (1 - ε)) (ms.length + 7) (confOf rd (ms.map mkRes) m.2.length) (share ms m) := by
  have hc := one_le_ratio hr
  have hc0 : 0 < 1 / (1 - ε) := by linarith
  have hw := slotWeight_pos rd m.2.length
  have hmem : mkRes m ∈ ms.map mkRes := List.mem_map.2 ⟨m, hm, rfl⟩
  have hle := weight_le_total rd hmem
  have htot : 0 < totalWeight rd (weights rd (ms.map mkRes)) := lt_of_lt_of_le (slotWeight_pos rd _) hle
  have hsum := lt_of_lt_of_le (weightOf_pos m) (weightOf_le hm)
  have h1 := near_total hr (weights rd (ms.map mkRes)) (weights_nonneg rd _)
  have h2 : Near (1 / (1 - ε)) 3 (weights rd (ms.map mkRes)).sum (ms.map fun m => (1 : ℚ) / (1 + m.2.length)).sum := by
    rw [weights_mkRes]
    exact Near.sum ms fun a _ => near_weight hr a.2.length
  have h3 := h1.trans hc h2
  have h4 := Near.div hw (weightOf_pos m) htot hsum (near_weight hr m.2.length) h3 hc0
  have h5 := (near_rnd hr (div_pos hw htot).le).trans hc h4
  have hlen : (weights rd (ms.map mkRes)).length = ms.length := by simp [weights]
  rw [hlen] at h5
  have hj : 1 + (3 + (ms.length + 3)) = ms.length + 7 := by omega
  rw [hj] at h5
  exact h5

end

theorem margin_pow (k : Nat) : (1 - roundingMargin k) ≤ (1 - 1 / 2 ^ 24 : ℚ) ^ (k + 7) := by
  have h := one_add_mul_le_pow (a := (-(1 / 2 ^ 24) : ℚ)) (by norm_num) (k + 7)
  unfold roundingMargin
  push_cast at h
  have e : (1 : ℚ) - 1 / 2 ^ 24 = 1 + -(1 / 2 ^ 24) := by ring
  rw [e]
  refine le_trans (le_of_eq ?_) h
  ring

/-- The confidence is the share, up to the margin. -/
theorem conf_share {ms : List (Text × List InternalSlot)} {m : Text × List InternalSlot} (hm : m ∈ ms) :
    (1 - roundingMargin ms.length) * share ms m ≤ confOf rounding24 (ms.map mkRes) m.2.length ∧
    (1 - roundingMargin ms.length) * confOf rounding24 (ms.map mkRes) m.2.length ≤ share ms m := by
  obtain ⟨h1, h2⟩ := near_conf relError24 hm
  have hp : (0 : ℚ) < (1 - 1 / 2 ^ 24) ^ (ms.length + 7) := by
    apply pow_pos; norm_num
  rw [div_pow, one_pow, div_mul_eq_mul_div, one_mul, le_div_iff₀ hp] at h1 h2
  have hmp := margin_pow ms.length
  have hconf : 0 < confOf rounding24 (ms.map mkRes) m.2.length :=
    conf_pos rounding24 (r := mkRes m) (List.mem_map.2 ⟨m, hm, rfl⟩)
  have hsh : 0 ≤ share ms m := by
    unfold share
    refine div_nonneg (by positivity) (List.sum_nonneg fun x hx => ?_)
    obtain ⟨y, _, rfl⟩ := List.mem_map.1 hx
    positivity
  constructor
  · refine le_trans (mul_le_mul_of_nonneg_right hmp hsh) ?_
    rw [mul_comm]; exact h2
  · refine le_trans (mul_le_mul_of_nonneg_right hmp hconf.le) ?_
    rw [mul_comm]; exact h1

theorem share_le_one {ms : List (Text × List InternalSlot)} {m : Text × List InternalSlot} (hm : m ∈ ms) :
    0 < share ms m ∧ share ms m ≤ 1 := by
  have hle := weightOf_le hm
  have hpos := weightOf_pos m
  unfold share
  exact ⟨div_pos hpos (lt_of_lt_of_le hpos hle), (div_le_one (lt_of_lt_of_le hpos hle)).2 hle⟩

/-- Away from one half the confidence is on the same side as the share. -/
theorem clear_iff {ms : List (Text × List InternalSlot)} {m : Text × List InternalSlot} (hm : m ∈ ms)
    (h : roundingMargin ms.length < |share ms m - 1 / 2|) :
    1 / 2 < confOf rounding24 (ms.map mkRes) m.2.length ↔ 1 / 2 < share ms m := by
  obtain ⟨h1, h2⟩ := conf_share hm
  obtain ⟨s1, s2⟩ := share_le_one hm
  have hmar : 0 < roundingMargin ms.length := by unfold roundingMargin; positivity
  generalize roundingMargin ms.length = e at *
  generalize share ms m = q at *
  generalize confOf rounding24 (ms.map mkRes) m.2.length = x at *
  constructor
  · intro hx
    by_contra hq
    push Not at hq
    rw [abs_of_nonpos (by linarith)] at h
    have he : e < 1 / 2 := by linarith
    nlinarith
  · intro hq
    rw [abs_of_pos (by linarith)] at h
    have he : e < 1 / 2 := by linarith
    nlinarith

theorem share_perm {ms ms' : List (Text × List InternalSlot)} (h : ms.Perm ms') (m : Text × List InternalSlot) :
    share ms m = share ms' m := by
  unfold share
  rw [(h.map _).sum_eq]

theorem ClearCut.perm {ms ms' : List (Text × List InternalSlot)} (h : ms.Perm ms') (hc : ClearCut ms) : ClearCut ms' := by
  intro m hm
  rw [← share_perm h, ← h.length_eq]
  exact hc m (h.mem_iff.2 hm)

theorem ShareVerdict.perm {ms ms' : List (Text × List InternalSlot)} (h : ms.Perm ms') {out : InternalResult} (hv : ShareVerdict ms out) :
    ShareVerdict ms' out := by
  refine ⟨fun i => ?_, fun i hi => h.mem_iff.1 (hv.slots i hi), hv.absent, fun i hi => ?_⟩
  · rw [hv.winner]
    simp only [h.mem_iff, share_perm h]
  · rw [← share_perm h, ← h.length_eq]
    exact hv.score i hi

/-- The decision in single precision. -/
theorem shareVerdict_of {ms : List (Text × List InternalSlot)} (hc : ClearCut ms) :
    ShareVerdict ms (pickUnambiguous (rankByWeight rounding24 (ms.map mkRes) 1)) := by
  rcases pick_cases rounding24 (ms.map mkRes) with ⟨hout, hall⟩ | ⟨r, hr, hout, hwin⟩
  · rw [hout]
    refine ⟨fun i => ⟨fun h => by simp [noIntent] at h, ?_⟩, fun i h => by simp [noIntent] at h, fun _ => rfl,
      fun i h => by simp [noIntent] at h⟩
    rintro ⟨sl, hm, hs⟩
    have := hall (mkRes (i, sl)) (List.mem_map.2 ⟨_, hm, rfl⟩)
    have h2 := (clear_iff hm (hc _ hm)).2 hs
    exact absurd h2 (not_lt.2 this)
  · obtain ⟨m, hm, rfl⟩ := List.mem_map.1 hr
    have hsm := (clear_iff hm (hc m hm)).1 hwin
    rw [hout]
    refine ⟨fun i => ⟨fun h => ?_, ?_⟩, fun i h => ?_, fun h => ?_, fun i h => ?_⟩
    · obtain ⟨j, sl⟩ := m
      cases h
      exact ⟨sl, hm, hsm⟩
    · rintro ⟨sl, hm', hs'⟩
      have hwin' := (clear_iff hm' (hc _ hm')).2 hs'
      obtain ⟨a, ha, hae⟩ := List.mem_iff_getElem.1 hm
      obtain ⟨b, hb, hbe⟩ := List.mem_iff_getElem.1 hm'
      by_cases hab : a = b
      · subst hab
        rw [hae] at hbe
        subst hbe
        rfl
      · exfalso
        have ga : (ms.map mkRes)[a]? = some (mkRes m) := by simp [ha, hae]
        have gb : (ms.map mkRes)[b]? = some (mkRes (i, sl)) := by simp [hb, hbe]
        rcases le_total m.2.length sl.length with hle | hle
        · have h := conf_le_half rounding24 (fun h => hab h.symm) gb ga hle
          exact absurd hwin' (not_lt.2 h)
        · have h := conf_le_half rounding24 hab ga gb hle
          exact absurd hwin (not_lt.2 h)
    · obtain ⟨j, sl⟩ := m
      cases h
      exact hm
    · obtain ⟨j, sl⟩ := m
      cases h
    · obtain ⟨j, sl⟩ := m
      cases h
      exact conf_share hm

end Snips
