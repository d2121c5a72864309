import Verif.Proofs.SinglePrecision
import Verif.Props.C67_Score

/-! # C92: the classifier in single precision -/

namespace Snips

/-- The features computed in single precision are the exact ones up to a small factor: with `n` features other than zero,
the factor is off by at most the `n / 2 + 5`-th power of `1 + 2^(-23)`.  In particular the same features are zero. -/
theorem c92_features (ops : FloatOps ℚ) (hops : MachineOps ops) (env : FeatEnv) (o : HashOrd) (f : Featurizer ℚ) (input : Text)
    (w : World) (out : List ℚ) (hfew : FewWords env w f.tfidf input)
    (h : (f.transform ops env o input).run w = .ok out) :
    ∃ x, (f.toReal.transform realOps env o input).run w = .ok x ∧ out.length = x.length ∧
      ∀ (i : Nat) (a : ℚ) (y : ℝ), out[i]? = some a → x[i]? = some y →
        |(a : ℝ) - y| ≤ ((1 + 1 / 2 ^ 23) ^ (activeFeatures x / 2 + 5) - 1) * |y| ∧ (a = 0 ↔ y = 0) := by
  obtain ⟨x, hx, hs⟩ := features_scaled hops hfew h
  refine ⟨x, hx, hs.length_eq, fun i a y ha hy => ?_⟩
  obtain ⟨y', hy', hsc⟩ := forall₂_getElem? hs ha
  rw [hy] at hy'
  cases hy'
  refine ⟨?_, ?_⟩
  · have := (hsc.mono (show _ ≤ activeFeatures x / 2 + 5 by omega)).abs_sub
    exact this
  · rw [← hsc.eq_zero_iff]
    exact_mod_cast Iff.rfl

/-- The linear score of a class, whatever the order in which its summands are added: with `n` features other than zero,
the error is at most `(1 + 2^(-23)) ^ (2 n + 6) - 1` times the sum of the absolute values of the summands. -/
theorem c92_linear (ops : FloatOps ℚ) (hops : MachineOps ops) (env : FeatEnv) (o : HashOrd) (f : Featurizer ℚ) (input : Text)
    (w : World) (out : List ℚ) (hfew : FewWords env w f.tfidf input) (h : (f.transform ops env o input).run w = .ok out) :
    ∃ x, (f.toReal.transform realOps env o input).run w = .ok x ∧ ∀ (b : ℚ) (ws : List ℚ),
      |((ops.dot (ops.one :: out) (b :: ws) : ℚ) : ℝ) - (b + (List.zipWith (fun y c => y * c) x (ws.map fun q : ℚ => (q : ℝ))).sum)| ≤
        ((1 + 1 / 2 ^ 23) ^ (2 * activeFeatures x + 6) - 1) *
          (|(b : ℝ)| + (List.zipWith (fun y c => |y * c|) x (ws.map fun q : ℚ => (q : ℝ))).sum) := by
  obtain ⟨x, hx, hs⟩ := features_scaled hops hfew h
  exact ⟨x, hx, fun b ws => linear_error hops hs b ws⟩

/-- The ranking consists of the intents of the model with scores near those of exact arithmetic. -/
theorem c92_scores (ops : FloatOps ℚ) (hops : MachineOps ops) (env : FeatEnv) (o : HashOrd) (c : Classifier) (input : Text)
    (hc : c.Scores input) (w : World) (out : List IntentResult) (intercept : List ℚ) (coeffs : List (List ℚ)) (m : LogReg ℚ)
    (hm : LogReg.new intercept coeffs = .ok m) (hlog : c.logreg = some m)
    (hfew : ∀ f, c.featurizer = some f → FewWords env w f.tfidf input)
    (h : (c.getIntents ops env o input).run w = .ok out) :
    ∃ (f : Featurizer ℚ) (x s : List ℝ) (m' : LogReg ℝ) (scores : List ℚ), c.featurizer = some f ∧
      (f.toReal.transform realOps env o input).run w = .ok x ∧
      LogReg.new (reals intercept) (coeffs.map reals) = .ok m' ∧ m'.run realOps x = .ok s ∧
      out.Perm (List.zipWith IntentResult.mk c.intentList scores) ∧ scores.length = s.length ∧
      ∀ (j : Nat) (p : ℚ) (q : ℝ), scores[j]? = some p → s[j]? = some q →
        ∃ e, ScoreError (reals intercept) (coeffs.map reals) x j e ∧ |(p : ℝ) - q| ≤ e := by
  obtain ⟨f, m', features, scores, h1, h2, h3, h4, h5⟩ := c40_scores ops env o c input hc w out h
  rw [hlog] at h2
  cases h2
  obtain ⟨x, hx, hs⟩ := features_scaled hops (hfew f h1) h3
  obtain ⟨s, hrun, hlen, herr⟩ := run_error hops hm hs h4
  exact ⟨f, x, s, _, scores, h1, hx, logReg_reals hm, hrun, h5, hlen, herr⟩

theorem scoreError_unique {intercept : List ℝ} {coeffs : List (List ℝ)} {x : List ℝ} {j : Nat} {e e' : ℝ}
    (h : ScoreError intercept coeffs x j e) (h' : ScoreError intercept coeffs x j e') : e = e' := by
  obtain ⟨mass, ⟨b, ws, hb, hl, hw, rfl⟩, rfl⟩ := h
  obtain ⟨mass', ⟨b', ws', hb', hl', hw', rfl⟩, rfl⟩ := h'
  rw [hb] at hb'
  cases hb'
  have : ws = ws' := by
    apply List.ext_getElem?
    intro i
    by_cases hi : i < x.length
    · rw [← hw i hi, hw' i hi]
    · rw [List.getElem?_eq_none (by omega), List.getElem?_eq_none (by omega)]
  rw [this]

theorem kept_result_iff (wl : Option (List Text)) (n : Option Text) (p : ℚ) :
    keptByWhitelist wl ⟨n, p⟩ = true ↔ ∀ i, n = some i → ∀ l, wl = some l → i ∈ l := by
  unfold keptByWhitelist
  cases n with
  | none => simp
  | some i => cases wl <;> simp

/-- The intent with the highest exact score (of those allowed) is the one chosen, if its score exceeds the others by more
than the errors of the two scores. -/
theorem c92_decides (ops : FloatOps ℚ) (hops : MachineOps ops) (env : FeatEnv) (o : HashOrd) (c : Classifier) (input : Text)
    (hc : c.Scores input) (w : World) (wl : Option (List Text)) (r : IntentResult)
    (intercept : List ℚ) (coeffs : List (List ℚ)) (m : LogReg ℚ)
    (hm : LogReg.new intercept coeffs = .ok m) (hlog : c.logreg = some m)
    (f : Featurizer ℚ) (hf : c.featurizer = some f) (hfew : FewWords env w f.tfidf input)
    (x s : List ℝ) (m' : LogReg ℝ) (hx : (f.toReal.transform realOps env o input).run w = .ok x)
    (hm' : LogReg.new (reals intercept) (coeffs.map reals) = .ok m') (hs : m'.run realOps x = .ok s)
    (j : Nat) (name : Option Text) (q e : ℝ) (hj : c.intentList[j]? = some name) (hq : s[j]? = some q)
    (he : ScoreError (reals intercept) (coeffs.map reals) x j e)
    (hname : ∀ i, name = some i → ∀ l, wl = some l → i ∈ l)
    (hmost : ∀ (i : Nat) (name' : Option Text) (q' e' : ℝ), i ≠ j → c.intentList[i]? = some name' →
      (∀ i, name' = some i → ∀ l, wl = some l → i ∈ l) → s[i]? = some q' →
      ScoreError (reals intercept) (coeffs.map reals) x i e' → q' + e' < q - e)
    (h : (c.getIntent ops env o input wl).run w = .ok r) :
    r.name = name ∧ |(r.score : ℝ) - q| ≤ e := by
  unfold Classifier.getIntent at h
  rw [Prog.run_bind, Outcome.bind_ok] at h
  obtain ⟨out, hout, h⟩ := h
  obtain ⟨f', m'', features, scores, h1, h2, h3, h4, h5, _⟩ := classifier_run hc hout
  rw [hlog] at h2
  cases h2
  rw [hf] at h1
  cases h1
  obtain ⟨x', hx', hsc⟩ := features_scaled hops hfew h3
  rw [hx] at hx'
  cases hx'
  obtain ⟨s', hrun, hlen, herr⟩ := run_error hops hm hsc h4
  rw [logReg_reals hm] at hm'
  cases hm'
  rw [hs] at hrun
  cases hrun
  obtain ⟨hjs, rfl⟩ := List.getElem?_eq_some_iff.1 hq
  obtain ⟨p, hp⟩ : ∃ p, scores[j]? = some p := ⟨_, List.getElem?_eq_getElem (by omega)⟩
  have hclose : ∀ (i : Nat) (p : ℚ) (q e : ℝ), scores[i]? = some p → s[i]? = some q →
      ScoreError (reals intercept) (coeffs.map reals) x i e → |(p : ℝ) - q| ≤ e := by
    intro i p q e hp hq he
    obtain ⟨e', he', hle⟩ := herr i p q hp hq
    rw [scoreError_unique he he']
    exact hle
  have hpq := hclose j p _ e hp hq he
  have hmem : (⟨name, p⟩ : IntentResult) ∈ out := by
    rw [h5]
    unfold Classifier.rank
    rw [mem_sortDesc, List.mem_filter, kept_result_iff]
    refine ⟨List.mem_map.2 ⟨(name, p), ?_, rfl⟩, hname⟩
    exact List.mem_of_getElem? (List.getElem?_zip_eq_some.2 ⟨hj, hp⟩)
  have hout' : out ≠ [] := List.ne_nil_of_mem hmem
  obtain ⟨r', rest, rfl⟩ := List.exists_cons_of_ne_nil hout'
  cases h
  have hsorted : (r' :: rest).Pairwise (fun a b => b.score ≤ a.score) := by
    rw [h5]
    exact sortDesc_pairwise _ _
  have htop : p ≤ r'.score := by
    rcases List.mem_cons.1 hmem with h | h
    · rw [← h]
    · exact (List.pairwise_cons.1 hsorted).1 _ h
  have hr : r' ∈ r' :: rest := List.mem_cons_self
  rw [h5] at hr
  unfold Classifier.rank at hr
  rw [mem_sortDesc, List.mem_filter] at hr
  obtain ⟨hr, hkept⟩ := hr
  obtain ⟨⟨n, t⟩, hnt, rfl⟩ := List.mem_map.1 hr
  rw [kept_result_iff] at hkept
  obtain ⟨i, hi⟩ := List.mem_iff_getElem?.1 hnt
  obtain ⟨hi1, hi2⟩ := List.getElem?_zip_eq_some.1 hi
  by_cases hij : i = j
  · subst hij
    rw [hj] at hi1
    rw [hp] at hi2
    cases hi1
    cases hi2
    exact ⟨rfl, hpq⟩
  · exfalso
    obtain ⟨q', hq'⟩ : ∃ q', s[i]? = some q' := by
      have := (List.getElem?_eq_some_iff.1 hi2).1
      exact ⟨_, List.getElem?_eq_getElem (by omega)⟩
    obtain ⟨e', he', hle⟩ := herr i t q' hi2 hq'
    have hlt := hmost i n q' e' hij hi1 hkept hq' he'
    have htop' : (p : ℝ) ≤ t := by exact_mod_cast htop
    rw [abs_le] at hpq hle
    linarith [hpq.1, hle.2]

/-- A linear score of 17 or more has the score 1. -/
theorem c92_saturates (ops : FloatOps ℚ) (hops : MachineOps ops) (z : ℚ) (hz : 17 ≤ z) : logit ops z = 1 :=
  logit_saturates hops hz

/-! ### Concrete cases -/

theorem exists_near_rat {y : ℝ} (hy : 0 < y) {ε : ℝ} (hε : 0 < ε) : ∃ q : ℚ, |(q : ℝ) - y| ≤ ε * y := by
  obtain ⟨q, h1, h2⟩ := exists_rat_btwn (show y < y + ε * y by linarith [mul_pos hε hy])
  exact ⟨q, by rw [abs_le]; constructor <;> linarith [mul_pos hε hy]⟩

open Classical in
/-- A machine that adds from the left to the right. -/
noncomputable def leftToRight : FloatOps ℚ where
  zero := 0
  one := 1
  add x y := rounding24.rnd (x + y)
  sub x y := rounding24.rnd (x - y)
  mul x y := rounding24.rnd (x * y)
  div x y := rounding24.rnd (x / y)
  neg x := -x
  exp x := (exists_near_rat (Real.exp_pos (x : ℝ)) (ε := 1 / 2 ^ 22) (by positivity)).choose
  sqrt x := if h : 0 < Real.sqrt (x : ℝ) then (exists_near_rat h (ε := 1 / 2 ^ 24) (by positivity)).choose else 0
  pos x := decide (0 < x)
  dot a b := (a.zip b).foldr (fun p s => rounding24.rnd (s + rounding24.rnd (p.1 * p.2))) 0

theorem leftToRight_machine : MachineOps leftToRight where
  zero := rfl
  one := rfl
  add _ _ := rfl
  sub _ _ := rfl
  mul _ _ := rfl
  div _ _ := rfl
  neg _ := rfl
  exp x := (exists_near_rat (Real.exp_pos (x : ℝ)) (ε := 1 / 2 ^ 22) (by positivity)).choose_spec
  sqrt x _ := by
    by_cases h : 0 < Real.sqrt (x : ℝ)
    · have e : leftToRight.sqrt x = (exists_near_rat h (ε := 1 / 2 ^ 24) (by positivity)).choose := dif_pos h
      rw [e]
      exact (exists_near_rat h (ε := 1 / 2 ^ 24) (by positivity)).choose_spec
    · have e : leftToRight.sqrt x = 0 := dif_neg h
      rw [e, le_antisymm (not_lt.1 h) (Real.sqrt_nonneg _)]
      simp
  pos x := by simp [leftToRight]
  dot a b := by
    change Dotted (a.zip b) ((a.zip b).foldr _ 0)
    induction a.zip b with
    | nil => exact .nil
    | cons p l ih =>
      have := Dotted.sum ih (.product p.1 p.2)
      exact this.perm (List.perm_append_comm)

/-- Two intents with great linear scores, 18 and 30, and no influence of the features. -/
def steepClassifier : Classifier where
  intentList := [some ['a'], some ['b'], none]
  featurizer := some ⟨⟨singleFns, [], [(['x'], 0), (['y'], 1)], [2, 3], none, none⟩, none⟩
  logreg := some ⟨2, [[18, 0, 0], [30, 0, 0], [0, 0, 0]]⟩

theorem steep_new : LogReg.new (F := ℚ) [18, 30, 0] [[0, 0], [0, 0], [0, 0]] = .ok ⟨2, [[18, 0, 0], [30, 0, 0], [0, 0, 0]]⟩ := by
  decide +kernel

theorem steep_scores : steepClassifier.Scores ['x'] :=
  ⟨by decide, by decide, by decide +kernel, by decide +kernel⟩

theorem single_few (f : Featurizer ℚ) (hf : steepClassifier.featurizer = some f) :
    FewWords demoFeatEnv demoWorld0 f.tfidf ['x'] := by
  cases hf
  rintro bs cs words ⟨hb, hcs⟩ hw
  cases hb
  cases hcs
  have := hw.length_eq
  rw [this]
  decide

theorem steep_features (ops : FloatOps ℚ) (f : Featurizer ℚ) (hf : steepClassifier.featurizer = some f) :
    ∃ a b : ℚ, (f.transform ops demoFeatEnv HashOrd.insertion ['x']).run demoWorld0 = .ok [a, b] := by
  cases hf
  have h : ∀ r : Outcome (List ℚ), r.map List.length = .ok 2 → ∃ a b : ℚ, r = .ok [a, b] := by
    intro r hr
    cases r with
    | ok l =>
      obtain ⟨a, b, rfl⟩ := List.length_eq_two.1 (Outcome.ok.inj hr)
      exact ⟨a, b, rfl⟩
    | err e => cases hr
    | panic => cases hr
  exact h _ rfl

theorem steep_dot {ops : FloatOps ℚ} (hops : MachineOps ops) (a b z : ℚ) (hz : 0 ≤ z) :
    |((ops.dot (ops.one :: [a, b]) [z, 0, 0] : ℚ) : ℝ) - z| ≤ 1 / 2 ^ 10 * z := by
  classical
  have hn : activeFeatures [(a : ℝ), (b : ℝ)] ≤ 2 := List.countP_le_length
  have h := linear_error hops (l := [a, b]) (xs := [(a : ℝ), (b : ℝ)])
    (.cons (Scaled.refl _ _) (.cons (Scaled.refl _ _) .nil)) z [0, 0]
  have hz' : (0 : ℝ) ≤ z := by exact_mod_cast hz
  have h1 : (List.zipWith (· * ·) [(a : ℝ), (b : ℝ)] (reals [0, 0])).sum = 0 := by simp [reals]
  have h2 : (List.zipWith (fun x w => |x * w|) [(a : ℝ), (b : ℝ)] (reals [0, 0])).sum = 0 := by simp [reals]
  rw [h1, h2, add_zero, add_zero, abs_of_nonneg hz'] at h
  refine h.trans (mul_le_mul_of_nonneg_right ?_ hz')
  have hle : linearMargin (activeFeatures [(a : ℝ), (b : ℝ)]) ≤ linearMargin 2 := by
    unfold linearMargin
    have := pow_le_pow_right₀ (show (1 : ℝ) ≤ 1 + 1 / 2 ^ 23 by norm_num)
      (show 2 * activeFeatures [(a : ℝ), (b : ℝ)] + 6 ≤ 2 * 2 + 6 by omega)
    linarith
  refine hle.trans ?_
  unfold linearMargin
  norm_num

theorem steep_real_features : ∃ a b : ℝ, ∀ f, steepClassifier.featurizer = some f →
    (f.toReal.transform realOps demoFeatEnv HashOrd.insertion ['x']).run demoWorld0 = .ok [a, b] := by
  obtain ⟨a, b, h⟩ := steep_features leftToRight _ rfl
  obtain ⟨x, hx, hl, _⟩ := c92_features leftToRight leftToRight_machine demoFeatEnv HashOrd.insertion _ ['x'] demoWorld0 _
    (single_few _ rfl) h
  obtain ⟨a', b', rfl⟩ := List.length_eq_two.1 hl.symm
  refine ⟨a', b', fun f hf => ?_⟩
  cases hf
  exact hx

/-- A higher linear score does not always win: with the linear scores 18 and 30, both scores are 1, and the intent listed
first is chosen, although the exact score of the other one is greater. -/
theorem c92_saturates_counterexample :
    (∀ ops : FloatOps ℚ, MachineOps ops →
      (steepClassifier.getIntent ops demoFeatEnv HashOrd.insertion ['x'] none).run demoWorld0 = .ok ⟨some ['a'], 1⟩) ∧
    ∃ (f : Featurizer ℚ) (x : List ℝ) (m : LogReg ℝ) (sa sb sn : ℝ), steepClassifier.featurizer = some f ∧
      (f.toReal.transform realOps demoFeatEnv HashOrd.insertion ['x']).run demoWorld0 = .ok x ∧
      LogReg.new (reals [18, 30, 0]) ([[0, 0], [0, 0], [0, 0]].map reals) = .ok m ∧ m.run realOps x = .ok [sa, sb, sn] ∧
      sn < sa ∧ sa < sb := by
  constructor
  · intro ops hops
    obtain ⟨a, b, h⟩ := steep_features ops _ rfl
    have h18 : logit ops (ops.dot (ops.one :: [a, b]) [18, 0, 0]) = 1 := by
      apply logit_saturates hops
      have := (abs_le.1 (steep_dot hops a b 18 (by norm_num))).1
      have h17 : (17 : ℝ) ≤ ((ops.dot (ops.one :: [a, b]) [18, 0, 0] : ℚ) : ℝ) := by
        push_cast at this
        norm_num at this
        linarith
      exact_mod_cast h17
    have h30 : logit ops (ops.dot (ops.one :: [a, b]) [30, 0, 0]) = 1 := by
      apply logit_saturates hops
      have := (abs_le.1 (steep_dot hops a b 30 (by norm_num))).1
      have h17 : (17 : ℝ) ≤ ((ops.dot (ops.one :: [a, b]) [30, 0, 0] : ℚ) : ℝ) := by
        push_cast at this
        norm_num at this
        linarith
      exact_mod_cast h17
    have h0 : logit ops (ops.dot (ops.one :: [a, b]) [0, 0, 0]) ≤ 1 := by
      have hd := steep_dot hops a b 0 le_rfl
      rw [Rat.cast_zero, mul_zero] at hd
      have := (abs_le.1 (score_error hops _ 0 0 hd).1).2
      have hs : sigmoid 0 = 1 / 2 := by unfold sigmoid; norm_num
      rw [hs] at this
      have h1 : ((logit ops (ops.dot (ops.one :: [a, b]) [0, 0, 0]) : ℚ) : ℝ) ≤ 1 := by
        norm_num at this
        linarith
      exact_mod_cast h1
    unfold Classifier.getIntent Classifier.getIntentsWithWhitelist
    rw [if_neg (by decide), if_neg (by decide)]
    simp only [steepClassifier]
    rw [Prog.run_bind, Prog.run_bind, h]
    simp only [Outcome.bind, Prog.run_bind, Prog.run_ofOutcome]
    rw [run_many rfl (by decide)]
    simp only [List.map_cons, List.map_nil, h18, h30, Prog.run_ret]
    generalize logit ops (ops.dot (ops.one :: [a, b]) [0, 0, 0]) = t at h0
    have hrank : ∀ c : Classifier, c.intentList = [some ['a'], some ['b'], none] →
        c.rank [1, 1, t] none = [⟨some ['a'], 1⟩, ⟨some ['b'], 1⟩, ⟨none, t⟩] := by
      intro c hc
      unfold Classifier.rank
      rw [hc]
      have hf : (([some ['a'], some ['b'], none].zip [1, 1, t]).map
          (fun ns : Option Text × ℚ => (⟨ns.1, ns.2⟩ : IntentResult))).filter (keptByWhitelist none) = [⟨some ['a'], 1⟩, ⟨some ['b'], 1⟩, ⟨none, t⟩] := rfl
      rw [hf]
      apply sortDesc_of_sorted
      simp [h0]
    rw [hrank _ rfl]
  · obtain ⟨a, b, h⟩ := steep_real_features
    refine ⟨_, [a, b], _, sigmoid 18, sigmoid 30, sigmoid 0, rfl, h _ rfl, logReg_reals steep_new, ?_,
      c39_increasing (by norm_num), c39_increasing (by norm_num)⟩
    rw [run_many rfl (by simp)]
    simp [reals, logit, realOps, sigmoid]

/-- The hypotheses of the theorems can be met: a machine, a model and a sentence. -/
example : ∃ out, (steepClassifier.getIntents leftToRight demoFeatEnv HashOrd.insertion ['x']).run demoWorld0 = .ok out ∧
    steepClassifier.Scores ['x'] ∧ MachineOps leftToRight ∧
    ∀ f, steepClassifier.featurizer = some f → FewWords demoFeatEnv demoWorld0 f.tfidf ['x'] := by
  have h := c92_saturates_counterexample.1 leftToRight leftToRight_machine
  unfold Classifier.getIntent at h
  rw [Prog.run_bind, Outcome.bind_ok] at h
  obtain ⟨out, hout, _⟩ := h
  exact ⟨out, hout, steep_scores, leftToRight_machine, single_few⟩

/-- The same model with linear scores 0, 4 and 0. -/
def calmClassifier : Classifier := { steepClassifier with logreg := some ⟨2, [[0, 0, 0], [4, 0, 0], [0, 0, 0]]⟩ }

theorem calm_new : LogReg.new (F := ℚ) [0, 4, 0] [[0, 0], [0, 0], [0, 0]] = .ok ⟨2, [[0, 0, 0], [4, 0, 0], [0, 0, 0]]⟩ := by
  decide +kernel

theorem calm_error {a b e : ℝ} {j : Nat}
    (h : ScoreError (reals [0, 4, 0]) ([[0, 0], [0, 0], [0, 0]].map reals) [a, b] j e) : e ≤ 1 / 1000 := by
  classical
  obtain ⟨mass, ⟨z, ws, hz, hl, hw, rfl⟩, rfl⟩ := h
  rw [if_neg (by simp [reals])] at hz hw
  obtain ⟨u, v, rfl⟩ := List.length_eq_two.1 hl
  have h0 := hw 0 (by simp)
  have h1 := hw 1 (by simp)
  have hzz : |z| ≤ 4 ∧ u = 0 ∧ v = 0 := by
    match j, hz, h0, h1 with
    | 0, hz, h0, h1 => simp [reals] at hz h0 h1; simp [hz.symm, ← h0, ← h1]
    | 1, hz, h0, h1 => simp [reals] at hz h0 h1; simp [hz.symm, ← h0, ← h1]
    | 2, hz, h0, h1 => simp [reals] at hz h0 h1; simp [hz.symm, ← h0, ← h1]
    | j + 3, hz, _, _ => simp [reals] at hz
  obtain ⟨hz4, rfl, rfl⟩ := hzz
  have hn : activeFeatures [a, b] ≤ 2 := List.countP_le_length
  have hle : linearMargin (activeFeatures [a, b]) ≤ linearMargin 2 := by
    unfold linearMargin
    have := pow_le_pow_right₀ (show (1 : ℝ) ≤ 1 + 1 / 2 ^ 23 by norm_num)
      (show 2 * activeFeatures [a, b] + 6 ≤ 2 * 2 + 6 by omega)
    linarith
  have h2 : linearMargin 2 ≤ 1 / 2 ^ 12 := by unfold linearMargin; norm_num
  have h3 : (0 : ℝ) ≤ 1 / 2 ^ 12 := by norm_num
  have hm := mul_le_mul (hle.trans h2) hz4 (abs_nonneg z) h3
  simp only [List.zipWith_cons_cons, List.zipWith_nil_left, mul_zero, abs_zero, List.sum_cons, List.sum_nil, add_zero]
  norm_num at hm ⊢
  linarith

/-- Every machine chooses the intent with the linear score 4. -/
example (ops : FloatOps ℚ) (hops : MachineOps ops) (r : IntentResult)
    (h : (calmClassifier.getIntent ops demoFeatEnv HashOrd.insertion ['x'] none).run demoWorld0 = .ok r) :
    r.name = some ['b'] := by
  obtain ⟨a, b, hx⟩ := steep_real_features
  have hrun : LogReg.run realOps ⟨2, [[0, 0, 0], [4, 0, 0], [0, 0, 0]].map reals⟩ [a, b]
      = .ok [sigmoid 0, sigmoid 4, sigmoid 0] := by
    rw [run_many rfl (by simp)]
    simp [reals, logit, realOps, sigmoid]
  have h0 : sigmoid 0 = 1 / 2 := by unfold sigmoid; norm_num
  have h4 : 4 / 5 ≤ sigmoid 4 := by
    unfold sigmoid
    have : Real.exp (-4) ≤ 1 / 4 := by
      rw [Real.exp_neg, inv_le_comm₀ (Real.exp_pos 4) (by norm_num)]
      have := Real.add_one_le_exp (4 : ℝ)
      norm_num at this ⊢
      linarith
    rw [le_div_iff₀ (by positivity)]
    linarith
  obtain ⟨e, he⟩ : ∃ e, ScoreError (reals [0, 4, 0]) ([[0, 0], [0, 0], [0, 0]].map reals) [a, b] 1 e := by
    refine ⟨_, _, ⟨4, [0, 0], by simp [reals], rfl, fun i hi => ?_, rfl⟩, rfl⟩
    match i, hi with
    | 0, _ => simp [reals]
    | 1, _ => simp [reals]
  refine (c92_decides ops hops demoFeatEnv HashOrd.insertion calmClassifier ['x'] ⟨by decide, by decide, by decide +kernel, by decide +kernel⟩
    demoWorld0 none r [0, 4, 0] [[0, 0], [0, 0], [0, 0]] _ calm_new rfl _ rfl (single_few _ rfl) [a, b] _ _ (hx _ rfl)
    (logReg_reals calm_new) hrun 1 (some ['b']) (sigmoid 4) e rfl rfl he (fun _ _ _ hl => by cases hl) ?_ h).1
  intro i name' q' e' hi _ _ hq he'
  have := calm_error he
  have := calm_error he'
  have hq' : q' = sigmoid 0 := by
    match i, hi, hq with
    | 0, _, hq => simpa using hq.symm
    | 1, hi, _ => exact absurd rfl hi
    | 2, _, hq => simpa using hq.symm
    | i + 3, _, hq => simp at hq
  rw [hq', h0]
  linarith

/-- The margin of a sentence with 40 features is below a millionth times 16. -/
example : linearMargin 40 ≤ 16 / 10 ^ 6 := by
  unfold linearMargin
  norm_num

end Snips
