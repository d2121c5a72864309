import Verif.Proofs.Machine32
import Verif.Props.C70_Nan

/-! # C94: the classifier in binary32, with infinities, NaN and subnormal numbers -/

namespace Snips

/-- Where exact arithmetic gives features, `f32` does too: finite numbers near the exact ones (and zero where these are). -/
theorem c94_features (ops : FloatOps Fl) (hops : Machine32 ops) (env : FeatEnv) (o : HashOrd) (f : Featurizer ℚ) (input : Text)
    (w : World) (hidf : ∀ d ∈ f.tfidf.idf, Between32 (-10) 10 d) (hfew : FewWords env w f.tfidf input) (x : List ℝ)
    (hx : (f.toReal.transform realOps env o input).run w = .ok x) (hn : x.length < 2 ^ 24) :
    ∃ out : List ℚ, (f.toFl.transform ops env o input).run w = .ok (out.map Fl.fin) ∧ out.length = x.length ∧
      ∀ (i : Nat) (a : ℚ) (y : ℝ), out[i]? = some a → x[i]? = some y →
        |(a : ℝ) - y| ≤ ((1 + 1 / 2 ^ 23) ^ (activeFeatures x / 2 + 5) - 1) * |y| ∧ (a = 0 ↔ y = 0) := by
  obtain ⟨l, h1, _, hs⟩ := features32 hops hidf hfew hx hn
  refine ⟨l, h1, hs.length_eq, fun i a y ha hy => ?_⟩
  obtain ⟨y', hy', hsc⟩ := forall₂_getElem? hs ha
  rw [hy] at hy'
  cases hy'
  refine ⟨?_, ?_⟩
  · have := (hsc.mono (show _ ≤ activeFeatures x / 2 + 5 by omega)).abs_sub
    exact this
  · rw [← hsc.eq_zero_iff]
    exact_mod_cast Iff.rfl

open Classical in
/-- Where exact arithmetic gives scores, the ranking does not fail: it consists of the permitted intents with scores
between 0 and 1 near the exact ones, none before a higher one. -/
theorem c94_scores (ops : FloatOps Fl) (hops : Machine32 ops) (env : FeatEnv) (o : HashOrd) (c : FlClassifier) (input : Text)
    (hin : input ≠ []) (w : World) (wl : Option (List Text)) (f : Featurizer ℚ) (intercept : List ℚ) (coeffs : List (List ℚ))
    (hc : c.Holds f intercept coeffs) (hord : OrdinaryModel f.tfidf.idf intercept coeffs) (hfew : FewWords env w f.tfidf input)
    (x s : List ℝ) (hx : ExactScores env o w f intercept coeffs input x s) (hn : x.length + 1 < 2 ^ 24) :
    ∃ (scores : List ℚ) (out : List (Option Text × Fl)),
      (c.getIntentsWithWhitelist ops env o input wl).run w = .ok out ∧
      out.Perm ((c.intentList.zip (scores.map Fl.fin)).filter fun ns => Reportable wl ns.1) ∧
      out.Pairwise (fun a b => Fl.partialCmp a.2 b.2 ≠ some .lt) ∧
      scores.length = s.length ∧ (∀ p ∈ scores, 0 ≤ p ∧ p ≤ 1) ∧
      ∀ (j : Nat) (p : ℚ) (q : ℝ), scores[j]? = some p → s[j]? = some q →
        ∃ e, ScoreError (reals intercept) (coeffs.map reals) x j e ∧ |(p : ℝ) - q| ≤ e := by
  obtain ⟨hx1, m', hm', hs⟩ := hx
  obtain ⟨h2, hf, m, hm, hlog⟩ := hc
  obtain ⟨l, h1, hp, hsc⟩ := features32 hops hord.idf hfew hx1 (by omega)
  obtain ⟨m0, hm0, rfl⟩ := logReg_fins hm
  rw [logReg_reals hm0] at hm'
  cases hm'
  obtain ⟨scores, hrun, hlen, h01, herr⟩ := run32 hops hm0 hord.intercept hord.coeffs hsc hp hn hs
  obtain ⟨out, hout, hperm, hsort⟩ := (c70_ranking ops env o c input w wl _ _ _ _ h2 hin hf hlog h1 hrun _ rfl).2 (by
    rintro ⟨_, ns, hns, hnan⟩
    have := (List.of_mem_zip (List.mem_filter.1 hns).1).2
    obtain ⟨q, _, hq⟩ := List.mem_map.1 this
    rw [hnan] at hq
    cases hq)
  exact ⟨scores, out, hout, hperm, hsort, hlen, h01, herr⟩

/-- The permitted intent with the highest exact score is the one chosen, if its score exceeds the others by more than the
errors of the two scores. -/
theorem c94_decides (ops : FloatOps Fl) (hops : Machine32 ops) (env : FeatEnv) (o : HashOrd) (c : FlClassifier) (input : Text)
    (hin : input ≠ []) (w : World) (wl : Option (List Text)) (f : Featurizer ℚ) (intercept : List ℚ) (coeffs : List (List ℚ))
    (hc : c.Holds f intercept coeffs) (hord : OrdinaryModel f.tfidf.idf intercept coeffs) (hfew : FewWords env w f.tfidf input)
    (x s : List ℝ) (hx : ExactScores env o w f intercept coeffs input x s) (hn : x.length + 1 < 2 ^ 24)
    (j : Nat) (name : Option Text) (q e : ℝ) (hj : c.intentList[j]? = some name) (hq : s[j]? = some q)
    (he : ScoreError (reals intercept) (coeffs.map reals) x j e) (hname : Reportable wl name)
    (hmost : ∀ (i : Nat) (name' : Option Text) (q' e' : ℝ), i ≠ j → c.intentList[i]? = some name' → Reportable wl name' →
      s[i]? = some q' → ScoreError (reals intercept) (coeffs.map reals) x i e' → q' + e' < q - e) :
    ∃ p : ℚ, (c.getIntent ops env o input wl).run w = .ok (name, .fin p) ∧ |(p : ℝ) - q| ≤ e := by
  classical
  obtain ⟨scores, out, hout, hperm, hsort, hlen, _, herr⟩ :=
    c94_scores ops hops env o c input hin w wl f intercept coeffs hc hord hfew x s hx hn
  have hclose : ∀ (i : Nat) (p : ℚ) (q e : ℝ), scores[i]? = some p → s[i]? = some q →
      ScoreError (reals intercept) (coeffs.map reals) x i e → |(p : ℝ) - q| ≤ e := by
    intro i p q e hp hq he
    obtain ⟨e', he', hle⟩ := herr i p q hp hq
    rw [scoreError_unique he he']
    exact hle
  obtain ⟨hjs, rfl⟩ := List.getElem?_eq_some_iff.1 hq
  obtain ⟨p, hp⟩ : ∃ p, scores[j]? = some p := ⟨_, List.getElem?_eq_getElem (by omega)⟩
  have hpq := hclose j p _ e hp hq he
  have hmem : (name, Fl.fin p) ∈ out := by
    rw [hperm.mem_iff, List.mem_filter]
    refine ⟨List.mem_of_getElem? (List.getElem?_zip_eq_some.2 ⟨hj, ?_⟩), by simpa using hname⟩
    rw [List.getElem?_map, hp]
    rfl
  obtain ⟨r, rest, rfl⟩ := List.exists_cons_of_ne_nil (List.ne_nil_of_mem hmem)
  have hr : r ∈ r :: rest := List.mem_cons_self
  rw [hperm.mem_iff, List.mem_filter] at hr
  obtain ⟨hzip, hkept⟩ := hr
  obtain ⟨n, v⟩ := r
  obtain ⟨i, hi⟩ := List.mem_iff_getElem?.1 hzip
  obtain ⟨hi1, hi2⟩ := List.getElem?_zip_eq_some.1 hi
  rw [List.getElem?_map] at hi2
  obtain ⟨t, ht, rfl⟩ := Option.map_eq_some_iff.1 hi2
  have htop : p ≤ t := by
    rcases List.mem_cons.1 hmem with h | h
    · cases h
      exact le_refl _
    · have := (List.pairwise_cons.1 hsort).1 _ h
      rw [partialCmp_fin] at this
      by_contra hlt
      rw [if_pos (not_le.1 hlt)] at this
      exact this rfl
  have hfirst : (c.getIntent ops env o input wl).run w = .ok (n, .fin t) := by
    unfold FlClassifier.getIntent
    rw [Prog.run_bind, hout]
    rfl
  by_cases hij : i = j
  · subst hij
    rw [hj] at hi1
    rw [hp] at ht
    cases hi1
    cases ht
    exact ⟨p, hfirst, hpq⟩
  · exfalso
    obtain ⟨q', hq'⟩ : ∃ q', s[i]? = some q' := by
      have := (List.getElem?_eq_some_iff.1 ht).1
      exact ⟨_, List.getElem?_eq_getElem (by omega)⟩
    obtain ⟨e', he', hle⟩ := herr i t q' ht hq'
    have hlt := hmost i n q' e' hij hi1 (by simpa using hkept) hq' he'
    have htop' : (p : ℝ) ≤ t := by exact_mod_cast htop
    rw [abs_le] at hpq hle
    linarith [hpq.1, hle.2]

/-! ### Models with other numbers -/

/-- A vectorizer with one word. -/
def oneWord (d : ℚ) : Featurizer ℚ := ⟨⟨singleFns, [], [(['x'], 0)], [d], none, none⟩, none⟩

theorem oneWord_run {F : Type} (ops : FloatOps F) (v : Tfidf F) (d : F) (hv : v = ⟨singleFns, [], [(['x'], 0)], [d], none, none⟩) :
    ((Featurizer.mk v none).transform ops demoFeatEnv HashOrd.insertion ['x']).run demoWorld0
      = .ok (normalizeVector ops [ops.mul (ops.add ops.zero ops.one) d]) := by
  subst hv
  rfl

theorem normalize_one {F : Type} (ops : FloatOps F) (t y : F) (h : ops.sqrt (ops.add ops.zero (ops.mul t t)) = y) :
    normalizeVector ops [t] = [ops.div t (if ops.pos y then y else ops.one)] := by
  subst h
  rfl

/-- The exact feature is 1, whatever the number of the word. -/
theorem oneWord_exact (d : ℚ) (hd : 0 < d) :
    ((oneWord d).toReal.transform realOps demoFeatEnv HashOrd.insertion ['x']).run demoWorld0 = .ok [1] := by
  have h := oneWord_run realOps (oneWord d).tfidf.toReal (d : ℝ) rfl
  refine h.trans ?_
  have hd' : (0 : ℝ) < d := by exact_mod_cast hd
  have hs : Real.sqrt (d * d) = d := Real.sqrt_mul_self hd'.le
  have : normalizeVector realOps [realOps.mul (realOps.add realOps.zero realOps.one) (d : ℝ)] = [1] := by
    simp [normalizeVector, realOps, hs, hd', hd'.ne']
  rw [this]

/-- A number that is too large: the square of the term is infinite, and the feature is 0 instead of 1. -/
theorem c94_overflow_counterexample (ops : FloatOps Fl) (hops : Machine32 ops) :
    Binary32 (2 ^ 64) ∧
    ((oneWord (2 ^ 64)).toFl.transform ops demoFeatEnv HashOrd.insertion ['x']).run demoWorld0 = .ok [.fin 0] ∧
    ((oneWord (2 ^ 64)).toReal.transform realOps demoFeatEnv HashOrd.insertion ['x']).run demoWorld0 = .ok [1] := by
  refine ⟨⟨1, 64, by norm_num, by norm_num, by norm_num, by norm_num⟩, ?_, oneWord_exact _ (by norm_num)⟩
  have h := oneWord_run ops (oneWord (2 ^ 64)).tfidf.toFl (.fin (2 ^ 64)) rfl
  refine h.trans ?_
  have h1 : ops.mul (ops.add ops.zero ops.one) (.fin (2 ^ 64)) = .fin (2 ^ 64) := by
    rw [hops.mul, hops.add, hops.zero, hops.one]
    have e1 : Fl.add round32 (.fin 0) (.fin 1) = .fin 1 := by
      change Fl.round round32 (0 + 1) = _
      rw [(safe_between (x := 0 + 1) (j := 0) (k := 0) (.inr ⟨by norm_num, by norm_num⟩) (by norm_num) (by norm_num)).round,
        zero_add, rounding24.one]
    rw [e1]
    change Fl.round round32 (1 * 2 ^ 64) = _
    rw [(safe_between (x := 1 * 2 ^ 64) (j := 64) (k := 64) (.inr ⟨by norm_num, by norm_num⟩) (by norm_num) (by norm_num)).round,
      one_mul]
    have := round24_zpow 64
    exact congrArg Fl.fin (by exact_mod_cast this)
  have h2 : Fl.mul round32 (.fin (2 ^ 64)) (.fin (2 ^ 64)) = .inf false := by
    change Fl.round round32 (2 ^ 64 * 2 ^ 64) = _
    unfold Fl.round
    rw [if_pos]
    have := round32_overflow (x := 2 ^ 64 * 2 ^ 64) (by unfold limit32; norm_num)
    exact this
  rw [h1, normalize_one ops (.fin (2 ^ 64)) (.inf false) (by rw [hops.mul, h2, hops.zero, hops.add]; exact hops.sqrtInf), hops.pos, hops.div]
  rfl

/-- A number that is too small: the square of the term is 0, the term is not normalized, and the feature is `2^(-80)`
instead of 1. -/
theorem c94_underflow_counterexample (ops : FloatOps Fl) (hops : Machine32 ops) :
    Binary32 (1 / 2 ^ 80) ∧
    ((oneWord (1 / 2 ^ 80)).toFl.transform ops demoFeatEnv HashOrd.insertion ['x']).run demoWorld0 = .ok [.fin (1 / 2 ^ 80)] ∧
    ((oneWord (1 / 2 ^ 80)).toReal.transform realOps demoFeatEnv HashOrd.insertion ['x']).run demoWorld0 = .ok [1] := by
  have hb : Binary32 (1 / 2 ^ 80) := ⟨1, -80, by norm_num, by norm_num, by norm_num, by norm_num⟩
  refine ⟨hb, ?_, oneWord_exact _ (by norm_num)⟩
  have h := oneWord_run ops (oneWord (1 / 2 ^ 80)).tfidf.toFl (.fin (1 / 2 ^ 80)) rfl
  refine h.trans ?_
  have hround : Fl.round round32 (1 / 2 ^ 80) = .fin (1 / 2 ^ 80) := by
    have e : round32.rnd (1 / 2 ^ 80) = 1 / 2 ^ 80 := roundPlaces_grid places32 (binary32_grid hb)
    have hm : (1 : ℚ) / 2 ^ 80 ≤ round32.top := le_trans (by norm_num) round32.one_le
    have hm' : -round32.top ≤ (1 : ℚ) / 2 ^ 80 := by
      have := round32.one_le
      norm_num
      linarith
    rw [Fl.round_inRange hm' hm, e]
  have e1 : Fl.add round32 (.fin 0) (.fin 1) = .fin 1 := by
    change Fl.round round32 (0 + 1) = _
    rw [(safe_between (x := 0 + 1) (j := 0) (k := 0) (.inr ⟨by norm_num, by norm_num⟩) (by norm_num) (by norm_num)).round,
      zero_add, rounding24.one]
  have h1 : ops.mul (ops.add ops.zero ops.one) (.fin (1 / 2 ^ 80)) = .fin (1 / 2 ^ 80) := by
    rw [hops.mul, hops.add, hops.zero, hops.one, e1]
    change Fl.round round32 (1 * (1 / 2 ^ 80)) = _
    rw [one_mul, hround]
  have h2 : Fl.mul round32 (.fin (1 / 2 ^ 80)) (.fin (1 / 2 ^ 80)) = .fin 0 := by
    change Fl.round round32 (1 / 2 ^ 80 * (1 / 2 ^ 80)) = _
    have hsmall : round32.rnd (1 / 2 ^ 80 * (1 / 2 ^ 80)) = 0 := by
      change roundPlaces place32 _ = 0
      decide +kernel
    have hm := round32.one_le
    unfold Fl.round
    rw [hsmall, if_neg (by linarith), if_neg (by linarith)]
  have h3 : Fl.add round32 (.fin 0) (.fin 0) = .fin 0 := by
    change Fl.round round32 (0 + 0) = _
    rw [add_zero, (safe_between (x := 0) (j := 0) (k := 0) (.inl rfl) (by norm_num) (by norm_num)).round, rounding24.zero]
  obtain ⟨y, hy, herr⟩ := hops.sqrt 0 ⟨0, 0, by norm_num, by norm_num, by norm_num, by simp⟩ le_rfl
  have hy0 : y = 0 := by
    rw [Rat.cast_zero, Real.sqrt_zero, mul_zero, sub_zero] at herr
    have := abs_nonpos_iff.1 herr
    exact_mod_cast this
  rw [hy0] at hy
  rw [h1, normalize_one ops (.fin (1 / 2 ^ 80)) (.fin 0) (by rw [hops.mul, h2, hops.zero, hops.add, h3]; exact hy), hops.pos, hops.one, hops.div]
  change Outcome.ok [Fl.div round32 (.fin (1 / 2 ^ 80)) (.fin 1)] = _
  have h4 : Fl.div round32 (.fin (1 / 2 ^ 80)) (.fin 1) = .fin (1 / 2 ^ 80) := by
    simp only [Fl.div]
    rw [if_neg one_ne_zero, div_one, hround]
  rw [h4]

/-! ### Concrete cases -/

/-- A machine that adds from the left to the right. -/
noncomputable def demoMachine32 : FloatOps Fl where
  zero := .fin 0
  one := .fin 1
  add := Fl.add round32
  sub := Fl.sub round32
  mul := Fl.mul round32
  div := Fl.div round32
  neg := Fl.neg
  exp := fun x => match x with
    | .fin q => .fin (leftToRight.exp q)
    | .inf true => .fin 0
    | .inf false => .inf false
    | .nan => .nan
  sqrt := fun x => match x with
    | .fin q => if q < 0 then .nan else .fin (leftToRight.sqrt q)
    | .inf true => .nan
    | .inf false => .inf false
    | .nan => .nan
  pos := Fl.isPos
  dot a b := (a.zip b).foldr (fun p s => Fl.add round32 s (Fl.mul round32 p.1 p.2)) (.fin 0)

theorem demoMachine32_machine : Machine32 demoMachine32 where
  zero := rfl
  one := rfl
  add _ _ := rfl
  sub _ _ := rfl
  mul _ _ := rfl
  div _ _ := rfl
  neg _ := rfl
  pos _ := rfl
  sqrt x _ h0 := ⟨leftToRight.sqrt x, if_neg (not_lt.2 h0), leftToRight_machine.sqrt x h0⟩
  sqrtInf := rfl
  exp x _ := by
    refine .inl ⟨leftToRight.exp x, rfl, ?_, ?_⟩
    · have := (exp_scaled leftToRight_machine x).nonneg (Real.exp_pos _).le
      exact_mod_cast this
    · have := leftToRight_machine.exp x
      have h2 : (0 : ℝ) ≤ 1 / 2 ^ 149 := by positivity
      linarith
  dot a b := by
    change Dotted32 (a.zip b) ((a.zip b).foldr _ (.fin 0))
    induction a.zip b with
    | nil => exact .nil
    | cons p l ih =>
      have := Dotted32.sum ih (.product p.1 p.2)
      exact this.perm List.perm_append_comm

/-- Three intents, with the linear scores 0, 4 and 0. -/
def calmFl : FlClassifier where
  intentList := [some ['a'], some ['b'], none]
  featurizer := some (Featurizer.toFl ⟨⟨singleFns, [], [(['x'], 0), (['y'], 1)], [2, 3], none, none⟩, none⟩)
  logreg := some ⟨2, [fins [0, 0, 0], fins [4, 0, 0], fins [0, 0, 0]]⟩

theorem between_small {low high : ℤ} (hlow : low ≤ 0) (hhigh : 2 ≤ high) {q : ℚ} (h : q = 0 ∨ q = 2 ∨ q = 3 ∨ q = 4) :
    Between32 low high q := by
  have h1 : (2 : ℚ) ^ low ≤ 1 := by simpa using zpow_ge hlow
  have h2 : (4 : ℚ) ≤ 2 ^ high := by
    have := zpow_ge hhigh
    norm_num at this
    exact this
  rcases h with rfl | rfl | rfl | rfl
  · exact ⟨⟨0, 0, by norm_num, by norm_num, by norm_num, by norm_num⟩, .inl rfl⟩
  · exact ⟨⟨2, 0, by norm_num, by norm_num, by norm_num, by norm_num⟩, .inr ⟨by norm_num; linarith, by norm_num; linarith⟩⟩
  · exact ⟨⟨3, 0, by norm_num, by norm_num, by norm_num, by norm_num⟩, .inr ⟨by norm_num; linarith, by norm_num; linarith⟩⟩
  · exact ⟨⟨4, 0, by norm_num, by norm_num, by norm_num, by norm_num⟩, .inr ⟨by norm_num; linarith, by norm_num; linarith⟩⟩

theorem calm_ordinary : OrdinaryModel [2, 3] [0, 4, 0] [[0, 0], [0, 0], [0, 0]] where
  idf d hd := between_small (by norm_num) (by norm_num) (by simp at hd; tauto)
  intercept d hd := between_small (by norm_num) (by norm_num) (by simp at hd; tauto)
  coeffs row hr c hc := by
    apply between_small (by norm_num) (by norm_num)
    simp at hr
    subst hr
    simp at hc
    exact .inl hc

theorem calm_holds : calmFl.Holds ⟨⟨singleFns, [], [(['x'], 0), (['y'], 1)], [2, 3], none, none⟩, none⟩ [0, 4, 0] [[0, 0], [0, 0], [0, 0]] :=
  ⟨by decide, rfl, _, logReg_map Fl.fin calm_new, rfl⟩

/-- Every machine chooses the intent with the linear score 4: the hypotheses of the theorems can be met. -/
example (ops : FloatOps Fl) (hops : Machine32 ops) :
    ∃ p : ℚ, (calmFl.getIntent ops demoFeatEnv HashOrd.insertion ['x'] none).run demoWorld0 = .ok (some ['b'], .fin p) ∧
      4 / 5 - 1 / 1000 ≤ p := by
  obtain ⟨a, b, hx⟩ := steep_real_features
  have hrun : LogReg.run realOps ⟨2, [[0, 0, 0], [4, 0, 0], [0, 0, 0]].map reals⟩ [a, b]
      = .ok [sigmoid 0, sigmoid 4, sigmoid 0] := by
    rw [run_many rfl (by simp)]
    simp [reals, logit, realOps, sigmoid]
  have h0 : sigmoid 0 = 1 / 2 := by unfold sigmoid; norm_num
  have h4 : 4 / 5 ≤ sigmoid 4 := by
    unfold sigmoid
    have : Real.exp (-4) ≤ 1 / 4 := by
      rw [Real.exp_neg, inv_le_comm₀ (Real.exp_pos 4) (by norm_num)]
      have := Real.add_one_le_exp (4 : ℝ)
      norm_num at this ⊢
      linarith
    rw [le_div_iff₀ (by positivity)]
    linarith
  obtain ⟨e, he⟩ : ∃ e, ScoreError (reals [0, 4, 0]) ([[0, 0], [0, 0], [0, 0]].map reals) [a, b] 1 e := by
    refine ⟨_, _, ⟨4, [0, 0], by simp [reals], rfl, fun i hi => ?_, rfl⟩, rfl⟩
    match i, hi with
    | 0, _ => simp [reals]
    | 1, _ => simp [reals]
  have hce := calm_error he
  obtain ⟨p, hp, hpq⟩ := c94_decides ops hops demoFeatEnv HashOrd.insertion calmFl ['x'] (by decide) demoWorld0 none _ [0, 4, 0]
    [[0, 0], [0, 0], [0, 0]] calm_holds calm_ordinary (single_few _ rfl) [a, b] [sigmoid 0, sigmoid 4, sigmoid 0]
    ⟨hx _ rfl, _, logReg_reals calm_new, hrun⟩ (by simp) 1 (some ['b']) (sigmoid 4) e rfl rfl he (fun _ _ _ hl => by cases hl) (by
      intro i name' q' e' hi _ _ hq he'
      have := calm_error he'
      have hq' : q' = sigmoid 0 := by
        match i, hi, hq with
        | 0, _, hq => simpa using hq.symm
        | 1, hi, _ => exact absurd rfl hi
        | 2, _, hq => simpa using hq.symm
        | i + 3, _, hq => simp at hq
      rw [hq', h0]
      linarith)
  refine ⟨p, hp, ?_⟩
  have h5 : ((4 / 5 - 1 / 1000 : ℚ) : ℝ) ≤ p := by
    push_cast
    linarith [(abs_le.1 hpq).1]
  exact_mod_cast h5

/-- There is such a machine. -/
example : Machine32 demoMachine32 := demoMachine32_machine

end Snips
