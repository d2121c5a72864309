import Verif.Proofs.Nan
import Verif.Props.C40_Classifier

/-! # C70: infinite scores and scores that are not a number -/

namespace Snips

open Fl

/-- Every number, even an infinite one, has a finite confidence score between 0 and 1; only what is not a number does
not. -/
theorem c70_logit (r : FlRound) (e s : ℚ → ℚ) (dot : List Fl → List Fl → Fl) (he : ∀ q, 0 ≤ e q) :
    (∀ x, x ≠ nan → ∃ q, logit (ops r e s dot) x = fin q ∧ 0 ≤ q ∧ q ≤ 1) ∧
    logit (ops r e s dot) nan = nan ∧
    logit (ops r e s dot) (inf false) = fin 1 ∧ logit (ops r e s dot) (inf true) = fin 0 := by
  refine ⟨fun x hx => logit_finite s dot he hx, rfl, ?_, rfl⟩
  show div r (fin 1) (round r (1 + 0)) = fin 1
  have h1 := r.one_le
  rw [add_zero, round_inRange (by linarith) h1, r.one]
  have := (one_div_fin (r := r) (le_refl 1)).1
  rw [this]
  norm_num [r.one]

/-- Which scores are not numbers: those of the classes whose linear score is not one (both, if there is a single
row). -/
theorem c70_nan_scores (r : FlRound) (e s : ℚ → ℚ) (dot : List Fl → List Fl → Fl) (he : ∀ q, 0 ≤ e q)
    (m : LogReg Fl) (x scores : List Fl) (h : m.run (ops r e s dot) x = .ok scores) :
    (m.columns.length ≠ 1 → scores.length = m.columns.length ∧ ∀ (j : Nat) (col : List Fl), m.columns[j]? = some col →
      (scores[j]? = some nan ↔ dot (fin 1 :: x) col = nan)) ∧
    (∀ col, m.columns = [col] → (dot (fin 1 :: x) col = nan → scores = [nan, nan]) ∧
      (dot (fin 1 :: x) col ≠ nan → ∃ q, 0 ≤ q ∧ q ≤ 1 ∧ scores = [fin (r.rnd (1 - q)), fin q])) := by
  obtain ⟨_, h1, h2⟩ := run_ok h
  constructor
  · intro hlen
    rw [h1 hlen]
    refine ⟨by simp, fun j col hj => ?_⟩
    rw [List.getElem?_map, hj]
    simp only [Option.map_some, Option.some.injEq]
    constructor
    · intro hn
      by_contra hd
      obtain ⟨q, hq, _⟩ := (c70_logit r e s dot he).1 (dot (fin 1 :: x) col) hd
      have : logit (ops r e s dot) (dot (fin 1 :: x) col) = nan := hn
      rw [hq] at this
      cases this
    · intro hd
      show logit (ops r e s dot) (dot (fin 1 :: x) col) = nan
      rw [hd]
      rfl
  · intro col hcol
    have hs := h2 col hcol
    constructor
    · intro hd
      rw [hs]
      show [sub r (fin 1) (logit (ops r e s dot) (dot (fin 1 :: x) col)),
        logit (ops r e s dot) (dot (fin 1 :: x) col)] = _
      rw [hd]
      rfl
    · intro hd
      obtain ⟨q, hq, h0, h1'⟩ := (c70_logit r e s dot he).1 (dot (fin 1 :: x) col) hd
      refine ⟨q, h0, h1', ?_⟩
      rw [hs]
      show [sub r (fin 1) (logit (ops r e s dot) (dot (fin 1 :: x) col)),
        logit (ops r e s dot) (dot (fin 1 :: x) col)] = _
      rw [hq]
      have ht := r.one_le
      show [round r (1 + -q), fin q] = _
      rw [← sub_eq_add_neg, round_inRange (by linarith) (by linarith)]

theorem keptName_iff (whitelist : Option (List Text)) (name : Option Text) :
    keptName whitelist name = true ↔ Reportable whitelist name := by
  unfold keptName Reportable
  cases name with
  | none => simp
  | some i =>
    cases whitelist with
    | none => simp
    | some l => simp

open Classical in
/-- The ranking panics exactly when it has two or more results and one of their scores is not a number; otherwise it
consists of these results, none of them before one with a larger score. -/
theorem c70_ranking (fops : FloatOps Fl) (env : FeatEnv) (o : HashOrd) (c : FlClassifier) (input : Text) (w : World)
    (whitelist : Option (List Text)) (f : Featurizer Fl) (m : LogReg Fl) (features scores : List Fl)
    (h2 : 2 ≤ c.intentList.length) (hin : input ≠ []) (hf : c.featurizer = some f) (hm : c.logreg = some m)
    (hfeat : (f.transform fops env o input).run w = .ok features) (hs : m.run fops features = .ok scores)
    (kept : List (Option Text × Fl)) (hk : kept = (c.intentList.zip scores).filter fun ns => Reportable whitelist ns.1) :
    ((c.getIntentsWithWhitelist fops env o input whitelist).run w = .panic ↔
      2 ≤ kept.length ∧ ∃ ns ∈ kept, ns.2 = nan) ∧
    (¬ (2 ≤ kept.length ∧ ∃ ns ∈ kept, ns.2 = nan) → ∃ out,
      (c.getIntentsWithWhitelist fops env o input whitelist).run w = .ok out ∧ out.Perm kept ∧
      out.Pairwise fun a b => partialCmp a.2 b.2 ≠ some .lt) := by
  have hrun : (c.getIntentsWithWhitelist fops env o input whitelist).run w = sortByScore kept := by
    unfold FlClassifier.getIntentsWithWhitelist
    rw [if_neg (by omega), if_neg hin, hf, hm]
    simp only
    rw [Prog.run_bind, hfeat]
    simp only [Outcome.bind]
    rw [Prog.run_bind, Prog.run_ofOutcome, hs]
    simp only [Outcome.bind]
    rw [Prog.run_ofOutcome, hk]
    congr 1
    apply List.filter_congr
    intro ns _
    have := keptName_iff whitelist ns.1
    by_cases hr : Reportable whitelist ns.1
    · simp [hr, this.2 hr]
    · simp only [hr, decide_false]
      cases hkn : keptName whitelist ns.1 with
      | false => rfl
      | true => exact absurd (this.1 hkn) hr
  obtain ⟨h3, h4⟩ := sortByScore_cases kept
  rw [hrun]
  refine ⟨⟨fun hp => ?_, h3⟩, fun hgood => ?_⟩
  · by_contra hgood
    obtain ⟨l', hl', _⟩ := h4 hgood
    rw [hl'] at hp
    cases hp
  · obtain ⟨l', hl', hperm⟩ := h4 hgood
    refine ⟨l', hl', hperm, (sortByScore_sorted hl').imp ?_⟩
    intro a b hab hlt
    have ha : a.2 ≠ nan := fun h => by rw [partialCmp_none.2 (Or.inl h)] at hlt; cases hlt
    have hb : b.2 ≠ nan := fun h => by rw [partialCmp_none.2 (Or.inr h)] at hlt; cases hlt
    exact absurd ((partialCmp_lt ha hb).1 hlt) (not_lt.2 hab)

/-- Without features there is always an answer. -/
theorem c70_blank (fops : FloatOps Fl) (env : FeatEnv) (o : HashOrd) (c : FlClassifier) (input : Text) (w : World)
    (whitelist : Option (List Text))
    (h : c.intentList.length ≤ 1 ∨ input = [] ∨ c.featurizer = none ∨ c.logreg = none) :
    ∃ out, (c.getIntentsWithWhitelist fops env o input whitelist).run w = .ok out := by
  have hblank : ∃ out, (FlClassifier.getIntentsWithWhitelist.blank c).run w = .ok out := by
    unfold FlClassifier.getIntentsWithWhitelist.blank
    rw [Prog.run_ofOutcome]
    obtain ⟨out, hout, _⟩ := (sortByScore_cases (c.intentList.map fun n => (n, fin (if n = none then 1 else 0)))).2
      (by
        rintro ⟨_, ns, hns, hn⟩
        obtain ⟨n, _, rfl⟩ := List.mem_map.1 hns
        cases hn)
    exact ⟨out, hout⟩
  unfold FlClassifier.getIntentsWithWhitelist
  by_cases h1 : c.intentList.length ≤ 1
  · rw [if_pos h1]; exact ⟨_, rfl⟩
  · rw [if_neg h1]
    by_cases h2 : input = []
    · rw [if_pos h2]; exact hblank
    · rw [if_neg h2]
      rcases h.resolve_left h1 |>.resolve_left h2 with h3 | h3
      · rw [h3]; exact hblank
      · rw [h3]
        cases c.featurizer <;> exact hblank

/-- A single result is reported even if its score is not a number. -/
theorem c70_single (fops : FloatOps Fl) (env : FeatEnv) (o : HashOrd) (c : FlClassifier) (input : Text) (w : World)
    (whitelist : Option (List Text)) (f : Featurizer Fl) (m : LogReg Fl) (features scores : List Fl)
    (h2 : 2 ≤ c.intentList.length) (hin : input ≠ []) (hf : c.featurizer = some f) (hm : c.logreg = some m)
    (hfeat : (f.transform fops env o input).run w = .ok features) (hs : m.run fops features = .ok scores)
    (name : Option Text) (score : Fl)
    (hk : (c.intentList.zip scores).filter (fun ns => keptName whitelist ns.1) = [(name, score)]) :
    (c.getIntent fops env o input whitelist).run w = .ok (name, score) := by
  unfold FlClassifier.getIntent FlClassifier.getIntentsWithWhitelist
  rw [Prog.run_bind, if_neg (by omega), if_neg hin, hf, hm]
  simp only
  rw [Prog.run_bind, hfeat]
  simp only [Outcome.bind]
  rw [Prog.run_bind, Prog.run_ofOutcome, hs]
  simp only [Outcome.bind]
  rw [Prog.run_ofOutcome, hk]
  rfl

/-- With finite coefficients and features whose products are in range, and the terms added one after the other, every
score is a number between 0 and 1: nothing panics, even if the sum becomes infinite. -/
theorem c70_no_nan (r : FlRound) (e s : ℚ → ℚ) (he : ∀ q, 0 ≤ e q) (m : LogReg Fl) (x : List ℚ) (scores : List Fl)
    (hcols : ∀ col ∈ m.columns, ∃ c : List ℚ, col = c.map fin ∧ ProductsInRange r (1 :: x) c)
    (h : m.run (ops r e s (seqDot r)) (x.map fin) = .ok scores) : ∀ y ∈ scores, ∃ q, y = fin q ∧ 0 ≤ q ∧ q ≤ 1 := by
  have hdot : ∀ col ∈ m.columns, seqDot r (fin 1 :: x.map fin) col ≠ nan := by
    intro col hcol
    obtain ⟨c, rfl, hr⟩ := hcols col hcol
    refine foldl_add_ne_nan ?_ (by simp)
    rw [show fin 1 :: x.map fin = (1 :: x).map fin from rfl, List.zipWith_map]
    intro y hy
    obtain ⟨i, hi⟩ := List.mem_iff_getElem?.1 hy
    rw [List.getElem?_zipWith_eq_some] at hi
    obtain ⟨a, b, ha, hb, rfl⟩ := hi
    have := hr (a * b) (List.mem_iff_getElem?.2 ⟨i, by rw [List.getElem?_zipWith_eq_some]; exact ⟨a, b, ha, hb, rfl⟩⟩)
    exact ⟨_, round_inRange this.1 this.2⟩
  obtain ⟨_, h1, h2⟩ := run_ok h
  intro y hy
  by_cases hlen : m.columns.length = 1
  · obtain ⟨col, hcol⟩ := List.length_eq_one_iff.1 hlen
    obtain ⟨q, h0, h1', hq⟩ := ((c70_nan_scores r e s (seqDot r) he m _ scores h).2 col hcol).2
      (hdot col (by rw [hcol]; simp))
    rw [hq] at hy
    simp only [List.mem_cons, List.not_mem_nil, or_false] at hy
    rcases hy with rfl | rfl
    · refine ⟨_, rfl, Fl.rnd_nonneg (by linarith), ?_⟩
      have := r.mono (show 1 - q ≤ 1 by linarith)
      rwa [r.one] at this
    · exact ⟨q, rfl, h0, h1'⟩
  · rw [h1 hlen] at hy
    obtain ⟨col, hcol, rfl⟩ := List.mem_map.1 hy
    exact (c70_logit r e s (seqDot r) he).1 _ (hdot col hcol)

/-- An infinite coefficient of a feature that is absent from the sentence: the linear score is not a number. -/
theorem c70_infinite_coefficient (r : FlRound) (x col : List Fl) (i : Nat) (negative : Bool) (hx : x[i]? = some (fin 0))
    (hcol : col[i]? = some (inf negative)) : seqDot r x col = nan := by
  refine foldl_add_mem_nan (List.mem_iff_getElem?.2 ⟨i, ?_⟩) _
  rw [List.getElem?_zipWith_eq_some]
  exact ⟨_, _, hx, hcol, by simp [mul]⟩

/-- Infinite coefficients come from model files with numbers beyond the range of `f32`, and only from those. -/
theorem c70_json (r : FlRound) (q : ℚ) :
    (∃ negative, ofJson r (.float q) = .ok (inf negative)) ↔ r.top < r.rnd q ∨ r.rnd q < -r.top := by
  show (∃ negative, Outcome.ok (Fl.round r q) = .ok (inf negative)) ↔ _
  unfold Fl.round
  by_cases h1 : r.top < r.rnd q
  · simp [h1]
  · by_cases h2 : r.rnd q < -r.top
    · simp [h1, h2]
    · simp [h1, h2]

/-- The normalised tf-idf features of finite weights are numbers. -/
theorem c70_features (r : FlRound) (e s : ℚ → ℚ) (dot : List Fl → List Fl → Fl)
    (weights : List Fl) (h : AllFinite weights) :
    (normalizeVector (ops r e s dot) weights).length = weights.length ∧
    ∀ y ∈ normalizeVector (ops r e s dot) weights, y ≠ nan := by
  refine ⟨by simp [normalizeVector], ?_⟩
  intro y hy
  unfold normalizeVector at hy
  simp only at hy
  obtain ⟨c, hc, rfl⟩ := List.mem_map.1 hy
  obtain ⟨v, rfl⟩ := h c hc
  change div r (fin v) (if isPos (sqrt r s (weights.foldl (fun n v => add r n (mul r v v)) (fin 0)))
    then sqrt r s (weights.foldl (fun n v => add r n (mul r v v)) (fin 0)) else fin 1) ≠ nan
  have hdiv : ∀ d : Fl, (d = inf false ∨ ∃ q, q ≠ 0 ∧ d = fin q) → div r (fin v) d ≠ nan := by
    rintro d (rfl | ⟨q, hq, rfl⟩)
    · simp [div]
    · simp only [div, if_neg hq]
      exact round_ne_nan r _
  apply hdiv
  generalize sqrt r s _ = l2
  match l2 with
  | nan => exact Or.inr ⟨1, by norm_num, rfl⟩
  | inf true => exact Or.inr ⟨1, by norm_num, rfl⟩
  | inf false => exact Or.inl rfl
  | fin q =>
    by_cases hq : 0 < q
    · simp only [isPos, hq, decide_true, if_true]
      exact Or.inr ⟨q, ne_of_gt hq, rfl⟩
    · simp only [isPos, hq, decide_false]
      exact Or.inr ⟨1, by norm_num, rfl⟩

/-- On finite scores the ranking is the one of the model with finite scores (C40). -/
theorem c70_refines (c : Classifier) (scores : List ℚ) (whitelist : Option (List Text)) :
    sortByScore ((c.intentList.zip (scores.map fin)).filter fun ns => keptName whitelist ns.1) =
      .ok ((c.rank scores whitelist).map fun r => (r.name, fin r.score)) := by
  unfold Classifier.rank
  rw [← sortByScore_fin]
  congr 1
  rw [List.zip_map_right, List.filter_map, List.filter_map, List.map_map]
  congr 1

/-! ## Examples -/

/-- Numbers below a million, without rounding. -/
def crudeRound : FlRound :=
  ⟨id, 1000000, fun h => h, rfl, rfl, rfl, rfl, by norm_num⟩

/-- A crude exponential, and a square root that is exact for 0, 4 and 9. -/
def crudeFlOps : FloatOps Fl := ops crudeRound (fun q => if q ≤ 0 then 1 / (1 - q) else 1 + q)
  (fun q => (q + 6) / 5 * (if q = 0 then 0 else 1)) (seqDot crudeRound)

example : ∀ q : ℚ, 0 ≤ (if q ≤ 0 then 1 / (1 - q) else 1 + q) := by
  intro q
  split
  · apply div_nonneg <;> linarith
  · linarith

/-- The classifier of C40 with a model file in which one weight is too large. -/
def demoFlClassifier (weight : Fl) : FlClassifier where
  intentList := [some ['a'], some ['b'], none]
  featurizer := some ⟨⟨singleFns, [], [(['x'], 0), (['y'], 1)], [fin 2, fin 3], none, none⟩, none⟩
  logreg := some ⟨2, [[fin 0, fin 1, fin 0], [fin 0, fin 0, weight], [fin (-3), fin 0, fin 0]]⟩

/-- With finite weights the answer is the one of C40 (up to the exponential). -/
example : ((demoFlClassifier (fin 1)).getIntentsWithWhitelist crudeFlOps demoFeatEnv HashOrd.insertion ['x'] none).run
    demoWorld0 = .ok [(some ['a'], fin (2/3)), (some ['b'], fin (1/2)), (none, fin (1/5))] := by decide +kernel

/-- Even weights whose products reach the largest number. -/
example : ((demoFlClassifier (fin 1000000)).getIntentsWithWhitelist crudeFlOps demoFeatEnv HashOrd.insertion ['y']
    none).run demoWorld0 = .ok [(some ['b'], fin (1000001/1000002)), (some ['a'], fin (1/2)), (none, fin (1/5))] := by
  decide +kernel

/-- A weight of a million and one in the file becomes infinite; the sentence `x` does not contain its word, and the
classifier panics. -/
example : ofJson crudeRound (.float 1000001) = .ok (inf false) ∧
    ((demoFlClassifier (inf false)).getIntentsWithWhitelist crudeFlOps demoFeatEnv HashOrd.insertion ['x'] none).run
      demoWorld0 = .panic := by decide +kernel

/-- If the filter excludes the intent of the wrong score, the classifier does not panic. -/
example : ((demoFlClassifier (inf false)).getIntentsWithWhitelist crudeFlOps demoFeatEnv HashOrd.insertion ['x']
    (some [['a']])).run demoWorld0 = .ok [(some ['a'], fin (2/3)), (none, fin (1/5))] := by decide +kernel

/-- The sentence `y` contains the word: its intent has the score 1. -/
example : ((demoFlClassifier (inf false)).getIntent crudeFlOps demoFeatEnv HashOrd.insertion ['y'] none).run demoWorld0
    = .ok (some ['b'], fin 1) := by decide +kernel

/-- Two intents, one of which is filtered out: the other's score, not a number, is returned as the confidence. -/
example : (FlClassifier.getIntent crudeFlOps demoFeatEnv HashOrd.insertion
    ⟨[some ['a'], some ['b']], (demoFlClassifier nan).featurizer, some ⟨2, [[fin 0, fin 0, inf true]]⟩⟩ ['x']
    (some [['a']])).run demoWorld0 = .ok (some ['a'], nan) := by decide +kernel

example : ProductsInRange crudeRound [1, 1/2] [3, 1000000] := by
  intro p hp
  simp only [List.zipWith, List.mem_cons, List.not_mem_nil, or_false] at hp
  rcases hp with rfl | rfl <;> norm_num [crudeRound]

end Snips
