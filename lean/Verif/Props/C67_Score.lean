import Verif.Props.C42_Cooc

/-! # C67: the score of an intent is the logistic function of its weights for the terms and word pairs of the
sentence -/

namespace Snips

/-- The feature vector consists of the tf-idf features, followed by the co-occurrence features if the model
has any; with any arithmetic. -/
theorem c67_blocks {F : Type} (ops : FloatOps F) (env : FeatEnv) (o : HashOrd) (f : Featurizer F) (input : Text)
    (w : World) (x : List F) :
    (f.transform ops env o input).run w = .ok x ↔
      ∃ t, (f.tfidf.transform ops env o input).run w = .ok t ∧
        (f.cooc = none → x = t) ∧
        ∀ v, f.cooc = some v → ∃ c, (v.transform ops env o input).run w = .ok c ∧ x = t ++ c := by
  unfold Featurizer.transform
  rw [Prog.run_bind, Outcome.bind_ok]
  cases hf : f.cooc with
  | none =>
    constructor
    · rintro ⟨t, ht, h⟩
      cases h
      exact ⟨_, ht, fun _ => rfl, fun v h => (by cases h)⟩
    · rintro ⟨t, ht, h, _⟩
      exact ⟨t, ht, by rw [h rfl]; rfl⟩
  | some v =>
    constructor
    · rintro ⟨t, ht, h⟩
      simp only [Prog.run_bind, Outcome.bind_ok] at h
      obtain ⟨c, hc, h⟩ := h
      cases h
      exact ⟨t, ht, fun h => (by cases h), fun v' h => (by cases h; exact ⟨c, hc, rfl⟩)⟩
    · rintro ⟨t, ht, _, h⟩
      obtain ⟨c, hc, rfl⟩ := h v rfl
      refine ⟨t, ht, ?_⟩
      simp only [Prog.run_bind, Outcome.bind_ok]
      exact ⟨c, hc, rfl⟩

/-- If one of the parts fails, so does the featurizer: the tf-idf features are computed first. -/
theorem c67_failure {F : Type} (ops : FloatOps F) (env : FeatEnv) (o : HashOrd) (f : Featurizer F) (input : Text)
    (w : World) (e : Err) :
    (f.transform ops env o input).run w = .err e ↔
      (f.tfidf.transform ops env o input).run w = .err e ∨
        ∃ t v, (f.tfidf.transform ops env o input).run w = .ok t ∧ f.cooc = some v ∧
          (v.transform ops env o input).run w = .err e := by
  unfold Featurizer.transform
  rw [Prog.run_bind]
  cases ht : (f.tfidf.transform ops env o input).run w with
  | err e' => simp [Outcome.bind]
  | panic => simp [Outcome.bind]
  | ok t =>
    cases hf : f.cooc with
    | none => simp [Outcome.bind, Prog.run]
    | some v =>
      simp only [Outcome.bind, Prog.run_bind]
      cases hv : (v.transform ops env o input).run w <;> simp [Prog.run, hv]

theorem zipWith_sum_eq_zipIdx (t : List ℝ) (weight : Nat → ℝ) :
    ∀ (ws : List ℝ) (n : Nat), ws.length = t.length → (∀ i < t.length, ws[i]? = some (weight (n + i))) →
      (List.zipWith (· * ·) t ws).sum = ((t.zipIdx n).map fun e => e.1 * weight e.2).sum := by
  induction t with
  | nil => intro ws n _ _; simp
  | cons a t ih =>
    intro ws n hl hw
    cases ws with
    | nil => simp at hl
    | cons b ws =>
      have hb := hw 0 (by simp)
      simp only [List.getElem?_cons_zero, Option.some.injEq, Nat.add_zero] at hb
      rw [List.zipWith_cons_cons, List.sum_cons, List.zipIdx_cons, List.map_cons, List.sum_cons, ← hb,
        ih ws (n + 1) (by simpa using hl)]
      intro i hi
      have := hw (i + 1) (by simpa using hi)
      rw [List.getElem?_cons_succ] at this
      rw [this]
      congr 2
      omega

/-- A linear score, with the weights as a function of the position. -/
theorem linearScore_weights {intercept : List ℝ} {coeffs : List (List ℝ)} {x : List ℝ} {j : Nat} {z : ℝ}
    (h : LinearScore intercept coeffs x j z) :
    ∃ (b : ℝ) (weight : Nat → ℝ), intercept[j]? = some b ∧
      (∀ i < x.length, ((coeffs[j]?).bind fun row => row[i]?) = some (weight i)) ∧
      z = b + (x.zipIdx.map fun e => e.1 * weight e.2).sum := by
  obtain ⟨b, ws, hb, hl, hw, hz⟩ := h
  have hget : ∀ i < x.length, ws[i]? = some (ws.getD i 0) := by
    intro i hi
    rw [List.getD_eq_getElem?_getD, List.getElem?_eq_getElem (by omega)]
    rfl
  refine ⟨b, fun i => ws.getD i 0, hb, fun i hi => ?_, ?_⟩
  · rw [hw i hi]; exact hget i hi
  · rw [hz, zipWith_sum_eq_zipIdx x (fun i => ws.getD i 0) ws 0 hl]
    intro i hi
    rw [Nat.zero_add]
    exact hget i hi

/-- The contribution of a block given by a consistently numbered table. -/
theorem table_sum (v : Cooc) (hv : v.Consistent) (c : List ℝ) (hl : c.length = v.wordPairs.length)
    (P : Text × Text → Prop) [DecidablePred P] (n : Nat) (weight : Nat → ℝ)
    (h : ∀ pair ix, (pair, ix) ∈ v.wordPairs → (P pair → c[ix]? = some 1) ∧ (¬ P pair → c[ix]? = some 0)) :
    ((c.zipIdx n).map fun e => e.1 * weight e.2).sum
      = (v.wordPairs.map fun e => if P e.1 then weight (n + e.2) else 0).sum := by
  have hperm : (v.wordPairs.map Prod.snd).Perm (List.range c.length) := by
    have hsub : (v.wordPairs.map Prod.snd).Subperm (List.range c.length) := by
      apply hv.indexes.subperm
      intro i hi
      obtain ⟨e, he, rfl⟩ := List.mem_map.1 hi
      rw [List.mem_range, hl]
      exact hv.bounded e he
    exact hsub.perm_of_length_le (by simp [hl])
  have e1 : (c.zipIdx n).map (fun e => e.1 * weight e.2)
      = (List.range c.length).map fun i => c.getD i 0 * weight (n + i) := by
    apply List.ext_getElem
    · simp
    · intro i h1 h2
      simp at h1
      simp [h1]
  rw [e1, ← (hperm.map _).sum_eq, List.map_map]
  congr 1
  apply List.map_congr_left
  rintro ⟨pair, ix⟩ he
  have hc := h pair ix he
  simp only [Function.comp]
  split
  · rename_i hp
    rw [List.getD_eq_getElem?_getD, hc.1 hp]; simp
  · rename_i hp
    rw [List.getD_eq_getElem?_getD, hc.2 hp]; simp

open Classical in
/-- With exact arithmetic, the score of each class is the logistic function of: its intercept, plus its
weights for the terms of the vocabulary times the normalised tf-idf vector of the words of the sentence, plus
the sum of its weights for those pairs of the table that co-occur in the sentence (with entities replaced by
their names, and without irrelevant words).  The weights for terms come first in the row of the class, those
for pairs after them.  (A model with one row has the two scores `1 - p` and `p`.) -/
theorem c67_linear (env : FeatEnv) (o : HashOrd) (f : Featurizer ℝ) (v : Cooc) (input : Text) (w : World)
    (intercept : List ℝ) (coeffs : List (List ℝ)) (m : LogReg ℝ) (x s : List ℝ)
    (hf : f.cooc = some v) (hv : v.Consistent) (bs : List BuiltinEntity) (cs : List CustomEntity)
    (hb : w.builtin input (some v.scope) 0 = .ok bs) (hc : w.custom input none 0 = .ok cs)
    (hbs : ∀ b ∈ bs, b.range.NonEmpty ∧ b.range.stop ≤ input.length)
    (hcs : ∀ c ∈ cs, c.range.NonEmpty ∧ c.range.stop ≤ input.length)
    (hsize : env.debugAssertions = true → input.length < 32768 ∧
      (replaceEntities input (bs.map (fun b => ⟨b.range, env.names.identifier b.kind⟩) ++
        cs.map fun c => ⟨c.range, c.identifier⟩) (fun n => v.fns.upper (v.fns.tokenizeLight n).flatten)).2.length
          < 32768)
    (hwin : ∀ size, v.windowSize = some size → ∀ t, (v.fns.tokenizeLight t).length + size < 2 ^ 64)
    (hx : (f.transform realOps env o input).run w = .ok x)
    (hm : LogReg.new intercept coeffs = .ok m) (hs : m.run realOps x = .ok s) :
    ∃ (bs' : List BuiltinEntity) (cs' : List CustomEntity) (words : List Text) (t : List ℝ)
      (segs : List Seg) (kept : List Text) (z : List ℝ),
      TfidfEntities w f.tfidf input bs' cs' ∧ TfidfWords env f.tfidf input bs' cs' words ∧
      TfidfVector f.tfidf words t ∧
      origText segs = input ∧
      (occs (fun n => v.fns.upper (v.fns.tokenizeLight n).flatten) 0 0 segs).map
          (fun oc => (⟨oc.orig, oc.name⟩ : MatchedEntity))
        = dedupEntities (bs.map (fun b => ⟨b.range, env.names.identifier b.kind⟩) ++
            cs.map fun c => ⟨c.range, c.identifier⟩) ∧
      RelevantTokens env v (v.fns.tokenizeLight
        (replText (fun n => v.fns.upper (v.fns.tokenizeLight n).flatten) segs)) kept ∧
      z.length = intercept.length ∧
      (intercept.length ≠ 1 → s = z.map sigmoid) ∧
      (∀ z0, z = [z0] → s = [1 - sigmoid z0, sigmoid z0]) ∧
      ∀ (j : Nat) (zj : ℝ), z[j]? = some zj → ∃ (b : ℝ) (weight : Nat → ℝ), intercept[j]? = some b ∧
        (∀ i < t.length + v.wordPairs.length, ((coeffs[j]?).bind fun row => row[i]?) = some (weight i)) ∧
        zj = b + (t.zipIdx.map fun e => e.1 * weight e.2).sum +
          (v.wordPairs.map fun e =>
            if CoOccur v.windowSize v.keepOrder kept e.1 then weight (t.length + e.2) else 0).sum := by
  obtain ⟨t, ht, _, hsome⟩ := (c67_blocks realOps env o f input w x).1 hx
  obtain ⟨c, hcr, rfl⟩ := hsome v hf
  obtain ⟨bs', cs', words, he, hw, hvec⟩ := c41_vector env o f.tfidf input w t ht
  obtain ⟨c', segs, kept, hrun, h1, h2, h3, h4, h5⟩ :=
    c42_entries realOps env o v input w bs cs hv hb hc hbs hcs hsize hwin
  rw [hcr] at hrun
  cases hrun
  obtain ⟨z, hz1, hz2, hz3, hz4⟩ := c39_scores intercept coeffs m _ s hm hs
  refine ⟨bs', cs', words, t, segs, kept, z, he, hw, hvec, h1, h2, h3, hz1, hz3, hz4, fun j zj hj => ?_⟩
  obtain ⟨b, weight, hb', hw', hz⟩ := linearScore_weights (hz2 j zj hj)
  refine ⟨b, weight, hb', fun i hi => hw' i (by simpa [h4] using hi), ?_⟩
  rw [hz, List.zipIdx_append, List.map_append, List.sum_append, ← add_assoc]
  congr 1
  rw [Nat.zero_add]
  exact table_sum v hv c h4 (fun p => CoOccur v.windowSize v.keepOrder kept p) t.length weight h5

/-- The same for a model without co-occurrence features. -/
theorem c67_linear_terms (env : FeatEnv) (o : HashOrd) (f : Featurizer ℝ) (input : Text) (w : World)
    (intercept : List ℝ) (coeffs : List (List ℝ)) (m : LogReg ℝ) (x s : List ℝ) (hf : f.cooc = none)
    (hx : (f.transform realOps env o input).run w = .ok x)
    (hm : LogReg.new intercept coeffs = .ok m) (hs : m.run realOps x = .ok s) :
    ∃ (bs : List BuiltinEntity) (cs : List CustomEntity) (words : List Text) (t : List ℝ) (z : List ℝ),
      TfidfEntities w f.tfidf input bs cs ∧ TfidfWords env f.tfidf input bs cs words ∧
      TfidfVector f.tfidf words t ∧
      z.length = intercept.length ∧
      (intercept.length ≠ 1 → s = z.map sigmoid) ∧
      (∀ z0, z = [z0] → s = [1 - sigmoid z0, sigmoid z0]) ∧
      ∀ (j : Nat) (zj : ℝ), z[j]? = some zj → ∃ (b : ℝ) (weight : Nat → ℝ), intercept[j]? = some b ∧
        (∀ i < t.length, ((coeffs[j]?).bind fun row => row[i]?) = some (weight i)) ∧
        zj = b + (t.zipIdx.map fun e => e.1 * weight e.2).sum := by
  obtain ⟨t, ht, hnone, _⟩ := (c67_blocks realOps env o f input w x).1 hx
  cases hnone hf
  obtain ⟨bs, cs, words, he, hw, hvec⟩ := c41_vector env o f.tfidf input w x ht
  obtain ⟨z, hz1, hz2, hz3, hz4⟩ := c39_scores intercept coeffs m _ s hm hs
  exact ⟨bs, cs, words, x, z, he, hw, hvec, hz1, hz3, hz4, fun j zj hj => linearScore_weights (hz2 j zj hj)⟩

/-- The ranking of the classifier, with any arithmetic: the intents of the model, in order, with the logistic
function of the inner product of the row of the intent, headed by its intercept, with `1`, the tf-idf
features and the co-occurrence features. -/
theorem c67_ranking (ops : FloatOps ℚ) (env : FeatEnv) (o : HashOrd) (c : Classifier) (input : Text)
    (hc : c.Scores input) (w : World) (out : List IntentResult)
    (intercept : List ℚ) (coeffs : List (List ℚ)) (m : LogReg ℚ) (hm : LogReg.new intercept coeffs = .ok m)
    (hlog : c.logreg = some m) (hn : intercept.length ≠ 1)
    (h : (c.getIntents ops env o input).run w = .ok out) :
    ∃ (f : Featurizer ℚ) (t more scores : List ℚ), c.featurizer = some f ∧
      (f.tfidf.transform ops env o input).run w = .ok t ∧
      (f.cooc = none → more = []) ∧
      (∀ v, f.cooc = some v → (v.transform ops env o input).run w = .ok more) ∧
      out.Perm (List.zipWith IntentResult.mk c.intentList scores) ∧
      scores.length = intercept.length ∧
      ∀ (j : Nat) (p : ℚ), scores[j]? = some p → ∃ (b : ℚ) (row : List ℚ), intercept[j]? = some b ∧ row.length = t.length + more.length ∧
        (∀ i < row.length, ((coeffs[j]?).bind fun r : List ℚ => r[i]?) = row[i]?) ∧
        p = logit ops (ops.dot ([ops.one] ++ t ++ more) (b :: row)) := by
  obtain ⟨f, m', x, scores, hf, hm', hx, hs, hp⟩ := c40_scores ops env o c input hc w out h
  rw [hlog] at hm'
  cases hm'
  obtain ⟨t, ht, hnone, hsome⟩ := (c67_blocks ops env o f input w x).1 hx
  obtain ⟨more, hx', hmore, hmore'⟩ : ∃ more, x = t ++ more ∧ (f.cooc = none → more = []) ∧
      ∀ v, f.cooc = some v → (v.transform ops env o input).run w = .ok more := by
    cases hco : f.cooc with
    | none => exact ⟨[], by rw [hnone hco, List.append_nil], fun _ => rfl, fun v h => (by cases h)⟩
    | some v =>
      obtain ⟨cc, h1, h2⟩ := hsome v hco
      exact ⟨cc, h2, fun h => (by cases h), fun v' h => (by cases h; exact h1)⟩
  obtain ⟨⟨first, _, hn'⟩, hcols⟩ := logRegNew_ok hm
  obtain ⟨hxl, h1, _⟩ := run_ok hs
  have hlen : m.columns.length = intercept.length := by
    rw [← hcols.length_eq]; simp
  have hsc := h1 (by rw [hlen]; exact hn)
  refine ⟨f, t, more, scores, hf, ht, hmore, hmore', hp, by rw [hsc, List.length_map, hlen], fun j p hj => ?_⟩
  rw [hsc, List.getElem?_map] at hj
  cases hcj : m.columns[j]? with
  | none => rw [hcj] at hj; simp at hj
  | some col =>
    rw [hcj] at hj
    simp only [Option.map_some, Option.some.injEq] at hj
    have hjl : j < intercept.length := by
      rw [← hlen]; exact (List.getElem?_eq_some_iff.1 hcj).1
    have hzip : ((List.range intercept.length).zip intercept)[j]? = some (j, intercept[j]) := by
      rw [List.getElem?_zip_eq_some]
      exact ⟨by simp [hjl], List.getElem?_eq_getElem hjl⟩
    obtain ⟨col', hcol', row, hrow, hcc⟩ := forall₂_getElem? hcols hzip
    rw [hcj] at hcol'
    cases hcol'
    obtain ⟨hrl, hri⟩ := coeffColumn_ok hrow
    refine ⟨intercept[j], row, List.getElem?_eq_getElem hjl, ?_, fun i hi => hri i (by omega), ?_⟩
    · rw [hrl, ← hxl, hx', List.length_append]
    · rw [← hj, hcc, hx']
      rfl

/-! ### Concrete cases -/

/-- Terms `x` and `y`, pairs `a b`, `a c` and `a d`. -/
def demoFeaturizer : Featurizer ℚ := ⟨demoTfidf, some (demoCooc false)⟩

/-- Terms first: tf-idf of `a b x`, then the pair `a b`. -/
example : (demoFeaturizer.transform demoSqrtOps demoFeatEnv3 HashOrd.insertion "abx".toList).run demoWorld0
    = .ok [3/9, 0, 1, 0, 0] := by decide +kernel

/-- The blocks are not interchangeable. -/
example : (demoFeaturizer.transform demoSqrtOps demoFeatEnv3 HashOrd.insertion "abx".toList).run demoWorld0
    ≠ .ok [1, 0, 0, 3/9, 0] := by decide +kernel

/-- A real model of the kind the theorems speak of, with its hypotheses. -/
example : ∃ (f : Featurizer ℝ) (v : Cooc) (m : LogReg ℝ) (x s : List ℝ), f.cooc = some v ∧ v.Consistent ∧
    (f.transform realOps demoFeatEnv3 HashOrd.insertion "abx".toList).run demoWorld0 = .ok x ∧
    LogReg.new [0, 1] [[1, 2, 3, 4, 5], [5, 4, 3, 2, 1]] = .ok m ∧ m.run realOps x = .ok s := by
  let f : Featurizer ℝ := ⟨⟨spacedFns, [], [(['x'], 0), (['y'], 1)], [3, 4], none, none⟩,
    some { demoCooc false with windowSize := none }⟩
  have hv : ({ demoCooc false with windowSize := none } : Cooc).Consistent := ⟨by decide, by decide, by decide⟩
  obtain ⟨t, ht⟩ := c41_total realOps demoFeatEnv3 HashOrd.insertion f.tfidf "abx".toList demoWorld0 [] []
    ⟨rfl, rfl⟩ (by simp [f]) (by simp [f])
  obtain ⟨c, _, _, hc, _, _, _, hl, _⟩ := c42_entries realOps demoFeatEnv3 HashOrd.insertion _ "abx".toList
    demoWorld0 [] [] hv rfl rfl (by simp) (by simp) (by intro h; cases h) (by intro size h; cases h)
  have htl : t.length = 2 := by
    obtain ⟨_, _, words, _, _, hvec⟩ := c41_vector demoFeatEnv3 HashOrd.insertion f.tfidf _ _ t ht
    have h1 := (hvec.length 1).2 ⟨(['y'], 1), by simp [f], Nat.le_refl _⟩
    have h2 : ¬ 2 < t.length := by
      rw [hvec.length 2]
      simp [f]
    omega
  have hrun : (f.transform realOps demoFeatEnv3 HashOrd.insertion "abx".toList).run demoWorld0 = .ok (t ++ c) :=
    (c67_blocks ..).2 ⟨t, ht, fun h => (by cases h), fun v h => (by cases h; exact ⟨c, hc, rfl⟩)⟩
  have hlen : (t ++ c).length = 5 := by
    rw [List.length_append, htl, hl]
    rfl
  have hs : ∃ s, (⟨5, [[0, 1, 2, 3, 4, 5], [1, 5, 4, 3, 2, 1]]⟩ : LogReg ℝ).run realOps (t ++ c) = .ok s := by
    unfold LogReg.run
    rw [if_neg (not_not.2 hlen)]
    exact ⟨_, rfl⟩
  obtain ⟨s, hs⟩ := hs
  exact ⟨f, _, _, t ++ c, s, rfl, hv, hrun, rfl, hs⟩

end Snips
