import Verif.Proofs.Tfidf
import Verif.Props.C40_Classifier
import Mathlib.Tactic.Positivity
import Mathlib.Tactic.FieldSimp

/-! # C41: tf-idf vectors -/

namespace Snips

theorem joinWith_nil (l : List Text) : joinWith [] l = l.flatten := by
  induction l with
  | nil => rfl
  | cons a l ih =>
    cases l with
    | nil => simp [joinWith]
    | cons b l =>
      have : joinWith [] (a :: b :: l) = a ++ [] ++ joinWith [] (b :: l) := rfl
      rw [this, ih]; simp

theorem normalizeStem_eq (fns : TextFns) (toks : List Text) (stemmer : Option (Text → Text)) :
    normalizeStem fns toks stemmer = toks.map (tfidfWord fns stemmer) := by
  cases stemmer <;> rfl

theorem sortTexts_perm (l : List Text) : (sortTexts l).Perm l := List.perm_insertionSort _ _

/-- The extraction part of the vectorizer: the words, then the numeric part. -/
theorem tfidf_run {F : Type} (ops : FloatOps F) (env : FeatEnv) (o : HashOrd) (v : Tfidf F) (utterance : Text)
    (w : World) (bs : List BuiltinEntity) (cs : List CustomEntity) (h : TfidfEntities w v utterance bs cs) :
    ∃ words, TfidfWords env v utterance bs cs words ∧
      (v.transform ops env o utterance).run w = tfidfVector ops o v words := by
  obtain ⟨hb, hc⟩ := h
  unfold Tfidf.transform
  simp only [normalizeStem_eq]
  have e1 : ∀ k, builtinFeatureName v.fns env k
      = entityWord v.fns "builtinentityfeature".toList (env.names.identifier k) := by
    intro k; unfold builtinFeatureName entityWord; rw [joinWith_nil]
  have e2 : ∀ i, customFeatureName v.fns i = entityWord v.fns "entityfeature".toList i := by
    intro i; unfold customFeatureName entityWord; rw [joinWith_nil]
  simp only [Prog.run, hb, hc, Prog.run_ofOutcome, e1, e2, List.map_map]
  refine ⟨_, ?_, rfl⟩
  unfold TfidfWords
  generalize "builtinentityfeature".toList = p1
  generalize "entityfeature".toList = p2
  refine (((List.Perm.refl _).append ?_).append (List.Perm.refl _)).append ?_
  · exact sortTexts_perm _
  · cases v.clusterer with
    | none => exact List.Perm.refl _
    | some g => exact sortTexts_perm _

theorem tfidf_run_ok {F : Type} {ops : FloatOps F} {env : FeatEnv} {o : HashOrd} {v : Tfidf F} {utterance : Text}
    {w : World} {out : List F} (h : (v.transform ops env o utterance).run w = .ok out) :
    ∃ bs cs, TfidfEntities w v utterance bs cs := by
  unfold Tfidf.transform at h
  simp only [normalizeStem_eq] at h
  rw [Prog.run_builtinCached_ok] at h
  obtain ⟨bs, hb, h⟩ := h
  rw [Prog.run_custom_ok] at h
  obtain ⟨cs, hc, _⟩ := h
  exact ⟨bs, cs, hb, hc⟩

theorem addOnes_real (k : Nat) : addOnes realOps k 0 = (k : ℝ) := by
  unfold addOnes
  induction k with
  | zero => simp
  | succ k ih =>
    rw [Function.iterate_succ_apply', ih]
    simp [realOps]

theorem foldl_norm (l : List ℝ) (a : ℝ) :
    l.foldl (fun norm v => norm + v * v) a = a + (l.map fun x => x * x).sum := by
  induction l generalizing a with
  | nil => simp
  | cons x l ih => rw [List.foldl_cons, ih, List.map_cons, List.sum_cons]; ring

theorem sum_squares_nonneg (l : List ℝ) : 0 ≤ (l.map fun x => x * x).sum := by
  apply List.sum_nonneg
  intro x hx
  obtain ⟨y, _, rfl⟩ := List.mem_map.1 hx
  exact mul_self_nonneg y

theorem sum_squares_pos {l : List ℝ} {x : ℝ} (hx : x ∈ l) (h : x ≠ 0) : 0 < (l.map fun x => x * x).sum := by
  induction l with
  | nil => simp at hx
  | cons y l ih =>
    rw [List.map_cons, List.sum_cons]
    have h1 := mul_self_nonneg y
    have h2 := sum_squares_nonneg l
    rcases List.mem_cons.1 hx with rfl | hx
    · have := mul_self_pos.2 h; linarith
    · have := ih hx; linarith

theorem sum_squares_div (l : List ℝ) (k : ℝ) :
    ((l.map fun x => x / k).map fun x => x * x).sum = (l.map fun x => x * x).sum / (k * k) := by
  induction l with
  | nil => simp
  | cons y l ih =>
    simp only [List.map_cons, List.sum_cons] at ih ⊢
    rw [ih]
    ring

/-- The norm the code divides by. -/
theorem normalizeVector_real (l : List ℝ) :
    ∃ k : ℝ, 0 < k ∧ normalizeVector realOps l = l.map (fun x => x / k) ∧
      (0 < (l.map fun x => x * x).sum → k * k = (l.map fun x => x * x).sum) := by
  have hf : l.foldl (fun norm v => realOps.add norm (realOps.mul v v)) realOps.zero
      = (l.map fun x => x * x).sum := by
    have := foldl_norm l 0
    rw [zero_add] at this
    exact this
  unfold normalizeVector
  simp only [hf]
  by_cases hp : 0 < (l.map fun x => x * x).sum
  · refine ⟨Real.sqrt (l.map fun x => x * x).sum, Real.sqrt_pos.2 hp, ?_, ?_⟩
    · have : realOps.pos (realOps.sqrt (l.map fun x => x * x).sum) = true := by
        simp only [realOps, decide_eq_true_eq]
        exact Real.sqrt_pos.2 hp
      rw [this]
      rfl
    · intro _; exact Real.mul_self_sqrt hp.le
  · refine ⟨1, one_pos, ?_, fun h => absurd h hp⟩
    have : realOps.pos (realOps.sqrt (l.map fun x => x * x).sum) = false := by
      simp only [realOps, decide_eq_false_iff_not]
      rw [Real.sqrt_pos]
      exact hp
    rw [this]
    rfl

theorem tfidfVector_real {o : HashOrd} {v : Tfidf ℝ} {words : List Text} {out : List ℝ}
    (h : tfidfVector realOps o v words = .ok out) : TfidfVector v words out := by
  classical
  rw [tfidfVector_eq] at h
  cases hm : (v.vocabulary.map Prod.snd).max? with
  | none => rw [hm] at h; cases h
  | some m =>
    rw [hm] at h
    simp only at h
    split at h
    swap
    · cases h
    rename_i hall
    cases h
    obtain ⟨k, hk, hnv, hkk⟩ := normalizeVector_real (rawVector realOps v (m + 1) words)
    have hget : ∀ ix x, (normalizeVector realOps (rawVector realOps v (m + 1) words))[ix]? = some x →
        (termCount v.vocabulary words ix = 0 → x = 0) ∧
        (0 < termCount v.vocabulary words ix →
          ∃ d, v.idf[ix]? = some d ∧ x = termCount v.vocabulary words ix * d / k) := by
      intro ix x hx
      rw [hnv, List.getElem?_map] at hx
      unfold rawVector at hx
      rw [List.getElem?_map] at hx
      by_cases hix : ix < m + 1
      · rw [List.getElem?_range hix] at hx
        simp only [Option.map_some, Option.some.injEq] at hx
        constructor
        · intro h0
          rw [if_pos h0] at hx
          rw [← hx]
          simp [realOps]
        · intro hp
          rw [if_neg (by omega), List.getElem?_eq_getElem (hall ix hp)] at hx
          refine ⟨_, List.getElem?_eq_getElem (hall ix hp), ?_⟩
          rw [← hx]
          simp only [Option.elim]
          have : realOps.zero = (0 : ℝ) := rfl
          rw [this, addOnes_real]
          rfl
      · rw [List.getElem?_eq_none (l := List.range (m + 1)) (by rw [List.length_range]; omega)] at hx
        cases hx
    constructor
    · intro ix
      have hlen : (normalizeVector realOps (rawVector realOps v (m + 1) words)).length = m + 1 := by
        rw [hnv]; simp [rawVector]
      rw [hlen]
      have hmax := List.max?_eq_some_iff (α := Nat) |>.1 hm
      constructor
      · intro h
        obtain ⟨e, he, hem⟩ := List.mem_map.1 hmax.1
        exact ⟨e, he, by omega⟩
      · rintro ⟨e, he, hle⟩
        have := hmax.2 e.2 (List.mem_map.2 ⟨e, he, rfl⟩)
        omega
    · intro ix x hx h0
      exact (hget ix x hx).1 h0
    · exact ⟨k, hk, fun ix x hx hp => (hget ix x hx).2 hp⟩
    · rintro ⟨ix, d, hc, hd, hne⟩
      have hixm : ix < m + 1 := by
        have hpos : 0 < (words.filter fun w => v.vocabulary.get w = some ix).length := hc
        obtain ⟨w, hw⟩ := List.exists_mem_of_length_pos hpos
        have hw2 := (List.mem_filter.1 hw).2
        simp only [decide_eq_true_eq] at hw2
        have := max?_bound hm ix (List.mem_map.2 ⟨(w, ix), Map.get_some_mem hw2, rfl⟩)
        omega
      have hmem : (termCount v.vocabulary words ix : ℝ) * d ∈ rawVector realOps v (m + 1) words := by
        unfold rawVector
        refine List.mem_map.2 ⟨ix, List.mem_range.2 hixm, ?_⟩
        rw [if_neg (by omega), hd]
        simp only [Option.elim]
        have : realOps.zero = (0 : ℝ) := rfl
        rw [this, addOnes_real]
        rfl
      have hpos := sum_squares_pos hmem (mul_ne_zero (by exact_mod_cast hc.ne') hne)
      rw [hnv, sum_squares_div, hkk hpos, div_self hpos.ne']

/-- With exact arithmetic, the result of the vectorizer is the normalised tf-idf vector of the words of the
utterance. -/
theorem c41_vector (env : FeatEnv) (o : HashOrd) (v : Tfidf ℝ) (utterance : Text) (w : World) (out : List ℝ)
    (h : (v.transform realOps env o utterance).run w = .ok out) :
    ∃ bs cs words, TfidfEntities w v utterance bs cs ∧ TfidfWords env v utterance bs cs words ∧
      TfidfVector v words out := by
  obtain ⟨bs, cs, he⟩ := tfidf_run_ok h
  obtain ⟨words, hw, hr⟩ := tfidf_run realOps env o v utterance w bs cs he
  rw [hr] at h
  exact ⟨bs, cs, words, he, hw, tfidfVector_real h⟩

/-- A vocabulary numbered within the idf table, the idf values being positive: the norm is one if a known
term occurs, otherwise the vector is zero. -/
theorem c41_norm (env : FeatEnv) (o : HashOrd) (v : Tfidf ℝ) (utterance : Text) (w : World) (out : List ℝ)
    (hidf : ∀ d ∈ v.idf, 0 < d)
    (h : (v.transform realOps env o utterance).run w = .ok out) :
    ∃ bs cs words, TfidfEntities w v utterance bs cs ∧ TfidfWords env v utterance bs cs words ∧
      ((∃ t ∈ words, t ∈ v.vocabulary.keys) → (out.map (fun x => x * x)).sum = 1) ∧
      ((∀ t ∈ words, t ∉ v.vocabulary.keys) → ∀ x ∈ out, x = 0) := by
  obtain ⟨bs, cs, he⟩ := tfidf_run_ok h
  obtain ⟨words, hw, hr⟩ := tfidf_run realOps env o v utterance w bs cs he
  rw [hr] at h
  have hv := tfidfVector_real h
  refine ⟨bs, cs, words, he, hw, ?_, ?_⟩
  · rintro ⟨t, ht, hk⟩
    cases hg : v.vocabulary.get t with
    | none => exact absurd hk (Map.get_none_iff.1 hg)
    | some ix =>
      have hc : 0 < termCount v.vocabulary words ix :=
        List.length_pos_of_mem (List.mem_filter.2 ⟨ht, by simpa using hg⟩)
      have hlt : ix < out.length := (hv.length ix).2 ⟨(t, ix), Map.get_some_mem hg, Nat.le_refl _⟩
      obtain ⟨k, _, hp⟩ := hv.proportional
      obtain ⟨d, hd, _⟩ := hp ix _ (List.getElem?_eq_getElem hlt) hc
      exact hv.unit ⟨ix, d, hc, hd, (hidf d (List.mem_of_getElem? hd)).ne'⟩
  · intro hno x hx
    obtain ⟨ix, hix⟩ := List.mem_iff_getElem?.1 hx
    refine hv.absent ix x hix ?_
    unfold termCount
    rw [List.length_eq_zero_iff, List.filter_eq_nil_iff]
    intro t ht
    rw [Map.get_none_iff.2 (hno t ht)]
    simp

/-- The vector does not depend on the order of the words, with any arithmetic and any hash order: utterances
with the same words, counted with repetition, have the same vector. -/
theorem c41_order {F : Type} (ops : FloatOps F) (env : FeatEnv) (o o' : HashOrd) (v : Tfidf F)
    (utterance utterance' : Text) (w : World) (bs bs' : List BuiltinEntity) (cs cs' : List CustomEntity)
    (he : TfidfEntities w v utterance bs cs) (he' : TfidfEntities w v utterance' bs' cs')
    (words : List Text) (hw : TfidfWords env v utterance bs cs words)
    (hw' : TfidfWords env v utterance' bs' cs' words) :
    (v.transform ops env o utterance).run w = (v.transform ops env o' utterance').run w := by
  classical
  obtain ⟨ws, h1, h2⟩ := tfidf_run ops env o v utterance w bs cs he
  obtain ⟨ws', h1', h2'⟩ := tfidf_run ops env o' v utterance' w bs' cs' he'
  have hperm : ws.Perm ws' := (h1.trans hw.symm).trans (h1'.trans hw'.symm).symm
  rw [h2, h2', tfidfVector_eq, tfidfVector_eq]
  have hraw : ∀ n, rawVector ops v n ws = rawVector ops v n ws' := by
    intro n
    unfold rawVector
    apply List.map_congr_left
    intro ix _
    rw [termCount_perm hperm]
  simp only [hraw, termCount_perm hperm]

/-- The vectorizer answers if the extractors do, the vocabulary is not empty and its indexes are within the
idf table. -/
theorem c41_total {F : Type} (ops : FloatOps F) (env : FeatEnv) (o : HashOrd) (v : Tfidf F) (utterance : Text)
    (w : World) (bs : List BuiltinEntity) (cs : List CustomEntity) (he : TfidfEntities w v utterance bs cs)
    (hne : v.vocabulary ≠ []) (hix : ∀ e ∈ v.vocabulary, e.2 < v.idf.length) :
    ∃ out, (v.transform ops env o utterance).run w = .ok out := by
  classical
  obtain ⟨ws, h1, h2⟩ := tfidf_run ops env o v utterance w bs cs he
  rw [h2, tfidfVector_eq]
  cases hm : (v.vocabulary.map Prod.snd).max? with
  | none => rw [List.max?_eq_none_iff] at hm; exact absurd (List.map_eq_nil_iff.1 hm) hne
  | some m =>
    simp only
    rw [if_pos]
    · exact ⟨_, rfl⟩
    · intro ix hc
      have hpos : 0 < (ws.filter fun w => v.vocabulary.get w = some ix).length := hc
      obtain ⟨t, ht⟩ := List.exists_mem_of_length_pos hpos
      have ht2 := (List.mem_filter.1 ht).2
      simp only [decide_eq_true_eq] at ht2
      exact hix _ (Map.get_some_mem ht2)

/-- An empty vocabulary makes the vectorizer panic. -/
theorem c41_empty_vocabulary_counterexample {F : Type} (ops : FloatOps F) (env : FeatEnv) (o : HashOrd)
    (v : Tfidf F) (utterance : Text) (w : World) (bs : List BuiltinEntity) (cs : List CustomEntity)
    (he : TfidfEntities w v utterance bs cs) (hv : v.vocabulary = []) :
    (v.transform ops env o utterance).run w = .panic := by
  obtain ⟨ws, h1, h2⟩ := tfidf_run ops env o v utterance w bs cs he
  rw [h2]
  unfold tfidfVector
  rw [hv]
  rfl

/-! ### Concrete cases -/

/-- Words of one letter. -/
def spacedFns : TextFns := { singleFns with tokenizeLight := fun t => (t.filter (· ≠ ' ')).map fun c => [c] }

/-- Two words, the second one with a greater inverse document frequency. -/
def demoTfidf : Tfidf ℚ := ⟨spacedFns, [], [(['x'], 0), (['y'], 1)], [3, 4], none, none⟩

/-- Exact on squares of small numbers, which is enough for the example. -/
def demoSqrtOps : FloatOps ℚ := { crudeOps with sqrt := fun x => if x = 25 then 5 else x }

example : TfidfEntities demoWorld0 demoTfidf ['y', ' ', 'z', ' ', 'x'] [] [] := ⟨rfl, rfl⟩

example : TfidfWords demoFeatEnv demoTfidf ['y', ' ', 'z', ' ', 'x'] [] [] [['x'], ['y'], ['z']] := by
  unfold TfidfWords; decide

example : TfidfWords demoFeatEnv demoTfidf ['x', ' ', 'y', ' ', 'z'] [] [] [['x'], ['y'], ['z']] := by
  unfold TfidfWords; decide

example : (demoTfidf.transform demoSqrtOps demoFeatEnv HashOrd.insertion ['y', ' ', 'z', ' ', 'x']).run demoWorld0
    = .ok [3/5, 4/5] := by decide +kernel

example : (demoTfidf.transform demoSqrtOps demoFeatEnv HashOrd.insertion ['z']).run demoWorld0
    = .ok [0, 0] := by decide +kernel

example : ∀ d ∈ ([3, 4] : List ℝ), 0 < d := by
  intro d hd; simp at hd; rcases hd with rfl | rfl <;> norm_num

example : demoTfidf.vocabulary ≠ [] ∧ ∀ e ∈ demoTfidf.vocabulary, e.2 < demoTfidf.idf.length := by decide

/-- The hypotheses of `c41_vector` are met. -/
example : ∃ out, (Tfidf.transform realOps demoFeatEnv HashOrd.insertion
    ⟨spacedFns, [], [(['x'], 0), (['y'], 1)], [3, 4], none, none⟩ ['y', ' ', 'x']).run demoWorld0 = .ok out :=
  c41_total realOps demoFeatEnv _ _ _ _ [] [] ⟨rfl, rfl⟩ (by simp) (by simp)

end Snips
