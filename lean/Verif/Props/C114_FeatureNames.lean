import Verif.Proofs.FeatureNames

/-! C114: the score of an intent depends on the words and word pairs of the sentence and on what the model says about these;
not on how features are numbered nor on the rest of the vocabulary. -/

namespace Snips

/-- In exact arithmetic the linear score of a class is its intercept, plus the share of the terms, plus the coefficients of
the pairs that co-occur: a formula in which no feature number appears. -/
theorem c114_formula (env : FeatEnv) (o : HashOrd) (f : Featurizer ℝ) (hn : f.Numbered) (input : Text) (w : World)
    (intercept : List ℝ) (coeffs : List (List ℝ)) (m : LogReg ℝ) (x s : List ℝ)
    (hx : (f.transform realOps env o input).run w = .ok x) (hm : LogReg.new intercept coeffs = .ok m)
    (hs : m.run realOps x = .ok s) :
    ∃ (bs : List BuiltinEntity) (cs : List CustomEntity) (words : List Text) (z : List ℝ),
      TfidfEntities w f.tfidf input bs cs ∧ TfidfWords env f.tfidf input bs cs words ∧
      z.length = intercept.length ∧ (intercept.length ≠ 1 → s = z.map sigmoid) ∧
      (∀ z0, z = [z0] → s = [1 - sigmoid z0, sigmoid z0]) ∧
      ∀ (j : Nat) (zj : ℝ), z[j]? = some zj → ∃ (b : ℝ) (row : List ℝ) (pairs : Finset (Text × Text)),
        intercept[j]? = some b ∧ coeffs[j]? = some row ∧
        (∀ p, p ∈ pairs ↔ (∃ v, f.cooc = some v ∧ v.Reads env w input p) ∧ f.pairEntry row p ≠ none) ∧
        zj = b + termShare words (f.tfidf.termEntry row) + ∑ p ∈ pairs, (f.pairEntry row p).getD 0 := by
  classical
  obtain ⟨t, ht, hnone, hsome⟩ := (c67_blocks realOps env o f input w x).1 hx
  obtain ⟨bs, cs, words, he, hw, hvec⟩ := c41_vector env o f.tfidf input w t ht
  obtain ⟨z, hz1, hz2, hz3, hz4⟩ := c39_scores intercept coeffs m _ s hm hs
  have hpos : 0 < t.length := by
    rcases Nat.eq_zero_or_pos t.length with h0 | h0
    · obtain ⟨words', _, hrun⟩ := tfidf_run realOps env o f.tfidf input w bs cs he
      rw [ht, tfidfVector_eq] at hrun
      cases hmx : (f.tfidf.vocabulary.map Prod.snd).max? with
      | none => rw [hmx] at hrun; cases hrun
      | some mx =>
        obtain ⟨e, he', _⟩ := List.mem_map.1 (List.max?_mem hmx)
        have := (hvec.length 0).2 ⟨e, he', Nat.zero_le _⟩
        omega
    · exact h0
  refine ⟨bs, cs, words, z, he, hw, hz1, hz3, hz4, fun j zj hj => ?_⟩
  obtain ⟨b, weight, hb, hwt, hz⟩ := linearScore_weights (hz2 j zj hj)
  have hlen : t.length ≤ x.length := by
    cases hf : f.cooc with
    | none => rw [hnone hf]
    | some v =>
      obtain ⟨c, _, rfl⟩ := hsome v hf
      simp
  obtain ⟨row, hrow⟩ : ∃ row, coeffs[j]? = some row := by
    have := hwt 0 (by omega)
    cases hc : coeffs[j]? with
    | none => rw [hc] at this; cases this
    | some row => exact ⟨row, rfl⟩
  rw [hrow] at hwt
  simp only [Option.bind_some] at hwt
  have hterms := ByName.share hn.numbers hvec row weight fun i hi => hwt i (by omega)
  cases hf : f.cooc with
  | none =>
    cases hnone hf
    refine ⟨b, row, ∅, hb, hrow, ?_, ?_⟩
    · intro p
      constructor
      · intro hp; cases hp
      · rintro ⟨⟨v, hv, _⟩, _⟩
        cases hv
    · rw [hz, ByName.sum_zipIdx, Finset.sum_empty, add_zero, ← hterms]
      simp only [Nat.zero_add]
  | some v =>
    obtain ⟨c, hcr, rfl⟩ := hsome v hf
    obtain ⟨hcl, hce⟩ := ByName.cooc_run (hn.pairs v hf) hcr
    have hpe : ∀ p, f.pairEntry row p = (v.wordPairs.get p).map fun ix => weight (t.length + ix) := by
      intro p
      unfold Featurizer.pairEntry
      rw [hf, Option.bind_some, ← ByName.size_eq hvec]
      cases hg : v.wordPairs.get p with
      | none => rfl
      | some ix =>
        rw [Option.bind_some, Option.map_some]
        apply hwt
        have := (hn.pairs v hf).bounded _ (Map.get_some_mem hg)
        rw [List.length_append, hcl]
        show t.length + ix < _
        simp only at this
        omega
    refine ⟨b, row, ((v.wordPairs.map Prod.fst).toFinset).filter (fun p => v.Reads env w input p), hb, hrow, ?_, ?_⟩
    · intro p
      rw [Finset.mem_filter, List.mem_toFinset, hpe]
      constructor
      · rintro ⟨h1, h2⟩
        obtain ⟨e, he', rfl⟩ := List.mem_map.1 h1
        refine ⟨⟨v, rfl, h2⟩, ?_⟩
        rw [Map.get_of_mem (hn.pairs v hf).pairs he']
        simp
      · rintro ⟨⟨v', hv', h2⟩, h3⟩
        cases hv'
        refine ⟨?_, h2⟩
        cases hg : v.wordPairs.get p with
        | none => rw [hg] at h3; exact absurd rfl h3
        | some ix => exact List.mem_map.2 ⟨_, Map.get_some_mem hg, rfl⟩
    · rw [hz, List.zipIdx_append, List.map_append, List.sum_append, ← add_assoc, ByName.sum_zipIdx t]
      simp only [Nat.zero_add]
      rw [hterms, table_sum v (hn.pairs v hf) c hcl (fun p => v.Reads env w input p) t.length weight hce,
        ByName.pairs_sum v.wordPairs (hn.pairs v hf).pairs (fun p => v.Reads env w input p)
          (fun ix => weight (t.length + ix)) (v.wordPairs.map Prod.fst).toFinset
          (fun e he' => List.mem_toFinset.2 (List.mem_map.2 ⟨e, he', rfl⟩)), Finset.sum_filter]
      congr 1
      apply Finset.sum_congr rfl
      intro p _
      rw [hpe]

/-- Two models that read sentences in the same way and say the same, for every class, about the words and the word pairs of
this sentence give it the same scores: whatever numbers their features have, and whatever else is in their vocabularies,
tables and rows. -/
theorem c114_same (env : FeatEnv) (o o' : HashOrd) (f f' : Featurizer ℝ) (hn : f.Numbered) (hn' : f'.Numbered)
    (hsame : f.SameReading f') (input : Text) (w : World) (intercept : List ℝ) (coeffs coeffs' : List (List ℝ))
    (m m' : LogReg ℝ) (x x' s s' : List ℝ)
    (hx : (f.transform realOps env o input).run w = .ok x) (hm : LogReg.new intercept coeffs = .ok m)
    (hs : m.run realOps x = .ok s)
    (hx' : (f'.transform realOps env o' input).run w = .ok x') (hm' : LogReg.new intercept coeffs' = .ok m')
    (hs' : m'.run realOps x' = .ok s')
    (hterms : ∀ t, f.tfidf.Reads env w input t → ∀ (j : Nat) (row row' : List ℝ), coeffs[j]? = some row →
      coeffs'[j]? = some row' → f.tfidf.termEntry row t = f'.tfidf.termEntry row' t)
    (hpairs : ∀ v p, f.cooc = some v → v.Reads env w input p → ∀ (j : Nat) (row row' : List ℝ), coeffs[j]? = some row →
      coeffs'[j]? = some row' → f.pairEntry row p = f'.pairEntry row' p) :
    s = s' := by
  obtain ⟨bs, cs, words, z, he, hw, hl, h1, h2, hz⟩ := c114_formula env o f hn input w intercept coeffs m x s hx hm hs
  obtain ⟨bs', cs', words', z', he', hw', hl', h1', h2', hz'⟩ :=
    c114_formula env o' f' hn' input w intercept coeffs' m' x' s' hx' hm' hs'
  have hperm : words.Perm words' := by
    unfold TfidfEntities at he he'
    unfold TfidfWords at hw hw'
    rw [← hsame.scope, ← hsame.fns, ← hsame.stemmer] at he'
    rw [← hsame.clusterer, ← hsame.fns, ← hsame.stemmer] at hw'
    have e1 := he.1.symm.trans he'.1
    have e2 := he.2.symm.trans he'.2
    cases e1
    cases e2
    exact hw.trans hw'.symm
  have hreads : ∀ p, (∃ v, f.cooc = some v ∧ v.Reads env w input p) ↔ ∃ v, f'.cooc = some v ∧ v.Reads env w input p := by
    intro p
    rcases hsame.cooc with ⟨h3, h4⟩ | ⟨v, pairs, h3, h4⟩
    · rw [h3, h4]
    · rw [h3, h4]
      constructor
      · rintro ⟨v', hv', hr⟩
        cases hv'
        exact ⟨_, rfl, hr⟩
      · rintro ⟨v', hv', hr⟩
        cases hv'
        exact ⟨_, rfl, hr⟩
  have hzz : z = z' := by
    apply List.ext_getElem (hl.trans hl'.symm)
    intro j hj hj'
    obtain ⟨b, row, P, hb, hrow, hP, hzj⟩ := hz j _ (List.getElem?_eq_getElem hj)
    obtain ⟨b', row', P', hb', hrow', hP', hzj'⟩ := hz' j _ (List.getElem?_eq_getElem hj')
    rw [hb, Option.some.injEq] at hb'
    rw [hzj, hzj', hb']
    have hte : termShare words (f.tfidf.termEntry row) = termShare words' (f'.tfidf.termEntry row') := by
      rw [← ByName.termShare_perm hperm]
      exact ByName.termShare_congr fun t ht => hterms t ⟨bs, cs, words, he, hw, ht⟩ j row row' hrow hrow'
    have hpe : ∀ p, (∃ v, f.cooc = some v ∧ v.Reads env w input p) → f.pairEntry row p = f'.pairEntry row' p := by
      rintro p ⟨v, hv, hr⟩
      exact hpairs v p hv hr j row row' hrow hrow'
    have hPP : P = P' := by
      apply Finset.ext
      intro p
      rw [hP, hP', ← hreads]
      constructor
      · rintro ⟨h3, h4⟩
        exact ⟨h3, by rw [← hpe p h3]; exact h4⟩
      · rintro ⟨h3, h4⟩
        exact ⟨h3, by rw [hpe p h3]; exact h4⟩
    rw [hte, hPP]
    congr 1
    apply Finset.sum_congr rfl
    intro p hp
    rw [← hPP] at hp
    rw [hpe p ((hP p).1 hp).1]
  subst hzz
  by_cases hone : intercept.length = 1
  · obtain ⟨z0, rfl⟩ := List.length_eq_one_iff.1 (hl.trans hone)
    rw [h2 z0 rfl, h2' z0 rfl]
  · rw [h1 hone, h1' hone]

theorem ByName.get_renumbered {K : Type} [DecidableEq K] (m : Map K Nat) (π : Nat → Nat) (k : K) :
    Map.get (m.map fun e => (e.1, π e.2)) k = (Map.get m k).map π := by
  induction m with
  | nil => rfl
  | cons e m ih =>
    rw [List.map_cons, Map.get_cons, Map.get_cons]
    split
    · rfl
    · exact ih

/-- The numbers of the features are only numbers: renumbering the terms (by `π`) and the pairs (by `ρ`), with the frequencies
and the coefficients of every class rearranged accordingly, leaves every score as it was. -/
theorem c114_renumbered (env : FeatEnv) (o o' : HashOrd) (f f' : Featurizer ℝ) (hn : f.Numbered) (hn' : f'.Numbered)
    (π ρ : Nat → Nat) (idf : List ℝ)
    (hf' : f' = ⟨{ f.tfidf with vocabulary := f.tfidf.vocabulary.map (fun e => (e.1, π e.2)), idf := idf },
      f.cooc.map fun v => { v with wordPairs := v.wordPairs.map fun e => (e.1, ρ e.2) }⟩)
    (input : Text) (w : World) (intercept : List ℝ) (coeffs coeffs' : List (List ℝ))
    (hidf : ∀ e ∈ f.tfidf.vocabulary, idf[π e.2]? = f.tfidf.idf[e.2]?)
    (hrows : ∀ (j : Nat) (row row' : List ℝ), coeffs[j]? = some row → coeffs'[j]? = some row' →
      (∀ e ∈ f.tfidf.vocabulary, row'[π e.2]? = row[e.2]?) ∧
      ∀ v, f.cooc = some v → ∀ e ∈ v.wordPairs, row'[f'.tfidf.size + ρ e.2]? = row[f.tfidf.size + e.2]?)
    (m m' : LogReg ℝ) (x x' s s' : List ℝ)
    (hx : (f.transform realOps env o input).run w = .ok x) (hm : LogReg.new intercept coeffs = .ok m)
    (hs : m.run realOps x = .ok s)
    (hx' : (f'.transform realOps env o' input).run w = .ok x') (hm' : LogReg.new intercept coeffs' = .ok m')
    (hs' : m'.run realOps x' = .ok s') :
    s = s' := by
  refine c114_same env o o' f f' hn hn' ?_ input w intercept coeffs coeffs' m m' x x' s s' hx hm hs hx' hm' hs' ?_ ?_
  · subst hf'
    refine ⟨rfl, rfl, rfl, rfl, ?_⟩
    cases hc : f.cooc with
    | none => exact Or.inl ⟨rfl, rfl⟩
    | some v => exact Or.inr ⟨v, _, rfl, rfl⟩
  · intro t _ j row row' hrow hrow'
    obtain ⟨h1, _⟩ := hrows j row row' hrow hrow'
    subst hf'
    unfold Tfidf.termEntry
    simp only
    rw [ByName.get_renumbered]
    cases hg : f.tfidf.vocabulary.get t with
    | none => rfl
    | some ix =>
      have hm := Map.get_some_mem hg
      have h2 := hidf _ hm
      have h3 := h1 _ hm
      simp only at h2 h3
      simp only [Option.bind_some, Option.map_some, h2, h3]
  · intro v p hv _ j row row' hrow hrow'
    obtain ⟨_, h1⟩ := hrows j row row' hrow hrow'
    unfold Featurizer.pairEntry
    have hc : f'.cooc = some { v with wordPairs := v.wordPairs.map fun e => (e.1, ρ e.2) } := by
      rw [hf', hv]
      rfl
    rw [hv, hc]
    simp only [Option.bind_some]
    rw [ByName.get_renumbered]
    cases hg : v.wordPairs.get p with
    | none => rfl
    | some ix =>
      have h2 := h1 v hv _ (Map.get_some_mem hg)
      simp only at h2
      simp only [Option.bind_some, Option.map_some, h2]

/-- Two models of the kind the theorems speak of: the second numbers `x` otherwise, and has the word `z` instead of `y`. -/
example : ∃ (f f' : Featurizer ℝ) (m m' : LogReg ℝ) (x x' s s' : List ℝ), f.Numbered ∧ f'.Numbered ∧ f.SameReading f' ∧
    (f.transform realOps demoFeatEnv HashOrd.insertion ['x']).run demoWorld0 = .ok x ∧
    LogReg.new [0, 1] [[1, 2], [5, 4]] = .ok m ∧ m.run realOps x = .ok s ∧
    (f'.transform realOps demoFeatEnv HashOrd.insertion ['x']).run demoWorld0 = .ok x' ∧
    LogReg.new [0, 1] [[9, 1], [8, 5]] = .ok m' ∧ m'.run realOps x' = .ok s' ∧
    (∀ t, f.tfidf.Reads demoFeatEnv demoWorld0 ['x'] t → ∀ (j : Nat) (row row' : List ℝ),
      ([[1, 2], [5, 4]] : List (List ℝ))[j]? = some row → ([[9, 1], [8, 5]] : List (List ℝ))[j]? = some row' →
      f.tfidf.termEntry row t = f'.tfidf.termEntry row' t) ∧ x ≠ x' := by
  let f : Featurizer ℝ := ⟨⟨singleFns, [], [(['x'], 0), (['y'], 1)], [3, 4], none, none⟩, none⟩
  let f' : Featurizer ℝ := ⟨⟨singleFns, [], [(['z'], 0), (['x'], 1)], [7, 3], none, none⟩, none⟩
  have hn : f.Numbered := ⟨by decide, by decide, by intro v h; cases h⟩
  have hn' : f'.Numbered := ⟨by decide, by decide, by intro v h; cases h⟩
  obtain ⟨t, ht⟩ := c41_total realOps demoFeatEnv HashOrd.insertion f.tfidf ['x'] demoWorld0 [] []
    ⟨rfl, rfl⟩ (by simp [f]) (by simp [f])
  obtain ⟨t', ht'⟩ := c41_total realOps demoFeatEnv HashOrd.insertion f'.tfidf ['x'] demoWorld0 [] []
    ⟨rfl, rfl⟩ (by simp [f']) (by simp [f'])
  have hr : (f.transform realOps demoFeatEnv HashOrd.insertion ['x']).run demoWorld0 = .ok t :=
    (c67_blocks ..).2 ⟨t, ht, fun _ => rfl, fun v h => (by cases h)⟩
  have hr' : (f'.transform realOps demoFeatEnv HashOrd.insertion ['x']).run demoWorld0 = .ok t' :=
    (c67_blocks ..).2 ⟨t', ht', fun _ => rfl, fun v h => (by cases h)⟩
  obtain ⟨bs, cs, words, he, hw, hvec⟩ := c41_vector demoFeatEnv HashOrd.insertion f.tfidf _ _ t ht
  obtain ⟨bs', cs', words', he', hw', hvec'⟩ := c41_vector demoFeatEnv HashOrd.insertion f'.tfidf _ _ t' ht'
  have hl : t.length = 2 := (ByName.size_eq hvec).trans rfl
  have hl' : t'.length = 2 := (ByName.size_eq hvec').trans rfl
  have hs : ∃ s, (⟨2, [[0, 1, 2], [1, 5, 4]]⟩ : LogReg ℝ).run realOps t = .ok s := by
    unfold LogReg.run
    rw [if_neg (not_not.2 hl)]
    exact ⟨_, rfl⟩
  have hs' : ∃ s, (⟨2, [[0, 9, 1], [1, 8, 5]]⟩ : LogReg ℝ).run realOps t' = .ok s := by
    unfold LogReg.run
    rw [if_neg (not_not.2 hl')]
    exact ⟨_, rfl⟩
  obtain ⟨s, hs⟩ := hs
  obtain ⟨s', hs'⟩ := hs'
  have hwords : ∀ bs cs words, TfidfEntities demoWorld0 f.tfidf ['x'] bs cs →
      TfidfWords demoFeatEnv f.tfidf ['x'] bs cs words → words.Perm [['x']] := by
    rintro bs cs words ⟨hb, hc⟩ hw
    cases hb
    cases hc
    exact hw
  refine ⟨f, f', _, _, t, t', s, s', hn, hn', ⟨rfl, rfl, rfl, rfl, Or.inl ⟨rfl, rfl⟩⟩, hr, rfl, hs, hr', rfl, hs', ?_, ?_⟩
  · rintro u ⟨bs, cs, words, h1, h2, h3⟩ j row row' hrow hrow'
    have hu : u = ['x'] := by
      have := (hwords bs cs words h1 h2).mem_iff.1 h3
      simpa using this
    subst hu
    match j with
    | 0 => cases hrow; cases hrow'; rfl
    | 1 => cases hrow; cases hrow'; rfl
    | j + 2 => cases hrow
  · intro htt
    have hx0 : ∀ y, t'[0]? = some y → y = 0 := fun y hy => hvec'.absent 0 y hy (by
      have hp : words'.Perm [['x']] := hwords bs' cs' words' he' hw'
      rw [termCount_perm hp]
      rfl)
    have hu : (t.map fun y => y * y).sum = 1 := hvec.unit ⟨0, 3, by
      have hp : words.Perm [['x']] := hwords bs cs words he hw
      rw [termCount_perm hp]
      decide, rfl, by norm_num⟩
    have hy0 : ∀ y, t[1]? = some y → y = 0 := fun y hy => hvec.absent 1 y hy (by
      have hp : words.Perm [['x']] := hwords bs cs words he hw
      rw [termCount_perm hp]
      rfl)
    match t, hl with
    | [a, b], _ =>
      rw [← htt] at hx0
      have h1 := hx0 a rfl
      have h2 := hy0 b rfl
      subst h1 h2
      simp at hu

end Snips
