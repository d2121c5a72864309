import Verif.Proofs.ClassRows

/-! C113: the classifier scores each intent by itself, whatever the other intents are and wherever it is listed. -/

namespace Snips

/-- A class listed in two models has the same score in both. -/
theorem c113_score (ops : FloatOps ℚ) (env : FeatEnv) (o : HashOrd) (f : Featurizer ℚ) (n n' : Nat) (c c' : Classifier)
    (rows rows' : List ClassRow) (hc : c.HasRows f n rows) (hc' : c'.HasRows f n' rows') (input : Text) (hi : input ≠ [])
    (w : World) (out out' : List IntentResult) (h : (c.getIntents ops env o input).run w = .ok out)
    (h' : (c'.getIntents ops env o input).run w = .ok out') (r : ClassRow) (hr : r ∈ rows) (hr' : r ∈ rows') :
    ∃ s, (⟨r.name, s⟩ : IntentResult) ∈ out ∧ (⟨r.name, s⟩ : IntentResult) ∈ out' := by
  unfold Classifier.getIntents at h h'
  rw [Rows.ranking hc hi, Outcome.bind_ok] at h
  rw [Rows.ranking hc' hi, Outcome.bind_ok] at h'
  obtain ⟨x, hx, h⟩ := h
  obtain ⟨x', hx', h'⟩ := h'
  rw [hx, Outcome.ok.injEq] at hx'
  subst hx'
  split at h
  · cases h
  split at h'
  · cases h'
  rw [Outcome.ok.injEq] at h h'
  have hk : keptByWhitelist none (Rows.entry ops x r) = true := by
    unfold keptByWhitelist
    cases (Rows.entry ops x r).name <;> rfl
  refine ⟨Rows.score ops x r, ?_, ?_⟩
  · rw [← h, mem_sortDesc, List.mem_filter]
    exact ⟨List.mem_map.2 ⟨r, hr, rfl⟩, hk⟩
  · rw [← h', mem_sortDesc, List.mem_filter]
    exact ⟨List.mem_map.2 ⟨r, hr', rfl⟩, hk⟩

/-- The order of the classes in the model file does not matter: the ranking has the same entries, in the same order unless
scores are equal. -/
theorem c113_order (ops : FloatOps ℚ) (env : FeatEnv) (o : HashOrd) (f : Featurizer ℚ) (n : Nat) (c c' : Classifier)
    (rows rows' : List ClassRow) (hc : c.HasRows f n rows) (hc' : c'.HasRows f n rows') (hp : rows.Perm rows') (input : Text)
    (hi : input ≠ []) (w : World) (whitelist : Option (List Text)) (out : List IntentResult)
    (h : (c.getIntentsWithWhitelist ops env o input whitelist).run w = .ok out) :
    ∃ out', (c'.getIntentsWithWhitelist ops env o input whitelist).run w = .ok out' ∧ out'.Perm out ∧
      ((out.map IntentResult.score).Nodup → out' = out) := by
  rw [Rows.ranking hc hi, Outcome.bind_ok] at h
  obtain ⟨x, hx, h⟩ := h
  split at h
  · cases h
  rename_i hl
  rw [Outcome.ok.injEq] at h
  have hpf := (hp.map (Rows.entry ops x)).filter (keptByWhitelist whitelist)
  refine ⟨sortDesc IntentResult.score ((rows'.map (Rows.entry ops x)).filter (keptByWhitelist whitelist)), ?_, ?_, ?_⟩
  · rw [Rows.ranking hc' hi, hx]
    show (if x.length ≠ n then _ else _) = _
    rw [if_neg hl]
  · rw [← h]
    exact (sortDesc_perm _ _).trans (hpf.symm.trans (sortDesc_perm _ _).symm)
  · intro hd
    rw [← h] at hd ⊢
    exact (Rows.sortDesc_unique hpf (((sortDesc_perm IntentResult.score _).map _).nodup_iff.1 hd)).symm

/-- `get_intent` gives the same answer for every order of the classes if one class is better than all others. -/
theorem c113_order_best (ops : FloatOps ℚ) (env : FeatEnv) (o : HashOrd) (f : Featurizer ℚ) (n : Nat) (c c' : Classifier)
    (rows rows' : List ClassRow) (hc : c.HasRows f n rows) (hc' : c'.HasRows f n rows') (hp : rows.Perm rows') (input : Text)
    (hi : input ≠ []) (w : World) (whitelist : Option (List Text)) (best : IntentResult) (rest : List IntentResult)
    (h : (c.getIntentsWithWhitelist ops env o input whitelist).run w = .ok (best :: rest))
    (hb : ∀ r ∈ rest, r.score < best.score) :
    (c'.getIntent ops env o input whitelist).run w = .ok best := by
  obtain ⟨out', h1, h2, _⟩ := c113_order ops env o f n c c' rows rows' hc hc' hp input hi w whitelist _ h
  unfold Classifier.getIntent
  rw [Prog.run_bind, h1]
  have hs : out'.Pairwise (fun a b => b.score ≤ a.score) := by
    rw [Rows.ranking hc' hi, Outcome.bind_ok] at h1
    obtain ⟨x, _, h1⟩ := h1
    split at h1
    · cases h1
    rw [Outcome.ok.injEq] at h1
    rw [← h1]
    exact sortDesc_pairwise _ _
  cases out' with
  | nil => exact absurd h2.length_eq (by simp)
  | cons a t =>
    show Outcome.ok a = Outcome.ok best
    congr 1
    rcases List.mem_cons.1 (h2.mem_iff.1 (List.mem_cons_self (a := a) (l := t))) with ha | ha
    · exact ha
    · have h3 := hb a ha
      rcases List.mem_cons.1 (h2.mem_iff.2 (List.mem_cons_self (a := best) (l := rest))) with h4 | h4
      · exact h4.symm
      · have := (List.pairwise_cons.1 hs).1 best h4
        exact absurd h3 (not_lt.2 this)

/-- Taking classes out of a model takes their entries out of the rankings and changes nothing else. -/
theorem c113_fewer (ops : FloatOps ℚ) (env : FeatEnv) (o : HashOrd) (f : Featurizer ℚ) (n : Nat) (c c' : Classifier)
    (rows rows' : List ClassRow) (hc : c.HasRows f n rows) (hc' : c'.HasRows f n rows') (keep : Option Text → Bool)
    (hk : rows = rows'.filter fun r => keep r.name) (input : Text) (hi : input ≠ []) (w : World)
    (whitelist : Option (List Text)) (out' : List IntentResult)
    (h : (c'.getIntentsWithWhitelist ops env o input whitelist).run w = .ok out') :
    (c.getIntentsWithWhitelist ops env o input whitelist).run w = .ok (out'.filter fun r => keep r.name) := by
  rw [Rows.ranking hc' hi, Outcome.bind_ok] at h
  obtain ⟨x, hx, h⟩ := h
  split at h
  · cases h
  rename_i hl
  rw [Outcome.ok.injEq] at h
  rw [Rows.ranking hc hi, hx]
  show (if x.length ≠ n then _ else _) = _
  rw [if_neg hl, ← h, filter_sortDesc, hk, List.filter_filter, List.filter_map, List.filter_map, List.filter_filter]
  congr 4
  funext r
  exact Bool.and_comm _ _

/-- A parse by the larger model that names an intent of the smaller one is the parse by the smaller model. -/
theorem c113_parse (env : ProbEnv) (o : HashOrd) (f : Featurizer ℚ) (n : Nat) (p p' : Prob) (rows rows' : List ClassRow)
    (hc : p.classifier.HasRows f n rows) (hc' : p'.classifier.HasRows f n rows') (keep : Option Text → Bool)
    (hk : rows = rows'.filter fun r => keep r.name)
    (hs : ∀ i, keep (some i) = true → p.slotFillers.get i = p'.slotFillers.get i) (input : Text) (hi : input ≠ []) (w : World)
    (whitelist : Option (List Text)) (res : InternalResult) (h : (p'.parse env o input whitelist).run w = .ok res)
    (hkeep : keep res.intent.name = true) :
    (p.parse env o input whitelist).run w = .ok res := by
  unfold Prob.parse at h ⊢
  rw [Prog.run_bind, Outcome.bind_ok] at h ⊢
  obtain ⟨r, hr, h⟩ := h
  have hname : r.name = res.intent.name := by
    cases hn : r.name with
    | none =>
      rw [hn, Prog.run_ret, Outcome.ok.injEq] at h
      rw [← h]
      exact hn.symm
    | some i =>
      rw [hn, Prog.run_bind, Outcome.bind_ok] at h
      obtain ⟨sl, _, h⟩ := h
      rw [Prog.run_ret, Outcome.ok.injEq] at h
      rw [← h]
      exact hn.symm
  refine ⟨r, ?_, ?_⟩
  · unfold Classifier.getIntent at hr ⊢
    rw [Prog.run_bind, Outcome.bind_ok] at hr ⊢
    obtain ⟨out', hout', hr⟩ := hr
    refine ⟨_, c113_fewer env.ops env.feat o f n _ _ rows rows' hc hc' keep hk input hi w whitelist out' hout', ?_⟩
    rw [Prog.run_ret, Outcome.ok.injEq] at hr ⊢
    cases out' with
    | nil => exact hr
    | cons a t =>
      simp only at hr
      subst hr
      rw [List.filter_cons_of_pos (by rw [hname]; exact hkeep)]
  · cases hn : r.name with
    | none => rw [hn] at h; exact h
    | some i =>
      rw [hn] at h
      unfold Prob.slotsOf at h ⊢
      have hsi := hs i (by rw [← hn, hname]; exact hkeep)
      dsimp only at h ⊢
      rw [hsi]
      exact h

/-- Further classes with lower scores do not change the answer. -/
theorem c113_more (ops : FloatOps ℚ) (env : FeatEnv) (o : HashOrd) (f : Featurizer ℚ) (n : Nat) (c c' : Classifier)
    (rows rows' : List ClassRow) (hc : c.HasRows f n rows) (hc' : c'.HasRows f n rows') (keep : Option Text → Bool)
    (hk : rows = rows'.filter fun r => keep r.name) (input : Text) (hi : input ≠ []) (w : World)
    (whitelist : Option (List Text)) (best : IntentResult) (rest out' : List IntentResult)
    (h : (c.getIntentsWithWhitelist ops env o input whitelist).run w = .ok (best :: rest))
    (h' : (c'.getIntentsWithWhitelist ops env o input whitelist).run w = .ok out')
    (hlow : ∀ r ∈ out', keep r.name = false → r.score < best.score) :
    (c'.getIntent ops env o input whitelist).run w = .ok best := by
  have hf := c113_fewer ops env o f n c c' rows rows' hc hc' keep hk input hi w whitelist out' h'
  rw [h, Outcome.ok.injEq] at hf
  unfold Classifier.getIntent
  rw [Prog.run_bind, h']
  have hs : out'.Pairwise (fun a b => b.score ≤ a.score) := by
    rw [Rows.ranking hc' hi, Outcome.bind_ok] at h'
    obtain ⟨x, _, h1⟩ := h'
    split at h1
    · cases h1
    rw [Outcome.ok.injEq] at h1
    rw [← h1]
    exact sortDesc_pairwise _ _
  cases out' with
  | nil => cases hf
  | cons a t =>
    show Outcome.ok a = Outcome.ok best
    congr 1
    cases ha : keep a.name with
    | true =>
      rw [List.filter_cons_of_pos (by exact ha)] at hf
      exact (List.cons.inj hf).1.symm
    | false =>
      have h1 := hlow a (by simp) ha
      rw [List.filter_cons_of_neg (by simp [ha])] at hf
      have hb : best ∈ t := (List.mem_filter.1 (hf ▸ List.mem_cons_self (a := best) (l := rest))).1
      exact absurd h1 (not_lt.2 ((List.pairwise_cons.1 hs).1 best hb))

/-- A model of two intents has a single row of coefficients, that of the second one.  Listing the intents the other way round
means the negated row, and exchanges the scores (exact arithmetic). -/
theorem c113_two_intents (b : ℝ) (ws x s : List ℝ) (m m' : LogReg ℝ) (hm : LogReg.new [b] [ws] = .ok m)
    (hm' : LogReg.new [-b] [ws.map fun v => -v] = .ok m') (h : m.run realOps x = .ok s) :
    m'.run realOps x = .ok s.reverse := by
  obtain ⟨z, hl, hz, _, h2⟩ := c39_scores [b] [ws] m x s hm h
  obtain ⟨z0, rfl⟩ := List.length_eq_one_iff.1 hl
  rw [h2 z0 rfl]
  obtain ⟨⟨first, hf, hn⟩, _⟩ := logRegNew_ok hm
  obtain ⟨⟨first', hf', hn'⟩, _⟩ := logRegNew_ok hm'
  simp only [List.getElem?_cons_zero, Option.some.injEq] at hf hf'
  have hlen : x.length = m'.nbFeatures := by
    rw [(run_ok h).1, hn, hn', ← hf, ← hf', List.length_map]
  obtain ⟨s', hs'⟩ : ∃ s', m'.run realOps x = .ok s' := by
    unfold LogReg.run
    rw [if_neg (by rw [hlen]; simp)]
    simp only
    split <;> exact ⟨_, rfl⟩
  obtain ⟨z', hl', hz', _, h2'⟩ := c39_scores [-b] [ws.map fun v => -v] m' x s' hm' hs'
  obtain ⟨z0', rfl⟩ := List.length_eq_one_iff.1 hl'
  rw [hs', h2' z0' rfl]
  obtain ⟨b1, v, hb1, hv, hvs, hz1⟩ := hz 0 z0 rfl
  obtain ⟨b2, v', hb2, hv', hvs', hz2⟩ := hz' 0 z0' rfl
  simp only [List.getElem?_cons_zero, Option.some.injEq] at hb1 hb2
  have hvw : ∀ i < x.length, ws[i]? = v[i]? := fun i hi => by simpa using hvs i hi
  have hvw' : v' = v.map fun y => -y := by
    apply List.ext_getElem?
    intro i
    by_cases hi : i < x.length
    · have := hvs' i hi
      simp only [List.getElem?_cons_zero, Option.bind_some, List.getElem?_map] at this
      rw [← this, List.getElem?_map, hvw i hi]
    · rw [List.getElem?_eq_none (by omega), List.getElem?_eq_none (by simp; omega)]
  have hneg : ∀ x v : List ℝ, (List.zipWith (· * ·) x (v.map fun y => -y)).sum = -(List.zipWith (· * ·) x v).sum := by
    intro x
    induction x with
    | nil => intro v; simp
    | cons a x ih =>
      intro v
      cases v with
      | nil => simp
      | cons c v =>
        simp only [List.map_cons, List.zipWith_cons_cons, List.sum_cons, ih]
        ring
  have hzz : z0' = -z0 := by
    rw [hz1, hz2, hvw', hneg, ← hb1, ← hb2]
    ring
  have hsig : sigmoid (-z0) = 1 - sigmoid z0 := by
    unfold sigmoid
    rw [neg_neg, Real.exp_neg]
    have := Real.exp_pos z0
    field_simp
    ring
  rw [hzz, hsig]
  simp

/-- The hypotheses are met: three classes, listed in two orders, and two of them. -/
example :
    let f : Featurizer ℚ := ⟨⟨singleFns, [], [(['x'], 0), (['y'], 1)], [2, 3], none, none⟩, none⟩
    let a : ClassRow := ⟨some ['a'], 0, [1, 0]⟩
    let b : ClassRow := ⟨some ['b'], 0, [0, 1]⟩
    let z : ClassRow := ⟨none, -3, [0, 0]⟩
    let swapped : Classifier := ⟨[none, some ['b'], some ['a']], some f, some ⟨2, [[-3, 0, 0], [0, 0, 1], [0, 1, 0]]⟩⟩
    let smaller : Classifier := ⟨[some ['a'], none], some f, some ⟨2, [[0, 1, 0], [-3, 0, 0]]⟩⟩
    demoClassifier.HasRows f 2 [a, b, z] ∧ swapped.HasRows f 2 [z, b, a] ∧ smaller.HasRows f 2 [a, z] ∧
    [a, b, z].Perm [z, b, a] ∧ [a, z] = [a, b, z].filter (fun r => decide (r.name ≠ some ['b'])) ∧
    (demoClassifier.getIntents crudeOps demoFeatEnv HashOrd.insertion ['x']).run demoWorld0
      = .ok [⟨some ['a'], 2/3⟩, ⟨some ['b'], 1/2⟩, ⟨none, 1/5⟩] ∧
    (swapped.getIntents crudeOps demoFeatEnv HashOrd.insertion ['x']).run demoWorld0
      = .ok [⟨some ['a'], 2/3⟩, ⟨some ['b'], 1/2⟩, ⟨none, 1/5⟩] ∧
    (smaller.getIntents crudeOps demoFeatEnv HashOrd.insertion ['x']).run demoWorld0
      = .ok [⟨some ['a'], 2/3⟩, ⟨none, 1/5⟩] := by
  refine ⟨⟨rfl, rfl, ⟨_, rfl, rfl⟩, by decide, by decide⟩, ⟨rfl, rfl, ⟨_, rfl, rfl⟩, by decide, by decide⟩,
    ⟨rfl, rfl, ⟨_, rfl, rfl⟩, by decide, by decide⟩, (List.reverse_perm [_, _, _]).symm, rfl, by decide +kernel,
    by decide +kernel, by decide +kernel⟩

/-- With equal scores the order in the model file decides. -/
theorem c113_ties :
    ∃ (f : Featurizer ℚ) (c c' : Classifier) (rows : List ClassRow), c.HasRows f 1 rows ∧ c'.HasRows f 1 rows.reverse ∧
      (c.getIntent crudeOps demoFeatEnv HashOrd.insertion ['x'] none).run demoWorld0 = .ok ⟨some ['a'], 1/2⟩ ∧
      (c'.getIntent crudeOps demoFeatEnv HashOrd.insertion ['x'] none).run demoWorld0 = .ok ⟨some ['b'], 1/2⟩ :=
  ⟨⟨⟨singleFns, [], [(['x'], 0)], [2], none, none⟩, none⟩,
    ⟨[some ['a'], some ['b']], some ⟨⟨singleFns, [], [(['x'], 0)], [2], none, none⟩, none⟩, some ⟨1, [[0, 0], [0, 0]]⟩⟩,
    ⟨[some ['b'], some ['a']], some ⟨⟨singleFns, [], [(['x'], 0)], [2], none, none⟩, none⟩, some ⟨1, [[0, 0], [0, 0]]⟩⟩,
    [⟨some ['a'], 0, [0]⟩, ⟨some ['b'], 0, [0]⟩], ⟨rfl, rfl, ⟨_, rfl, rfl⟩, by decide, by decide⟩,
    ⟨rfl, rfl, ⟨_, rfl, rfl⟩, by decide, by decide⟩, by decide +kernel, by decide +kernel⟩

end Snips
