import Verif.Proofs.Filters
import Verif.Props.C40_Classifier

/-! Lemmas on stricter filters. -/

namespace Snips

/-! ### Fewer matches -/

theorem foldl_sublist_le (rd : Rounding) {l' l : List ℚ} (h : l'.Sublist l) (hw : ∀ w ∈ l, 0 ≤ w) :
    ∀ {acc' acc : ℚ}, acc' ≤ acc → rd.rnd acc = acc →
      l'.foldl (fun a w => rd.rnd (a + w)) acc' ≤ l.foldl (fun a w => rd.rnd (a + w)) acc := by
  induction h with
  | slnil => intro acc' acc h _; exact h
  | cons a _ ih =>
    intro acc' acc h hr
    rw [List.foldl_cons]
    refine ih (fun w hw' => hw w (by simp [hw'])) ?_ (rd.idem _)
    have h1 : acc ≤ rd.rnd (acc + a) := by
      have := rd.mono (x := acc) (y := acc + a) (by have := hw a (by simp); linarith)
      rwa [hr] at this
    exact le_trans h h1
  | cons_cons a _ ih =>
    intro acc' acc h hr
    rw [List.foldl_cons, List.foldl_cons]
    exact ih (fun w hw' => hw w (by simp [hw'])) (rd.mono (by linarith)) (rd.idem _)

/-- The confidence of a match does not fall when others are taken away. -/
theorem conf_sublist (rd : Rounding) {rs' rs : List InternalResult} (h : rs'.Sublist rs) {r : InternalResult}
    (hr : r ∈ rs') : confOf rd rs r.slots.length ≤ confOf rd rs' r.slots.length := by
  unfold confOf
  apply rd.mono
  have h1 := slotWeight_pos rd r.slots.length
  have h2 := weight_le_total rd hr
  have h3 : totalWeight rd (weights rd rs') ≤ totalWeight rd (weights rd rs) :=
    foldl_sublist_le rd (h.map _) (weights_nonneg rd rs) (le_refl _) rd.zero
  exact div_le_div_of_nonneg_left (le_of_lt h1) (by linarith) h3

/-- If a match wins, it also wins when others are taken away. -/
theorem pick_sublist (rd : Rounding) {ms' ms : List (Text × List InternalSlot)} (h : ms'.Sublist ms)
    {i : Text} (hi : (pickUnambiguous (rankByWeight rd (ms.map mkRes) 1)).intent.name = some i)
    (hm : ∀ sl, (i, sl) ∈ ms → (i, sl) ∈ ms') :
    let out := pickUnambiguous (rankByWeight rd (ms.map mkRes) 1)
    let out' := pickUnambiguous (rankByWeight rd (ms'.map mkRes) 1)
    out'.intent.name = some i ∧ out'.slots = out.slots ∧ out.intent.score ≤ out'.intent.score := by
  intro out out'
  rcases pick_cases' (ms := ms) rd with ⟨h1, _⟩ | ⟨m, hmem, h1, h2⟩
  · rw [h1] at hi; cases hi
  · rw [h1] at hi
    simp only [Option.some.injEq] at hi
    have hm' : m ∈ ms' := by
      have := hm m.2 (by rw [← hi]; exact hmem)
      rwa [← hi] at this
    have hc : confOf rd (ms.map mkRes) m.2.length ≤ confOf rd (ms'.map mkRes) m.2.length :=
      conf_sublist rd (h.map mkRes) (r := mkRes m) (List.mem_map.2 ⟨m, hm', rfl⟩)
    rcases pick_cases' (ms := ms') rd with ⟨_, h2'⟩ | ⟨m', hmem', h1', h2'⟩
    · exact absurd (h2' m hm') (not_le.2 (lt_of_lt_of_le h2 hc))
    · have := winner_unique rd hm' hmem' (lt_of_lt_of_le h2 hc) h2'
      subst this
      show (pickUnambiguous (rankByWeight rd (ms'.map mkRes) 1)).intent.name = some i ∧
        (pickUnambiguous (rankByWeight rd (ms'.map mkRes) 1)).slots = (pickUnambiguous (rankByWeight rd (ms.map mkRes) 1)).slots ∧
        (pickUnambiguous (rankByWeight rd (ms.map mkRes) 1)).intent.score
          ≤ (pickUnambiguous (rankByWeight rd (ms'.map mkRes) 1)).intent.score
      rw [h1, h1']
      exact ⟨by rw [← hi], rfl, hc⟩

/-! ### Deterministic parser -/

theorem forall₂_filter {α β : Type} {R : α → β → Prop} (q : α → Bool) : ∀ {l : List α} {bs : List β},
    List.Forall₂ R l bs → ∃ bs' : List β, bs'.Sublist bs ∧ List.Forall₂ R (l.filter q) bs'
  | [], _, h => by cases h; exact ⟨[], List.Sublist.refl _, List.Forall₂.nil⟩
  | a :: l, _, h => by
    cases h with
    | cons h1 h2 =>
      obtain ⟨bs', hs, hf⟩ := forall₂_filter q h2
      rw [List.filter_cons]
      split
      · exact ⟨_ :: bs', hs.cons_cons _, List.Forall₂.cons h1 hf⟩
      · exact ⟨bs', hs.cons _, hf⟩

theorem sublist_of_map_mkRes {ms' ms : List (Text × List InternalSlot)} (h : (ms'.map mkRes).Sublist (ms.map mkRes)) :
    ms'.Sublist ms := by
  obtain ⟨l, hl, he⟩ := List.sublist_map_iff.1 h
  have : Function.Injective mkRes := fun a b hab => mkRes_inj hab
  rw [List.map_inj_right this] at he
  rw [he]
  exact hl

theorem det_narrow {env : RuleEnv} {p : Det} (hb : p.Built env.names) {o : HashOrd} {w : World} {input : Text}
    {f f' : Option (List Text)} (hf : Narrower f f') {out : InternalResult}
    (h : (p.parse env o input f).run w = .ok out) :
    ∃ ms ms' : List (Text × List InternalSlot), ms'.Sublist ms ∧ (ms.map Prod.fst).Nodup ∧
      out = pickUnambiguous (rankByWeight env.rd (ms.map mkRes) 1) ∧
      (p.parse env o input f').run w = .ok (pickUnambiguous (rankByWeight env.rd (ms'.map mkRes) 1)) ∧
      ∀ i sl, (i, sl) ∈ ms → Permits f' i → (i, sl) ∈ ms' := by
  unfold Det.parse at h
  rw [Prog.run_bind, Outcome.bind_ok] at h
  obtain ⟨top, htop, h⟩ := h
  simp only [Prog.run_ret, Outcome.ok.injEq] at h
  have htop0 := htop
  unfold Det.parseTopIntents at htop
  rw [Prog.run_bind, Outcome.bind_ok] at htop
  obtain ⟨rs, hrs, htop⟩ := htop
  simp only [Prog.run_ret, Outcome.ok.injEq] at htop
  rw [Prog.run_mapM_ok] at hrs
  have hfil : (o.order 0 p.scopes).filter (fun s => p.inIntentsSet f' s.1)
      = ((o.order 0 p.scopes).filter (fun s => p.inIntentsSet f s.1)).filter fun s => p.inIntentsSet f' s.1 := by
    rw [List.filter_filter]
    refine List.filter_congr fun s hs => ?_
    have hs := (o.perm 0 _).mem_iff.1 hs
    rw [Bool.eq_iff_iff, Bool.and_eq_true, inIntentsSet_iff hb f hs, inIntentsSet_iff hb f' hs]
    exact ⟨fun h => ⟨h, hf _ h⟩, fun h => h.1⟩
  obtain ⟨rs', hsub, hrs'⟩ := forall₂_filter (fun s => p.inIntentsSet f' s.1) hrs
  rw [← hfil] at hrs'
  obtain ⟨ms, hms1, hms2, hms3⟩ := det_matches hrs
  obtain ⟨ms', hms1', hms2', hms3'⟩ := det_matches hrs'
  have hnd : (ms.map Prod.fst).Nodup := by
    refine List.Nodup.sublist hms2 ?_
    refine List.Nodup.sublist (List.Sublist.map Prod.fst List.filter_sublist) ?_
    exact ((o.perm 0 p.scopes).map Prod.fst).nodup_iff.2 hb.scopes_nodup
  refine ⟨ms, ms', ?_, hnd, by rw [← h, ← htop, hms1], ?_, ?_⟩
  · apply sublist_of_map_mkRes
    rw [← hms1, ← hms1']
    exact hsub.filterMap id
  · unfold Det.parse Det.parseTopIntents
    rw [Prog.run_bind, Prog.run_bind, Prog.run_mapM_ok.2 hrs']
    simp only [Outcome.bind, Prog.run_ret, hms1']
  · intro i sl hm hp
    obtain ⟨s, hs, hsi, hrun⟩ := (hms3 i sl).1 hm
    refine (hms3' i sl).2 ⟨s, ?_, hsi, hrun⟩
    rw [hfil, List.mem_filter]
    refine ⟨hs, ?_⟩
    have hs' := (o.perm 0 _).mem_iff.1 (List.mem_filter.1 hs).1
    rw [inIntentsSet_iff hb f' hs', hsi]
    exact hp

/-! ### Classifier -/

theorem rank_narrow (c : Classifier) (scores : List ℚ) {f f' : Option (List Text)} (hf : Narrower f f') :
    c.rank scores f' = (c.rank scores f).filter (keptByWhitelist f') := by
  unfold Classifier.rank
  rw [filter_sortDesc, List.filter_filter]
  congr 1
  refine List.filter_congr fun r _ => ?_
  rw [Bool.eq_iff_iff, Bool.and_eq_true, keptByWhitelist_iff, keptByWhitelist_iff]
  exact ⟨fun h => ⟨h, fun i hi => hf _ (h i hi)⟩, fun h => h.1⟩

theorem classifier_narrow {ops : FloatOps ℚ} {env : FeatEnv} {o : HashOrd} {c : Classifier} {input : Text} {w : World}
    {f f' : Option (List Text)} (hf : Narrower f f') {r : IntentResult}
    (h : (c.getIntent ops env o input f).run w = .ok r) (hk : ∀ i, r.name = some i → Permits f' i) :
    (c.getIntent ops env o input f').run w = .ok r := by
  by_cases hc : c.Scores input
  · unfold Classifier.getIntent at h ⊢
    rw [Prog.run_bind, Outcome.bind_ok] at h
    obtain ⟨rs, hrs, h⟩ := h
    obtain ⟨_, _, _, scores, _, _, _, _, rfl, hall⟩ := classifier_run hc hrs
    rw [Prog.run_bind, hall f', rank_narrow c scores hf]
    cases hl : c.rank scores f with
    | nil => rw [hl] at h; exact h
    | cons a l =>
      rw [hl] at h
      simp only [Prog.run_ret, Outcome.ok.injEq] at h
      subst h
      have : keptByWhitelist f' a = true := (keptByWhitelist_iff f' a).2 hk
      simp only [List.filter_cons, this, if_true, Outcome.bind, Prog.run_ret]
  · have hsame : c.getIntentsWithWhitelist ops env o input f' = c.getIntentsWithWhitelist ops env o input f := by
      unfold Classifier.getIntentsWithWhitelist
      by_cases h1 : c.intentList.length ≤ 1
      · rw [if_pos h1, if_pos h1]
      · by_cases h2 : input = []
        · rw [if_neg h1, if_neg h1, if_pos h2, if_pos h2]
        · rw [if_neg h1, if_neg h1, if_neg h2, if_neg h2]
          cases hfz : c.featurizer with
          | none => rfl
          | some a =>
            cases hlr : c.logreg with
            | none => rfl
            | some b =>
              exact absurd ⟨by omega, h2, by rw [hfz]; simp, by rw [hlr]; simp⟩ hc
    unfold Classifier.getIntent
    rw [hsame]
    exact h

theorem prob_narrow {env : ProbEnv} {p : Prob} {o : HashOrd} {input : Text} {w : World} {f f' : Option (List Text)}
    (hf : Narrower f f') {r : InternalResult} (h : (p.parse env o input f).run w = .ok r)
    (hk : ∀ i, r.intent.name = some i → Permits f' i) : (p.parse env o input f').run w = .ok r := by
  have hc := (c54_answer env p o w input f r h).1
  have hc' := classifier_narrow hf hc hk
  unfold Prob.parse at h ⊢
  rw [Prog.run_bind, hc] at h
  rw [Prog.run_bind, hc']
  exact h

end Snips
