import Verif.Spec.Filters
import Verif.Proofs.Reproducible
import Verif.Props.C02_Filter
import Verif.Props.C08_Ranking
import Verif.Props.C35_Decision

/-! Lemmas on filters that let the same intents through. -/

namespace Snips

theorem keptByWhitelist_iff (f : Option (List Text)) (r : IntentResult) :
    keptByWhitelist f r = true ↔ ∀ i, r.name = some i → Permits f i := by
  unfold keptByWhitelist Permits
  cases r.name <;> cases f <;> simp

theorem passesFilter_permits (f : Option (List Text)) (r : IntentResult) :
    Engine.passesFilter f r = true ↔ ∀ i, r.name = some i → Permits f i := by
  unfold Engine.passesFilter Permits
  cases r.name <;> cases f <;> simp

theorem allowedBy_on {known : List Text} {f f' : Option (List Text)} (h : SameOn known f f') {i : Text}
    (hi : i ∈ known) : allowedBy f i = allowedBy f' i := by
  rw [Bool.eq_iff_iff, allowedBy_iff, allowedBy_iff, h i hi]

theorem candidatesFrom_on (env : RuleEnv) (p : Lookup) (input : Text) {known : List Text}
    {f f' : Option (List Text)} (h : SameOn known f f') :
    ∀ l : List GroupedScope, (∀ s ∈ l, ∀ i ∈ s.intentGroup, i ∈ known) →
      p.candidatesFrom env input f l = p.candidatesFrom env input f' l
  | [], _ => rfl
  | s :: l, hl => by
    unfold Lookup.candidatesFrom
    have hf : s.intentGroup.filter (allowedBy f) = s.intentGroup.filter (allowedBy f') :=
      List.filter_congr fun i hi => allowedBy_on h (hl s (by simp) i hi)
    rw [candidatesFrom_on env p input h l fun s hs => hl s (by simp [hs]), hf]

theorem indexName_mem {l : List Text} {n : Int} {t : Text} (h : indexName l n = .ok t) : t ∈ l := by
  unfold indexName at h
  split at h
  · cases hg : l[n.toNat]? with
    | none => rw [hg] at h; cases h
    | some a =>
      rw [hg] at h
      simp only [Outcome.unwrap, Outcome.ok.injEq] at h
      subst h
      exact List.mem_of_getElem? hg
  · cases h

theorem lookup_parse_on (env : RuleEnv) (p : Lookup) (o : HashOrd) (input : Text) {known : List Text}
    {f f' : Option (List Text)} (h : SameOn known f f') (hk : (ParserModel.lookup env p).OnlyKnows known) :
    p.parse env o input f = p.parse env o input f' := by
  unfold Lookup.parse Lookup.parseTopIntents Lookup.getCandidates
  have : p.lookupOne env input f = p.lookupOne env input f' := by
    funext c
    unfold Lookup.lookupOne
    split
    · rename_i output _
      unfold Lookup.parseMapOutput
      split
      · rfl
      · cases hi : indexName p.intentsNames output.1 with
        | err e => rfl
        | panic => rfl
        | ok i =>
          show (if allowedBy f i = true then _ else _) = (if allowedBy f' i = true then _ else _)
          rw [allowedBy_on h (hk.2 i (indexName_mem hi))]
    · rfl
  rw [candidatesFrom_on env p input h _ hk.1, this]

theorem det_parse_on (env : RuleEnv) (p : Det) (o : HashOrd) (input : Text) {known : List Text}
    {f f' : Option (List Text)} (h : SameOn known f f') (hk : (ParserModel.deterministic env p).OnlyKnows known) :
    p.parse env o input f = p.parse env o input f' := by
  obtain ⟨hb, hk, _⟩ := hk
  unfold Det.parse Det.parseTopIntents
  have : (o.order 0 p.scopes).filter (fun s => p.inIntentsSet f s.1)
      = (o.order 0 p.scopes).filter fun s => p.inIntentsSet f' s.1 := by
    refine List.filter_congr fun s hs => ?_
    have hs := (o.perm 0 _).mem_iff.1 hs
    have hkey : s.1 ∈ p.slotEntities.keys := by
      rw [← detScopes_keys env.names, ← hb.scopes]
      exact List.mem_map.2 ⟨s, hs, rfl⟩
    rw [Bool.eq_iff_iff, inIntentsSet_iff hb f hs, inIntentsSet_iff hb f' hs, h _ (hk _ hkey)]
  rw [this]

theorem prob_parse_on (env : ProbEnv) (p : Prob) (o : HashOrd) (input : Text) {known : List Text}
    {f f' : Option (List Text)} (h : SameOn known f f') (hk : (ParserModel.probabilistic env p).OnlyKnows known) :
    p.parse env o input f = p.parse env o input f' := by
  have hrank : ∀ scores, p.classifier.rank scores f = p.classifier.rank scores f' := by
    intro scores
    unfold Classifier.rank
    congr 1
    refine List.filter_congr fun r hr => ?_
    rw [Bool.eq_iff_iff, keptByWhitelist_iff, keptByWhitelist_iff]
    obtain ⟨ns, hns, rfl⟩ := List.mem_map.1 hr
    have hmem := (List.of_mem_zip hns).1
    refine forall_congr' fun i => ?_
    constructor
    · intro h1 hi
      have hi' : ns.1 = some i := hi
      exact (h i (hk i (hi' ▸ hmem))).1 (h1 hi)
    · intro h1 hi
      have hi' : ns.1 = some i := hi
      exact (h i (hk i (hi' ▸ hmem))).2 (h1 hi)
  unfold Prob.parse Classifier.getIntent Classifier.getIntentsWithWhitelist
  simp only [hrank]

theorem ParserModel.parse_on {m : ParserModel} {known : List Text} (hk : m.OnlyKnows known)
    {f f' : Option (List Text)} (h : SameOn known f f') (o : HashOrd) (input : Text) :
    m.impl.parse o input f = m.impl.parse o input f' := by
  cases m with
  | lookup env p => exact lookup_parse_on env p o input h hk
  | deterministic env p => exact det_parse_on env p o input h hk
  | probabilistic env p => exact prob_parse_on env p o input h hk

theorem Engine.cascade_eq {e : Engine} {o : HashOrd} {input : Text} {f f' : Option (List Text)} {ns : Nat} :
    ∀ {ps : List ParserImpl} (i : Nat) (sc : ℚ), (∀ p ∈ ps, ∀ o, p.parse o input f = p.parse o input f') →
      e.cascade o input f ns i ps sc = e.cascade o input f' ns i ps sc
  | [], _, _, _ => rfl
  | p :: ps, i, sc, h => by
    simp only [Engine.cascade]
    rw [h p (by simp)]
    congr 1
    funext r
    rw [Engine.cascade_eq (ps := ps) (i + 1) r.intent.score fun q hq => h q (by simp [hq])]

/-! ### Names in rankings -/

theorem rankByWeight_names {rd : Rounding} {ms : List (Text × List InternalSlot)} {n : Nat} {r : InternalResult}
    (h : r ∈ rankByWeight rd (ms.map mkRes) n) : ∃ m ∈ ms, r.intent.name = some m.1 := by
  rw [rankByWeight_eq] at h
  have h := (sortDesc_perm _ _).mem_iff.1 (List.mem_of_mem_take h)
  rw [List.map_map] at h
  obtain ⟨m, hm, rfl⟩ := List.mem_map.1 h
  exact ⟨m, hm, rfl⟩

theorem completeRanking_names {intents : List Text} {top : List IntentResult} {r : IntentResult} {i : Text}
    (h : r ∈ completeRanking intents top) (hi : r.name = some i) : r ∈ top ∨ i ∈ intents := by
  unfold completeRanking at h
  rw [List.mem_append, List.mem_append] at h
  rcases h with (h | h) | h
  · exact Or.inl h
  · obtain ⟨j, hj, rfl⟩ := List.mem_map.1 h
    simp only [Option.some.injEq] at hi
    exact Or.inr (hi ▸ (List.mem_filter.1 hj).1)
  · rw [List.mem_singleton] at h
    subst h
    cases hi

theorem ParserModel.ranking_known {m : ParserModel} {known : List Text} (hk : m.OnlyKnows known) {o : HashOrd}
    {input : Text} {w : World} {rs : List IntentResult} (h : (m.impl.getIntents o input).run w = .ok rs)
    {r : IntentResult} (hr : r ∈ rs) {i : Text} (hi : r.name = some i) : i ∈ known := by
  cases m with
  | lookup env p =>
    change (p.getIntents env o input).run w = .ok rs at h
    unfold Lookup.getIntents at h
    rw [Prog.run_bind, Outcome.bind_ok] at h
    obtain ⟨top, htop, h⟩ := h
    simp only [Prog.run_ret, Outcome.ok.injEq] at h
    subst h
    obtain ⟨ms, _, h1, _, h3⟩ := lookup_top_run htop
    obtain ⟨ms', hp, h3⟩ := h3 o
    rw [h3, Outcome.ok.injEq] at htop
    subst htop
    rcases completeRanking_names hr hi with hr | hr
    · obtain ⟨r', hr', rfl⟩ := List.mem_map.1 hr
      obtain ⟨m, hm, hn⟩ := rankByWeight_names hr'
      rw [hn, Option.some.injEq] at hi
      obtain ⟨⟨_, _, _, _, _, _, _, _, _, n, _, _, hname, _⟩, _⟩ := h1 m.1 m.2 (hp.mem_iff.1 hm)
      exact hk.2 i (hi ▸ List.mem_of_getElem? hname)
    · exact hk.2 i hr
  | deterministic env p =>
    obtain ⟨hb, hk1, hk2⟩ := hk
    change (p.getIntents env o input).run w = .ok rs at h
    unfold Det.getIntents at h
    rw [Prog.run_bind, Outcome.bind_ok] at h
    obtain ⟨top, htop, h⟩ := h
    simp only [Prog.run_ret, Outcome.ok.injEq] at h
    subst h
    obtain ⟨ms, rfl, _, h3, _⟩ := det_top_run hb htop
    rcases completeRanking_names hr hi with hr | hr
    · obtain ⟨r', hr', rfl⟩ := List.mem_map.1 hr
      obtain ⟨m, hm, hn⟩ := rankByWeight_names hr'
      rw [hn, Option.some.injEq] at hi
      obtain ⟨_, s, hs, hsi, _⟩ := (h3 m.1 m.2).1 hm
      refine hk1 i ?_
      rw [← detScopes_keys env.names, ← hb.scopes]
      exact List.mem_map.2 ⟨s, hs, by rw [hsi, hi]⟩
    · exact hk2 i ((o.perm 2 _).mem_iff.1 hr)
  | probabilistic env p =>
    change (p.classifier.getIntentsWithWhitelist env.ops env.feat o input none).run w = .ok rs at h
    refine hk i ?_
    have hblank : ∀ r ∈ Classifier.getIntentsWithWhitelist.blank p.classifier, r.name ∈ p.classifier.intentList := by
      intro r hr
      unfold Classifier.getIntentsWithWhitelist.blank at hr
      obtain ⟨n, hn, rfl⟩ := List.mem_map.1 ((sortDesc_perm _ _).mem_iff.1 hr)
      exact hn
    unfold Classifier.getIntentsWithWhitelist at h
    rw [← hi]
    split at h
    · simp only [Prog.run_ret, Outcome.ok.injEq] at h
      subst h
      rw [List.mem_singleton] at hr
      subst hr
      cases hl : p.classifier.intentList with
      | nil => rw [hl] at hi; cases hi
      | cons a l =>
        simp only [List.head?_cons, Option.join_some, List.mem_cons, true_or]
    · split at h
      · simp only [Prog.run_ret, Outcome.ok.injEq] at h
        subst h
        exact hblank r hr
      · split at h
        · rw [Prog.run_bind, Outcome.bind_ok] at h
          obtain ⟨features, _, h⟩ := h
          rw [Prog.run_bind, Outcome.bind_ok] at h
          obtain ⟨scores, _, h⟩ := h
          simp only [Prog.run_ret, Outcome.ok.injEq] at h
          subst h
          have hr := (sortDesc_perm _ _).mem_iff.1 hr
          obtain ⟨ns, hns, rfl⟩ := List.mem_map.1 (List.mem_filter.1 hr).1
          exact (List.of_mem_zip hns).1
        · simp only [Prog.run_ret, Outcome.ok.injEq] at h
          subst h
          exact hblank r hr

theorem Engine.ranking_known {dataset : DatasetMetadata} {names : KindNames} {ps : List ParserModel}
    {known : List Text} (hk : ∀ m ∈ ps, m.OnlyKnows known) {o : HashOrd} {input : Text} {w : World}
    {ranked : List IntentResult} (h : ((Engine.ofParsers dataset names ps).getIntents o input).run w = .ok ranked)
    {r : IntentResult} (hr : r ∈ ranked) {i : Text} (hi : r.name = some i) : i ∈ known := by
  obtain ⟨j, rs, hj, hr'⟩ := (c08_sorted_nodup _ o w input ranked h).2.2 r hr
  unfold Engine.parserRanking Engine.ofParsers at hj
  rw [Option.map_eq_some_iff] at hj
  obtain ⟨q, hq, hrun⟩ := hj
  obtain ⟨m, hm, rfl⟩ := List.mem_map.1 (List.mem_of_getElem? hq)
  exact ParserModel.ranking_known (hk m hm) hrun hr' hi

/-! ### Effective filters -/

theorem IsFilterFor.permits {e : Engine} {wl bl eff : Option (List Text)} (h : e.IsFilterFor wl bl eff) {i : Text}
    (hi : i ∈ e.intents) : Permits eff i ↔ Allowed wl bl i := by
  unfold Engine.IsFilterFor at h
  cases eff with
  | none =>
    obtain ⟨rfl, rfl⟩ := h
    simp [Permits, Allowed]
  | some l =>
    have := h.2 i
    simp only [Permits, Option.some.injEq, forall_eq']
    rw [this]
    simp [hi]

end Snips
