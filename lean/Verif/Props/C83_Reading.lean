import Verif.Spec.Reading
import Verif.Props.C81_LookupTable
import Verif.Props.C62_Patterns
import Verif.Props.C69_Tags
import Verif.Props.C29_Features
import Verif.Props.C10_Resolution
import Verif.Props.C40_Classifier
import Verif.Props.C14_RuleSlots
import Verif.Props.C09_GetSlots
import Verif.Props.C03_Cascade
import Verif.Props.C01_Engine

/-! # C83: what an engine answers is what the sentence means to one of its parsers -/

namespace Snips

/-! ### Tagger -/

theorem features_of {fns : TextFns} {w : World} {os : List Offsetter} {toks : List Token}
    {features : List (List (Text × Text))} (h : (computeFeatures fns os toks).run w = .ok features) :
    FeaturesOf fns w os toks features := c29_window fns w os toks features h

theorem marks_of {codec : TagCodec} {f : SlotFiller} {w : World} {text : Text} {slots : List InternalSlot}
    (htok : TokenizerOk f.fns) (hal : f.InAlphabet codec)
    (hlen : ∀ tagger, f.tagger = some tagger → ∀ features tags, tagger.tag features = .ok tags →
      tags.length = features.length)
    (h : (f.getSlots codec text).run w = .ok slots) : f.Marks codec w text slots := by
  cases ht : f.tagger with
  | none =>
    unfold SlotFiller.getSlots at h
    rw [ht] at h
    cases h
    exact .inl ⟨rfl, .inl ht⟩
  | some tagger =>
    cases hp : f.processor with
    | none =>
      unfold SlotFiller.getSlots at h
      rw [ht, hp] at h
      cases h
      exact .inl ⟨rfl, .inr (.inl hp)⟩
    | some os =>
      by_cases hne : f.fns.tokenize text = []
      · unfold SlotFiller.getSlots at h
        rw [ht, hp] at h
        simp only [hne, if_true] at h
        cases h
        exact .inl ⟨rfl, .inr (.inr hne)⟩
      · right
        have h' := h
        unfold SlotFiller.getSlots at h'
        rw [ht, hp] at h'
        simp only [hne, if_false] at h'
        rw [Prog.run_bind, Outcome.bind_ok] at h'
        obtain ⟨features, hf, h'⟩ := h'
        rw [Prog.run_ofOutcome, Outcome.bind_ok_iff'] at h'
        obtain ⟨encoded, he, h'⟩ := h'
        rw [Outcome.bind_ok_iff'] at h'
        obtain ⟨tags, hd, -⟩ := h'
        have hd := mapOutcome_ok_iff.1 hd
        have hF := features_of hf
        have hn : tags.length = (f.fns.tokenize text).length := by
          rw [← hd.length_eq, hlen tagger ht features encoded he, hF.1]
        have hf' : (f.computeFeatures text).run w = .ok features := by
          unfold SlotFiller.computeFeatures
          rw [hp]
          simp only [hne, if_false]
          exact hf
        have hbio : f.scheme = .bio → ∀ t ∈ tags, BioTag t := by
          intro hs t hmem
          obtain ⟨k, hk, rfl⟩ := List.mem_iff_getElem.1 hmem
          have hk' : k < encoded.length := hd.length_eq ▸ hk
          exact hal hs tagger ht features encoded he _ (List.getElem_mem hk') _ (hd.get hk' hk)
        obtain ⟨spans, h1, h2⟩ := c69_any_answer codec f w text tagger os features encoded tags slots ht hp htok hne hf' he
          hd hn hbio h
        exact ⟨tagger, os, features, encoded, tags, spans, ht, hp, hF, he, hd, h1, h2⟩

/-! ### Classifier -/

theorem prefers_of {ops : FloatOps ℚ} {env : FeatEnv} {o : HashOrd} {c : Classifier} {w : World} {input : Text}
    {filter : Option (List Text)} (hfair : c.Fair) {r : IntentResult}
    (h : (c.getIntent ops env o input filter).run w = .ok r) {i : Text} (hi : r.name = some i) :
    c.Prefers ops env o w input filter i r.score := by
  have hsc : c.Scores input := by
    by_contra hno
    have hone : ∃ r', (c.getIntent ops env o input filter).run w = .ok r' ∧ r'.name = none := by
      by_cases h2 : 2 ≤ c.intentList.length
      · have hnone : none ∈ c.intentList := hfair.resolve_left (by intro h; rw [h] at h2; simp at h2)
        have hblank : (c.getIntentsWithWhitelist ops env o input filter).run w
            = .ok (Classifier.getIntentsWithWhitelist.blank c) := by
          unfold Classifier.getIntentsWithWhitelist
          rw [if_neg (by omega)]
          split
          · rfl
          · rename_i hin
            cases hf : c.featurizer with
            | none => rfl
            | some f =>
              cases hm : c.logreg with
              | none => rfl
              | some m => exact absurd ⟨h2, hin, by rw [hf]; simp, by rw [hm]; simp⟩ hno
        obtain ⟨r', rest, hb, hr⟩ := blank_head c hnone
        refine ⟨_, c40_first ops env o c input w filter _ hblank, ?_⟩
        rw [hb]
        exact hr
      · have hnil : c.intentList.head?.join = none := by
          rcases hfair with h | h
          · rw [h]; rfl
          · match hl : c.intentList with
            | [] => rfl
            | [x] => rw [hl, List.mem_singleton] at h; rw [← h]; rfl
            | _ :: _ :: _ => rw [hl] at h2; simp at h2
        unfold Classifier.getIntent Classifier.getIntentsWithWhitelist
        rw [if_pos (by omega), hnil]
        exact ⟨_, rfl, rfl⟩
    obtain ⟨r', h1, h2⟩ := hone
    rw [h] at h1
    cases h1
    rw [hi] at h2
    cases h2
  unfold Classifier.getIntent at h
  rw [Prog.run_bind, Outcome.bind_ok] at h
  obtain ⟨rs, hrs, h⟩ := h
  simp only [Prog.run_ret, Outcome.ok.injEq] at h
  obtain ⟨f, m, features, scores, h1, h2, h3, h4, rfl, -⟩ := classifier_run hsc hrs
  have hkept : ∀ x : IntentResult, keptByWhitelist filter x = true ↔ ∀ i, x.name = some i → Permits filter i := by
    intro x
    unfold keptByWhitelist Permits
    cases x.name <;> cases filter <;> simp
  cases hr : c.rank scores filter with
  | nil => rw [hr] at h; rw [← h] at hi; cases hi
  | cons r' rest =>
    rw [hr] at h
    simp only at h
    subst h
    have hmem : r' ∈ c.rank scores filter := by rw [hr]; simp
    have hsort : (c.rank scores filter).Pairwise (fun a b => b.score ≤ a.score) := sortDesc_pairwise _ _
    have hbest : ∀ x ∈ c.rank scores filter, x.score ≤ r'.score := by
      rw [hr] at hsort ⊢
      intro x hx
      rcases List.mem_cons.1 hx with rfl | hx
      · exact le_refl _
      · exact (List.pairwise_cons.1 hsort).1 x hx
    have hin : ∀ x, x ∈ c.rank scores filter ↔
        (x.name, x.score) ∈ c.intentList.zip scores ∧ ∀ i, x.name = some i → Permits filter i := by
      intro x
      unfold Classifier.rank
      rw [mem_sortDesc, List.mem_filter, hkept, List.mem_map]
      constructor
      · rintro ⟨⟨ns, hns, rfl⟩, hp⟩
        exact ⟨hns, hp⟩
      · rintro ⟨hns, hp⟩
        exact ⟨⟨_, hns, rfl⟩, hp⟩
    obtain ⟨g1, g2⟩ := (hin r').1 hmem
    rw [hi] at g1
    exact ⟨f, m, features, scores, h1, h2, h3, h4, g1, g2 i hi, fun name s hns hperm =>
      hbest ⟨name, s⟩ ((hin ⟨name, s⟩).2 ⟨hns, hperm⟩)⟩

/-! ### Parsers -/

theorem det_score {env : RuleEnv} {p : Det} (hb : p.Built env.names) {o : HashOrd} {w : World} {input : Text}
    {filter : Option (List Text)} {out : InternalResult} (h : (p.parse env o input filter).run w = .ok out) {i : Text}
    (hi : out.intent.name = some i) : 1 / 2 < out.intent.score ∧ out.intent.score ≤ 1 := by
  unfold Det.parse at h
  rw [Prog.run_bind, Outcome.bind_ok] at h
  obtain ⟨top, htop, h⟩ := h
  simp only [Prog.run_ret, Outcome.ok.injEq] at h
  obtain ⟨ms, rfl, hn, h3, _⟩ := det_top_run hb htop
  subst h
  rcases pick_cases' (ms := ms) env.rd with ⟨h3, _⟩ | ⟨m, hm, h3, h4⟩
  · rw [h3] at hi
    simp [noIntent] at hi
  · rw [h3]
    exact ⟨h4, conf_le_one env.rd (r := mkRes m) (List.mem_map.2 ⟨m, hm, rfl⟩)⟩

theorem means_of {p : ParserModel} {o : HashOrd} {w : World} {input : Text} {filter : Option (List Text)}
    (hp : p.Ready w input) {r : InternalResult} (h : (p.impl.parse o input filter).run w = .ok r) {i : Text}
    (hi : r.intent.name = some i) : p.Means o w input filter i r.intent.score r.slots := by
  cases p with
  | lookup env p => exact c81_sound env p hp.1 o w input hp.2 filter r h i hi
  | deterministic env p =>
    obtain ⟨ms, _, h1, hv⟩ := c35_deterministic_rounded env p hp o w input _ r h
    exact ⟨((h1 i _).1 (hv.slots i hi)).1, c62_parse env p hp o w input filter r h i hi, det_score hp h hi⟩
  | probabilistic env p =>
    obtain ⟨h1, -, h3⟩ := c54_answer env p o w input filter r h
    obtain ⟨f, hf, hs⟩ := h3 i hi
    obtain ⟨g1, g2, g3⟩ := hp.2 i f hf
    exact ⟨prefers_of hp.1 h1 hi, f, hf, marks_of g1 g2 g3 hs⟩

theorem meansSlots_of {p : ParserModel} {o : HashOrd} {w : World} {input intent : Text} (hp : p.Ready w input)
    {slots : List InternalSlot} (h : (p.impl.getSlots o input intent).run w = .ok slots) (hne : slots ≠ []) :
    p.MeansSlots o w input intent slots := by
  cases p with
  | lookup env p => exact says_of_hit hp.1 hp.2 ((c09_lookup_own env p o w input intent slots h).resolve_left hne)
  | deterministic env p =>
    exact c62_sound env p hp o w input intent slots
      ((c09_deterministic_own env p hp o w input intent slots h).resolve_left hne)
  | probabilistic env p =>
    obtain ⟨h1, h2⟩ := c09_probabilistic env p o w input intent
    cases hf : p.slotFillers.get intent with
    | none =>
      obtain ⟨e, he⟩ := h2 (Map.get_none_iff.1 hf)
      change (p.getSlots env o input intent).run w = _ at h
      rw [he] at h
      cases h
    | some f =>
      obtain ⟨g1, g2, g3⟩ := hp.2 intent f hf
      exact ⟨f, hf, marks_of g1 g2 g3 ((h1 f hf).symm.trans h)⟩

theorem only_of {p : ParserModel} {o : HashOrd} {w : World} {input : Text} {filter : Option (List Text)}
    (hp : p.Ready w input) {r : InternalResult} (h : (p.impl.parse o input filter).run w = .ok r) {i : Text}
    (hi : p.MeansOnly o w input filter i) : r.intent = ⟨some i, 1⟩ := by
  cases p with
  | lookup env p =>
    obtain ⟨hd, ⟨sl, hs⟩, ho⟩ := hi
    exact c81_only env p hp.1 o w input hp.2 hd filter r h i sl hs ho
  | deterministic env p =>
    obtain ⟨⟨sl, hperm, hs⟩, ho⟩ := hi
    obtain ⟨ms, hn, h1, hv⟩ := c35_deterministic_rounded env p hp o w input _ r h
    obtain ⟨sl', hs'⟩ := c62_complete env p hp o w input i sl hs
    have hmem := (h1 i sl').2 ⟨hperm, hs'⟩
    have hall : ∀ m ∈ ms, m.1 = i := fun m hm => by
      obtain ⟨k1, k2⟩ := (h1 m.1 m.2).1 hm
      exact ho m.1 m.2 k1 (c62_sound env p hp o w input m.1 m.2 k2)
    have hone : ms = [(i, sl')] := by
      cases ms with
      | nil => cases hmem
      | cons a ms =>
        cases ms with
        | nil => rw [List.mem_singleton.1 hmem]
        | cons b ms =>
          have ha := hall a (by simp)
          have hb := hall b (by simp)
          simp [ha, hb] at hn
    rw [hv.single i sl' hone]
  | probabilistic env p => exact hi.elim

/-! ### Resolution -/

theorem resolves_of {e : Engine} {w : World} {text : Text} {ns : Nat} {slots : List InternalSlot} {out : List Slot}
    (h : (e.resolveSlots text slots ns).run w = .ok out) : e.Resolves w text ns slots out := by
  rcases Engine.resolveSlots_run e text slots ns w out h with h | ⟨hne, builtins, customs, f, hb, hc, ho, hall⟩
  · exact .inl h
  refine .inr ⟨hne, _, _, builtins, customs, slots.map f, ?_, ?_, hb, hc, ?_, ?_⟩
  · intro k; simp [Engine.builtinScope]
  · intro i
    simp only [Engine.customScope, List.mem_filterMap]
    constructor
    · rintro ⟨s, hs, h1⟩
      split at h1
      · cases h1
      · rename_i h2
        injection h1 with h1
        exact ⟨s, hs, by simpa using h2, h1⟩
    · rintro ⟨s, hs, h1, h2⟩
      subst h2; exact ⟨s, hs, by simp [h1]⟩
  · rw [ho, List.reduceOption, List.filterMap_map]
    rfl
  · rw [List.forall₂_map_right_iff, List.forall₂_same]
    intro s hs
    have hr := hall s hs
    unfold Engine.resolveOne at hr
    cases hent : e.dataset.entities.get s.entity with
    | some extensible =>
      left
      refine ⟨extensible, rfl, ?_⟩
      simp only [hent] at hr
      rcases Engine.resolveCustomSlot_run _ _ _ _ _ _ hr with ⟨m, hm, hf⟩ | ⟨hm, own, hown, hf⟩
      · exact .inl ⟨m, hm, hf⟩
      · refine .inr ⟨fun m hmem => by simpa using List.find?_eq_none.1 hm m hmem, own, hown, ?_⟩
        cases hl : own.getLast? with
        | none =>
          right
          refine ⟨fun m h => (by cases h), ?_⟩
          rw [hf, hl]
          cases extensible <;> rfl
        | some m =>
          rw [hl] at hf
          simp only [Option.bind_some] at hf
          by_cases hlen : m.value.length = s.value.length
          · rw [if_pos hlen] at hf
            exact .inl ⟨m, rfl, hlen, hf⟩
          · rw [if_neg hlen] at hf
            refine .inr ⟨fun m' h => (by cases h; exact hlen), ?_⟩
            rw [hf]
            cases extensible <;> rfl
    | none =>
      right
      refine ⟨rfl, ?_⟩
      simp only [hent] at hr
      obtain ⟨kind, hk, ⟨m, hm, hf⟩ | ⟨hm, own, hown, hf⟩⟩ := Engine.resolveBuiltinSlot_run _ _ _ _ _ _ hr
      · exact ⟨kind, hk, .inl ⟨m, hm, hf⟩⟩
      · exact ⟨kind, hk, .inr ⟨fun m hmem => by simpa using List.find?_eq_none.1 hm m hmem, own, hown, hf⟩⟩

/-! ### Engines -/

theorem parserAnswer_of {dataset : DatasetMetadata} {names : KindNames} {ps : List ParserModel} {o : HashOrd} {w : World}
    {input : Text} {eff : Option (List Text)} {k : Nat} {r : Outcome InternalResult}
    (h : (Engine.ofParsers dataset names ps).parserAnswer o w input eff k = some r) :
    ∃ p, ps[k]? = some p ∧ (p.impl.parse (o.sub k) input eff).run w = r := by
  unfold Engine.parserAnswer Engine.ofParsers at h
  simp only [List.getElem?_map] at h
  cases hp : ps[k]? with
  | none => rw [hp] at h; cases h
  | some p =>
    rw [hp] at h
    exact ⟨p, rfl, Option.some.inj h⟩

theorem parserSlots_of {dataset : DatasetMetadata} {names : KindNames} {ps : List ParserModel} {o : HashOrd} {w : World}
    {input intent : Text} {k : Nat} {r : Outcome (List InternalSlot)}
    (h : (Engine.ofParsers dataset names ps).parserSlots o w input intent k = some r) :
    ∃ p, ps[k]? = some p ∧ (p.impl.getSlots (o.sub k) input intent).run w = r := by
  unfold Engine.parserSlots Engine.ofParsers at h
  simp only [List.getElem?_map] at h
  cases hp : ps[k]? with
  | none => rw [hp] at h; cases h
  | some p =>
    rw [hp] at h
    exact ⟨p, rfl, Option.some.inj h⟩

/-- **C83**: the intent of an answer is what the sentence means to one of the parsers, and the slots are those of this
meaning; the parsers before this one do not take the sentence to mean one intent only. -/
theorem c83_parse (dataset : DatasetMetadata) (names : KindNames) (ps : List ParserModel) (o : HashOrd) (w : World)
    (input : Text) (hready : ∀ p ∈ ps, p.Ready w input) (wl bl : Option (List Text)) (ni ns : Nat) (res : ParseResult)
    (h : ((Engine.ofParsers dataset names ps).parseWithAlternatives o input wl bl ni ns).run w = .ok res) (i : Text)
    (hi : res.intent.name = some i) :
    ∃ eff o' before p after slots, (Engine.ofParsers dataset names ps).IsFilterFor wl bl eff ∧
      ps = before ++ p :: after ∧ p.Means o' w input eff i res.intent.score slots ∧
      (Engine.ofParsers dataset names ps).Resolves w input ns slots res.slots ∧
      ∀ q ∈ before, ∃ o'', ∀ j, ¬ q.MeansOnly o'' w input eff j := by
  obtain ⟨eff, hf, _, ⟨k, r, h1, h2, _, h4, h5⟩ | ⟨_, h3, _⟩⟩ := c03_result_origin _ o w input wl bl ni ns res h
  · obtain ⟨p, hp, hr⟩ := parserAnswer_of h2
    have hk : k < ps.length := (List.getElem?_eq_some_iff.1 hp).1
    have hpe : ps[k] = p := (List.getElem?_eq_some_iff.1 hp).2
    rw [h4] at hi ⊢
    refine ⟨eff, (o.sub 1).sub k, ps.take k, p, ps.drop (k + 1), r.slots, hf, ?_,
      means_of (hready p (List.mem_of_getElem? hp)) hr hi, resolves_of h5, ?_⟩
    · rw [← hpe, ← List.drop_eq_getElem_cons hk, List.take_append_drop]
    · intro q hq
      obtain ⟨j, hj, rfl⟩ := List.mem_iff_getElem.1 hq
      rw [List.length_take] at hj
      obtain ⟨rj, hrj, hnone⟩ := h1 j (by omega)
      obtain ⟨q, hq', hrun⟩ := parserAnswer_of hrj
      rw [List.getElem_take]
      have hqe : ps[j] = q := (List.getElem?_eq_some_iff.1 hq').2
      rw [hqe]
      refine ⟨(o.sub 1).sub j, fun i' hi' => ?_⟩
      have := only_of (hready q (List.mem_of_getElem? hq')) hrun hi'
      rw [this] at hnone
      cases hnone
  · rw [h3] at hi
    cases hi

/-- **C83**: if the parsers before one abstain, and to this one the sentence means one permitted intent only, then the answer
is this intent, with certainty. -/
theorem c83_only (dataset : DatasetMetadata) (names : KindNames) (ps : List ParserModel) (o : HashOrd) (w : World)
    (input : Text) (hready : ∀ p ∈ ps, p.Ready w input) (wl bl : Option (List Text)) (ni ns : Nat) (res : ParseResult)
    (h : ((Engine.ofParsers dataset names ps).parseWithAlternatives o input wl bl ni ns).run w = .ok res) (i : Text)
    (before after : List ParserModel) (p : ParserModel) (hps : ps = before ++ p :: after)
    (hbefore : ∀ q ∈ before, ∀ o' eff j score slots, (Engine.ofParsers dataset names ps).IsFilterFor wl bl eff →
      ¬ q.Means o' w input eff j score slots)
    (honly : ∀ o' eff, (Engine.ofParsers dataset names ps).IsFilterFor wl bl eff → p.MeansOnly o' w input eff i) :
    res.intent = ⟨some i, 1⟩ := by
  obtain ⟨eff, hf, _, hcase⟩ := c03_result_origin _ o w input wl bl ni ns res h
  have hpk : ps[before.length]? = some p := by rw [hps]; simp
  have hab : ∀ j r, j < before.length →
      (Engine.ofParsers dataset names ps).parserAnswer (o.sub 1) w input eff j = some (.ok r) → r.intent.name = none := by
    intro j r hj hr
    obtain ⟨q, hq, hrun⟩ := parserAnswer_of hr
    cases hn : r.intent.name with
    | none => rfl
    | some i' =>
      have hqb : q ∈ before := by
        rw [hps, List.getElem?_append_left hj] at hq
        exact List.mem_of_getElem? hq
      exact absurd (means_of (hready q (List.mem_of_getElem? hq)) hrun hn) (hbefore q hqb _ eff i' _ _ hf)
  have hhere : ∀ r, (Engine.ofParsers dataset names ps).parserAnswer (o.sub 1) w input eff before.length = some (.ok r) →
      r.intent = ⟨some i, 1⟩ := by
    intro r hr
    obtain ⟨q, hq, hrun⟩ := parserAnswer_of hr
    rw [hpk] at hq
    cases hq
    exact only_of (hready p (List.mem_of_getElem? hpk)) hrun (honly _ eff hf)
  rcases hcase with ⟨k, r, h1, h2, h3, h4, -⟩ | ⟨h1, -, -⟩
  · rcases Nat.lt_trichotomy k before.length with hlt | heq | hgt
    · exact absurd (hab k r hlt h2) h3
    · subst heq
      rw [h4, hhere r h2]
    · obtain ⟨r', hr', hn'⟩ := h1 before.length hgt
      rw [hhere r' hr'] at hn'
      cases hn'
  · have hlen : before.length < (Engine.ofParsers dataset names ps).parsers.length := by
      simp [Engine.ofParsers, hps]
    obtain ⟨r', hr', hn'⟩ := h1 before.length hlen
    rw [hhere r' hr'] at hn'
    cases hn'

/-- **C83**: if the sentence means nothing to any parser, no intent is returned. -/
theorem c83_nothing (dataset : DatasetMetadata) (names : KindNames) (ps : List ParserModel) (o : HashOrd) (w : World)
    (input : Text) (hready : ∀ p ∈ ps, p.Ready w input) (wl bl : Option (List Text)) (ni ns : Nat) (res : ParseResult)
    (h : ((Engine.ofParsers dataset names ps).parseWithAlternatives o input wl bl ni ns).run w = .ok res)
    (hno : ∀ p ∈ ps, ∀ o' eff i score slots, (Engine.ofParsers dataset names ps).IsFilterFor wl bl eff →
      ¬ p.Means o' w input eff i score slots) : res.intent.name = none ∧ res.slots = [] := by
  obtain ⟨eff, hf, _, ⟨k, r, h1, h2, h3, h4, h5⟩ | ⟨_, h3, h4⟩⟩ := c03_result_origin _ o w input wl bl ni ns res h
  · obtain ⟨p, hp, hr⟩ := parserAnswer_of h2
    cases hn : r.intent.name with
    | none => exact absurd hn h3
    | some i =>
      have hmem := List.mem_of_getElem? hp
      exact absurd (means_of (hready p hmem) hr hn) (hno p hmem _ eff i _ _ hf)
  · exact ⟨h3, h4⟩

/-- **C83**: slots returned for an intent are those of what the sentence means to one of the parsers, asked about the
intent. -/
theorem c83_get_slots (dataset : DatasetMetadata) (names : KindNames) (ps : List ParserModel) (o : HashOrd) (w : World)
    (input intent : Text) (hready : ∀ p ∈ ps, p.Ready w input) (ns : Nat) (out : List Slot)
    (h : ((Engine.ofParsers dataset names ps).getSlotsWithAlternatives o input intent ns).run w = .ok out)
    (hne : out ≠ []) :
    ∃ p ∈ ps, ∃ o' slots, p.MeansSlots o' w input intent slots ∧
      (Engine.ofParsers dataset names ps).Resolves w input ns slots out := by
  rcases c09_origin _ o w input intent ns out h with ⟨_, h1⟩ | ⟨k, slots, h1, h2, h3, h4⟩
  · exact absurd h1 hne
  · obtain ⟨p, hp, hr⟩ := parserSlots_of h2
    have hmem := List.mem_of_getElem? hp
    exact ⟨p, hmem, _, slots, meansSlots_of (hready p hmem) hr h3, resolves_of h4⟩

/-- **C83**: the slots of an alternative are those of what the sentence means to one of the parsers, asked about the intent of
the alternative. -/
theorem c83_alternatives (dataset : DatasetMetadata) (names : KindNames) (ps : List ParserModel) (o : HashOrd) (w : World)
    (input : Text) (hready : ∀ p ∈ ps, p.Ready w input) (wl bl : Option (List Text)) (ni ns : Nat) (res : ParseResult)
    (h : ((Engine.ofParsers dataset names ps).parseWithAlternatives o input wl bl ni ns).run w = .ok res)
    (a : Alternative) (ha : a ∈ res.alternatives) (hne : a.slots ≠ []) :
    ∃ i, a.intent.name = some i ∧ ∃ p ∈ ps, ∃ o' slots, p.MeansSlots o' w input i slots ∧
      (Engine.ofParsers dataset names ps).Resolves w input ns slots a.slots := by
  obtain ⟨eff, main, _, hmain, h3⟩ := Engine.parseWith_ok h
  rcases h3 with ⟨hni, hres⟩ | ⟨_, ranked, alts, _, hal, rfl⟩
  · have := (c05_zero (Engine.ofParsers dataset names ps) o w input wl bl ns res).1 (by rw [← hni]; exact h)
    rw [this] at ha
    cases ha
  · obtain ⟨_, hsl⟩ := Engine.alternativesSlots_run _ _ _ _ _ _ _ _ hal
    obtain ⟨j, hj⟩ := List.mem_iff_getElem?.1 (show a ∈ alts from ha)
    have := hsl j a hj
    unfold Engine.alternativeSlots at this
    split at this
    · next i hi => exact ⟨i, hi, c83_get_slots dataset names ps _ w input i hready ns a.slots this hne⟩
    · simp only [Prog.run_ret, Outcome.ok.injEq] at this
      exact absurd this.symm hne

/-! Non-vacuity: an engine with a table, patterns and an (untrained) probabilistic parser. -/

/-- The parsers of the examples. -/
def readers : List ParserModel :=
  [.lookup demoEnv demoLookup, .deterministic demoEnv demoDet, .probabilistic demoEngineEnv ⟨demoClassifier, [(['b'], oneSlotFiller)]⟩]

/-- `drink` is an extensible entity of the dataset. -/
def readersDataset : DatasetMetadata :=
  ⟨[("drink".toList, true), (['e'], true)],
    [("brew".toList, [("count".toList, "snips/number".toList), ("kind".toList, "drink".toList)]), ("idiom".toList, []),
      ("halt".toList, []), (['a'], []), (['b'], [(['a'], ['e'])])]⟩

theorem readers_ready : ∀ p ∈ readers, p.Ready ruleWorld "make the two tea".toList := by
  intro p hp
  simp only [readers, List.mem_cons, List.not_mem_nil, or_false] at hp
  rcases hp with rfl | rfl | rfl
  · refine ⟨demoLookup_sound, fun s hs all h e he => ?_⟩
    rcases demo_matches s hs all h with rfl | rfl
    · simp only [List.mem_cons, List.not_mem_nil, or_false] at he
      rcases he with rfl | rfl <;> exact ⟨by simp [Rng.NonEmpty], by decide⟩
    · cases he
  · exact demoDet_built
  · refine ⟨.inr (by decide), fun intent f hf => ?_⟩
    have hmem := Map.get_some_mem hf
    simp only [List.mem_singleton, Prod.mk.injEq] at hmem
    obtain ⟨rfl, rfl⟩ := hmem
    refine ⟨wholeTextFns_ok, ?_, ?_⟩
    · intro _ tagger ht features encoded he x hx t htx
      cases ht
      cases he
      obtain ⟨_, _, rfl⟩ := List.mem_map.1 hx
      cases htx
      exact .inr (.inl ⟨_, rfl⟩)
    · intro tagger ht features tags he
      cases ht
      cases he
      simp

/-- Both slots of `make the two tea` are found by the table. -/
example : ((Engine.ofParsers readersDataset demoKinds readers).parseWithAlternatives HashOrd.insertion
    "make the two tea".toList (some ["brew".toList, ['b']]) none 0 0).run ruleWorld
    = .ok ⟨"make the two tea".toList, ⟨some "brew".toList, 1⟩,
      [⟨"two".toList, .builtin 2, [], ⟨9, 12⟩, "snips/number".toList, "count".toList⟩,
       ⟨"tea".toList, .custom "tea".toList, [], ⟨13, 16⟩, "drink".toList, "kind".toList⟩], []⟩ := by
  decide +kernel

/-- To the patterns, `stop` means `halt` and, if this is the only intent allowed, nothing else. -/
example : ∀ o' eff, (Engine.ofParsers readersDataset demoKinds [.deterministic demoEnv demoDet]).IsFilterFor
    (some ["halt".toList]) none eff →
    (ParserModel.deterministic demoEnv demoDet).MeansOnly o' ruleWorld "stop".toList eff "halt".toList := by
  intro o' eff h
  obtain ⟨l, rfl, hl⟩ : ∃ l, eff = some l ∧ ∀ i, i ∈ l → i = "halt".toList := by
    cases eff with
    | none => simp [Engine.IsFilterFor] at h
    | some l => exact ⟨l, rfl, fun i hi => by simpa [Allowed] using ((h.2 i).1 hi).2⟩
  have hin : "halt".toList ∈ l := (h.2 _).2 ⟨by decide +kernel, by simp [Allowed]⟩
  refine ⟨⟨[], by simpa [Permits] using hin, ?_⟩, fun j slots hj _ => hl j (by simpa [Permits] using hj)⟩
  refine ⟨"stop".toList, "stop".toList, [], [plainRegex "stop".toList], [], plainRegex "stop".toList, [],
    ⟨[], [], [], [], "stop".toList, by decide +kernel, by decide +kernel, by decide +kernel, by decide +kernel,
      by decide +kernel, by decide +kernel⟩, rfl, rfl, by simp, .inl ⟨[some ⟨0, 4⟩], [], [], ?_, ?_, .nil, ?_⟩⟩
  · exact ⟨by decide +kernel, by simp, [], [], by decide +kernel, by simp⟩
  · refine ⟨.nil, fun i bytes name => ?_⟩
    simp only [List.not_mem_nil, false_iff, not_and]
    intro hi hc
    cases i with
    | zero => omega
    | succ i => cases i <;> cases hc
  · exact ⟨List.Subperm.refl _, .nil, by simp⟩

end Snips
