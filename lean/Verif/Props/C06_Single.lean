import Verif.Props.C06_AltRanking
import Verif.Props.C36_Rankings

/-! # C06 for engines with one rule-based parser, and exactly what the alternatives are -/

namespace Snips

/-- Exactly what the alternatives are: the ranked intents that pass the filter, without the first one. -/
theorem c06_exact_partial (e : Engine) (o : HashOrd) (w : World) (input : Text)
    (whitelist blacklist : Option (List Text)) (ni ns : Nat) (res : ParseResult) (ranked : List IntentResult)
    (h : (e.parseWithAlternatives o input whitelist blacklist ni ns).run w = .ok res)
    (hr : (e.getIntents (o.sub 2) input).run w = .ok ranked) (hni : ni ≠ 0) :
    ∃ passing : List IntentResult, passing.Sublist ranked ∧
      (∀ r, r ∈ passing ↔ r ∈ ranked ∧ e.Passes whitelist blacklist r) ∧
      res.alternatives.map Alternative.intent = passing.tail.take ni ∧
      ((∃ a ∈ res.alternatives, a.intent.name = res.intent.name) ↔
        ∃ j r, 1 ≤ j ∧ j ≤ ni ∧ passing[j]? = some r ∧ r.name = res.intent.name) := by
  obtain ⟨eff, ranked', hf, hr', heq, _⟩ := alternatives_eq h hni
  rw [hr] at hr'
  injection hr' with hr'
  subst hr'
  rw [List.drop_one] at heq
  refine ⟨ranked.filter (Engine.passesFilter eff), List.filter_sublist, fun r => ?_, heq, ?_⟩
  · rw [List.mem_filter, passesFilter_iff hf]
  · have hmem : (∃ a ∈ res.alternatives, a.intent.name = res.intent.name) ↔
        ∃ r ∈ res.alternatives.map Alternative.intent, r.name = res.intent.name := by
      simp
    rw [hmem, heq]
    constructor
    · rintro ⟨r, hr1, hr2⟩
      obtain ⟨j, hj⟩ := List.getElem?_of_mem hr1
      rw [List.getElem?_take] at hj
      split at hj
      · rename_i hlt
        rw [List.getElem?_tail] at hj
        exact ⟨j + 1, r, by omega, by omega, hj, hr2⟩
      · cases hj
    · rintro ⟨j, r, h1, h2, h3, h4⟩
      refine ⟨r, List.mem_of_getElem? (i := j - 1) ?_, h4⟩
      rw [List.getElem?_take, if_pos (by omega), List.getElem?_tail]
      rwa [Nat.sub_add_cancel h1]

/-- If the main intent is ranked strictly above every other one that passes the filter, it is not repeated,
and the best others are listed. -/
theorem c06_strict_partial (e : Engine) (o : HashOrd) (w : World) (input : Text)
    (whitelist blacklist : Option (List Text)) (ni ns : Nat) (res : ParseResult) (ranked : List IntentResult)
    (h : (e.parseWithAlternatives o input whitelist blacklist ni ns).run w = .ok res)
    (hr : (e.getIntents (o.sub 2) input).run w = .ok ranked)
    (hbest : ∃ r0 ∈ ranked, r0.name = res.intent.name ∧ e.Passes whitelist blacklist r0 ∧
      ∀ r ∈ ranked, e.Passes whitelist blacklist r → r.name ≠ res.intent.name → r.score < r0.score) :
    (∀ a ∈ res.alternatives, a.intent.name ≠ res.intent.name) ∧
    (∀ r ∈ ranked, e.Passes whitelist blacklist r → r.name ≠ res.intent.name →
      (∃ a ∈ res.alternatives, a.intent = r) ∨
      (res.alternatives.length = ni ∧ ∀ a ∈ res.alternatives, r.score ≤ a.intent.score)) := by
  refine c06_not_repeated_partial e o w input whitelist blacklist ni ns res ranked h hr ?_
  obtain ⟨hn, hs, _⟩ := c08_sorted_nodup e (o.sub 2) w input ranked hr
  obtain ⟨r0, hr0, hname, hpass, hlt⟩ := hbest
  obtain ⟨pre, post, rfl⟩ := List.append_of_mem hr0
  refine ⟨pre, r0, post, rfl, fun r hrm hp => ?_, hpass, hname⟩
  have hge : r0.score ≤ r.score := (List.pairwise_append.1 hs).2.2 r hrm r0 (by simp)
  by_cases hc : r.name = res.intent.name
  · rw [List.map_append, List.map_cons, List.nodup_append] at hn
    exact hn.2.2 r.name (List.mem_map.2 ⟨r, hrm, rfl⟩) r0.name (by simp) (hc.trans hname.symm)
  · exact absurd (hlt r (by simp [hrm]) hp hc) (not_lt.2 hge)

/-- The winner among the matches `ms` is strictly first in the ranking of the matches `ms'`, among the intents
whose matches are in `ms`. -/
theorem winner_first {ms ms' : List (Text × List InternalSlot)} (hn : (ms.map Prod.fst).Nodup)
    (hn' : (ms'.map Prod.fst).Nodup) {i : Text}
    (hi : (pickUnambiguous (rankByWeight Rounding.exact (ms.map mkRes) 1)).intent.name = some i)
    (hsub : ∀ m ∈ ms, m ∈ ms') {P : Text → Prop} (hP : ∀ m ∈ ms', P m.1 → m ∈ ms)
    {intents : List Text} {n : Nat} (hlen : ms'.length ≤ n) (hint : ∀ m ∈ ms', m.1 ∈ intents) :
    ∃ r0 ∈ completeRanking intents ((rankByWeight Rounding.exact (ms'.map mkRes) n).map InternalResult.intent),
      r0.name = some i ∧
      ∀ r ∈ completeRanking intents ((rankByWeight Rounding.exact (ms'.map mkRes) n).map InternalResult.intent),
        (∀ j, r.name = some j → P j) → r.name ≠ some i → r.score < r0.score := by
  have hv := roundedVerdict_of (ms := ms) Rounding.exact
  have hm := hv.slots i hi
  have hfew := hv.fewer i hi
  generalize (pickUnambiguous (rankByWeight Rounding.exact (ms.map mkRes) 1)).slots = sl at hm hfew
  obtain ⟨matched, rest, heq, hperm, _, hrest, _⟩ :=
    completeRanking_spec Rounding.exact intents n hn' hlen hint
  rw [heq]
  have hm' := hsub _ hm
  have hpos : 0 < confOf Rounding.exact (ms'.map mkRes) sl.length :=
    conf_pos Rounding.exact (r := mkRes (i, sl)) (List.mem_map.2 ⟨_, hm', rfl⟩)
  refine ⟨⟨some i, confOf Rounding.exact (ms'.map mkRes) sl.length⟩,
    List.mem_append_left _ (hperm.mem_iff.2 (List.mem_map.2 ⟨_, hm', rfl⟩)), rfl, ?_⟩
  intro r hr hPr hne
  rcases List.mem_append.1 hr with hr | hr
  · obtain ⟨m, hmm, rfl⟩ := List.mem_map.1 (hperm.mem_iff.1 hr)
    have hmi : m.1 ≠ i := fun hc => hne (by rw [← hc])
    have hlt := hfew m (hP m hmm (hPr m.1 rfl)) hmi
    show confOf Rounding.exact (ms'.map mkRes) m.2.length < confOf Rounding.exact (ms'.map mkRes) sl.length
    have hT : 0 < totalWeight Rounding.exact (weights Rounding.exact (ms'.map mkRes)) :=
      lt_of_lt_of_le (slotWeight_pos Rounding.exact _)
        (weight_le_total Rounding.exact (r := mkRes (i, sl)) (List.mem_map.2 ⟨_, hm', rfl⟩))
    unfold confOf
    rw [slotWeight_exact, slotWeight_exact]
    refine div_lt_div_of_pos_right ?_ hT
    rw [one_div_lt_one_div (by positivity) (by positivity)]
    have : (sl.length : ℚ) < m.2.length := by exact_mod_cast hlt
    linarith
  · rw [hrest r hr]; exact hpos

/-- From the ranking of the only parser to that of the engine. -/
theorem single_ranking {e : Engine} {p : ParserImpl} (hp : e.parsers = [p]) {o : HashOrd} {w : World} {input : Text}
    {ranked : List IntentResult} (hr : (e.getIntents o input).run w = .ok ranked) :
    ∃ rs, (p.getIntents ((o.sub 0).sub 0) input).run w = .ok rs ∧
      ((rs.map IntentResult.name).Nodup → ∀ r, r ∈ ranked ↔ r ∈ rs) := by
  have hget : ∀ i, e.parserRanking (o.sub 0) w input i =
      if i = 0 then some ((p.getIntents ((o.sub 0).sub 0) input).run w) else none := by
    intro i
    unfold Engine.parserRanking
    rw [hp]
    cases i with
    | zero => rfl
    | succ i => simp
  obtain ⟨A, hlen, hA, _⟩ := Engine.getIntents_run hr
  rw [hp] at hlen
  obtain ⟨rs, rfl⟩ := List.length_eq_one_iff.1 hlen
  have h0 := (hA 0 rs).1 rfl
  rw [hget 0, if_pos rfl] at h0
  injection h0 with h0
  refine ⟨rs, h0, fun hn r => ?_⟩
  have honce : ∀ i rs', e.parserRanking (o.sub 0) w input i = some (.ok rs') → rs' = rs := by
    intro i rs' hi
    rw [hget] at hi
    split at hi
    · injection hi with hi; rw [h0] at hi; injection hi with hi; exact hi.symm
    · cases hi
  obtain ⟨h1, h2⟩ := c08_maximum e o w input ranked hr (fun i rs' hi => by rw [honce i rs' hi]; exact hn)
  constructor
  · intro hrm
    obtain ⟨⟨i, rs', hi, hrs⟩, _⟩ := h1 r hrm
    rw [honce i rs' hi] at hrs
    exact hrs
  · intro hrs
    obtain ⟨r', hr', hname⟩ := h2 0 rs (by rw [hget, if_pos rfl, h0]) r hrs (Or.inr (by omega))
    obtain ⟨⟨i, rs', hi, hrs'⟩, _⟩ := h1 r' hr'
    rw [honce i rs' hi] at hrs'
    have : r' = r := List.inj_on_of_nodup_map hn hrs' hrs hname
    rw [← this]
    exact hr'

/-- From a parse of an engine with one parser to the answer of the parser. -/
theorem single_answer {e : Engine} {p : ParserImpl} (hp : e.parsers = [p]) {o : HashOrd} {w : World} {input : Text}
    {whitelist blacklist : Option (List Text)} {ni ns : Nat} {res : ParseResult}
    (h : (e.parseWithAlternatives o input whitelist blacklist ni ns).run w = .ok res) {i : Text}
    (hi : res.intent.name = some i) :
    ∃ eff out, e.IsFilterFor whitelist blacklist eff ∧ (p.parse ((o.sub 1).sub 0) input eff).run w = .ok out ∧
      out.intent = res.intent := by
  obtain ⟨eff, hf, _, ⟨k, r, _, hk, _, hint, _⟩ | ⟨_, hnone, _⟩⟩ := c03_result_origin e o w input _ _ _ _ _ h
  · unfold Engine.parserAnswer at hk
    rw [hp] at hk
    cases k with
    | zero =>
      simp at hk
      exact ⟨eff, r, hf, hk, hint.symm⟩
    | succ k => simp at hk
  · rw [hi] at hnone; cases hnone

/-- An engine whose only parser is a deterministic one never repeats a recognised intent among the
alternatives and never skips a better one (exact arithmetic, texts below 2^15 characters). -/
theorem c06_deterministic (env : RuleEnv) (hrd : env.rd = Rounding.exact) (p : Det) (hb : p.Built env.names)
    (hreg : p.regexes.keys.Nodup) (e : Engine) (he : e.parsers = [p.impl env]) (o : HashOrd) (w : World)
    (input : Text) (hsm : p.SmallMatches env w input) (whitelist blacklist : Option (List Text)) (ni ns : Nat)
    (res : ParseResult) (ranked : List IntentResult)
    (h : (e.parseWithAlternatives o input whitelist blacklist ni ns).run w = .ok res)
    (hr : (e.getIntents (o.sub 2) input).run w = .ok ranked) (i : Text) (hi : res.intent.name = some i) :
    (∀ a ∈ res.alternatives, a.intent.name ≠ some i) ∧
    (∀ r ∈ ranked, e.Passes whitelist blacklist r → r.name ≠ some i →
      (∃ a ∈ res.alternatives, a.intent = r) ∨
      (res.alternatives.length = ni ∧ ∀ a ∈ res.alternatives, r.score ≤ a.intent.score)) := by
  rw [← hi]
  refine c06_strict_partial e o w input whitelist blacklist ni ns res ranked h hr ?_
  rw [hi]
  obtain ⟨eff, out, hf, hout, hint⟩ := single_answer he h hi
  obtain ⟨rs, hrs, hmem⟩ := single_ranking he hr
  have hnd := hmem (((c36_deterministic env p hb hreg _ w input rs hrs).2.nodup_iff).2 (by
    rw [List.nodup_cons]
    exact ⟨by simp, hreg.map (fun _ _ h => Option.some.inj h)⟩))
  change (p.parse env _ input eff).run w = .ok out at hout
  change (p.getIntents env _ input).run w = .ok rs at hrs
  unfold Det.parse at hout
  rw [Prog.run_bind, Outcome.bind_ok] at hout
  obtain ⟨top, htop, hout⟩ := hout
  simp only [Prog.run_ret, Outcome.ok.injEq] at hout
  obtain ⟨ms, rfl, hn, h3, _⟩ := det_top_run hb htop
  unfold Det.getIntents at hrs
  rw [Prog.run_bind, Outcome.bind_ok] at hrs
  obtain ⟨top', htop', hrs⟩ := hrs
  simp only [Prog.run_ret, Outcome.ok.injEq] at hrs
  obtain ⟨ms', rfl, hn', h3', _⟩ := det_top_run hb htop'
  have hint' : ∀ m ∈ ms', m.1 ∈ (((o.sub 2).sub 0).sub 0).order 2 p.regexes.keys := by
    intro m hm
    obtain ⟨_, s, hs, hsi, hrun⟩ := (h3' m.1 m.2).1 hm
    rw [((((o.sub 2).sub 0).sub 0).perm 2 p.regexes.keys).mem_iff, ← hsi]
    exact matchIntent_ok_regexes hrun
  have hlen : ms'.length ≤ p.regexes.keys.length := by
    have : (ms'.map Prod.fst).Subperm ((((o.sub 2).sub 0).sub 0).order 2 p.regexes.keys) :=
      hn'.subperm (fun x hx => by obtain ⟨m, hm, rfl⟩ := List.mem_map.1 hx; exact hint' m hm)
    simpa [order_length] using this.length_le
  rw [hrd] at hout hrs
  have hiff : ∀ (s : Text × (List Kind × List Text)), s ∈ p.scopes → (p.matchIntent env ((o.sub 1).sub 0) input s).run w =
      (p.matchIntent env (((o.sub 2).sub 0).sub 0) input s).run w := fun s hs => matchIntent_order hsm _ _ hs
  have hperm : ∀ m, m ∈ ms ↔ m ∈ ms' ∧ Permits eff m.1 := by
    rintro ⟨j, sl⟩
    rw [h3, h3']
    constructor
    · rintro ⟨hp, s, hs, hsj, hrun⟩
      exact ⟨⟨fun l hl => (by cases hl), s, hs, hsj, by rw [← hiff s hs]; exact hrun⟩, hp⟩
    · rintro ⟨⟨_, s, hs, hsj, hrun⟩, hp⟩
      exact ⟨hp, s, hs, hsj, by rw [hiff s hs]; exact hrun⟩
  obtain ⟨r0, hr0, hname, hlt⟩ := winner_first hn hn' (i := i) (by rw [hout, hint, hi])
    (fun m hm => ((hperm m).1 hm).1) (P := Permits eff) (fun m hm hp => (hperm m).2 ⟨hm, hp⟩) hlen hint'
  rw [hrs] at hr0 hlt
  have hpass : ∀ r, e.Passes whitelist blacklist r → ∀ j, r.name = some j → Permits eff j := by
    intro r hr1 j hj l hl
    subst hl
    exact (hf.2 j).2 ⟨(hr1 j hj).2 hf.1, (hr1 j hj).1⟩
  refine ⟨r0, (hnd r0).2 hr0, hname, ?_, fun r hr1 hr2 hr3 => hlt r ((hnd r).1 hr1) (hpass r hr2) hr3⟩
  intro j hj
  rw [hname] at hj
  cases hj
  have hpi : Permits eff i :=
    ((hperm (i, _)).1 ((roundedVerdict_of (ms := ms) Rounding.exact).slots i (by rw [hout, hint, hi]))).2
  cases eff with
  | none =>
    obtain ⟨rfl, rfl⟩ := hf
    exact ⟨⟨fun _ h => (by cases h), fun _ h => (by cases h)⟩, fun h => absurd ⟨rfl, rfl⟩ h⟩
  | some l =>
    obtain ⟨h1, h2⟩ := (hf.2 i).1 (hpi l rfl)
    exact ⟨h2, fun _ => h1⟩

/-- The same for an engine whose only parser is a lookup one, asked without filter. -/
theorem c06_lookup (env : RuleEnv) (hrd : env.rd = Rounding.exact) (p : Lookup) (hnd : p.intentsNames.Nodup)
    (e : Engine) (he : e.parsers = [p.impl env]) (o : HashOrd) (w : World)
    (input : Text) (ni ns : Nat) (res : ParseResult) (ranked : List IntentResult)
    (h : (e.parseWithAlternatives o input none none ni ns).run w = .ok res)
    (hr : (e.getIntents (o.sub 2) input).run w = .ok ranked) (i : Text) (hi : res.intent.name = some i) :
    (∀ a ∈ res.alternatives, a.intent.name ≠ some i) ∧
    (∀ r ∈ ranked, r.name ≠ some i → (∃ a ∈ res.alternatives, a.intent = r) ∨
      (res.alternatives.length = ni ∧ ∀ a ∈ res.alternatives, r.score ≤ a.intent.score)) := by
  have hall : ∀ r, e.Passes none none r := fun r n _ =>
    ⟨⟨fun _ h => (by cases h), fun _ h => (by cases h)⟩, fun h => absurd ⟨rfl, rfl⟩ h⟩
  have key : (∀ a ∈ res.alternatives, a.intent.name ≠ res.intent.name) ∧
    (∀ r ∈ ranked, e.Passes none none r → r.name ≠ res.intent.name → (∃ a ∈ res.alternatives, a.intent = r) ∨
      (res.alternatives.length = ni ∧ ∀ a ∈ res.alternatives, r.score ≤ a.intent.score)) := by
    refine c06_strict_partial e o w input none none ni ns res ranked h hr ?_
    rw [hi]
    obtain ⟨eff, out, hf, hout, hint⟩ := single_answer he h hi
    have heff : eff = none := by
      cases eff with
      | none => rfl
      | some l => exact absurd ⟨rfl, rfl⟩ hf.1
    subst heff
    obtain ⟨rs, hrs, hmem⟩ := single_ranking he hr
    have hnd' := hmem (((c38_lookup env p hnd _ w input rs hrs).names.nodup_iff).2 (by
      rw [List.nodup_cons]
      exact ⟨by simp, hnd.map (fun _ _ h => Option.some.inj h)⟩))
    change (p.parse env _ input none).run w = .ok out at hout
    change (p.getIntents env _ input).run w = .ok rs at hrs
    unfold Lookup.parse at hout
    rw [Prog.run_bind, Outcome.bind_ok] at hout
    obtain ⟨top, htop, hout⟩ := hout
    simp only [Prog.run_ret, Outcome.ok.injEq] at hout
    unfold Lookup.getIntents at hrs
    rw [Prog.run_bind, Outcome.bind_ok] at hrs
    obtain ⟨top', htop', hrs⟩ := hrs
    simp only [Prog.run_ret, Outcome.ok.injEq] at hrs
    obtain ⟨ms0, hn0, h1, _, h3⟩ := lookup_top_run htop
    obtain ⟨ms, hp, hrun⟩ := h3 ((o.sub 1).sub 0)
    obtain ⟨ms', hp', hrun'⟩ := h3 (((o.sub 2).sub 0).sub 0)
    rw [hrun] at htop
    rw [hrun'] at htop'
    simp only [Outcome.ok.injEq] at htop htop'
    subst htop htop'
    have hsub : ∀ m ∈ ms', m.1 ∈ p.intentsNames := by
      intro m hm
      obtain ⟨⟨_, _, _, _, _, _, _, _, _, n, _, _, hi, _⟩, _⟩ := h1 m.1 m.2 (hp'.mem_iff.1 hm)
      exact List.mem_of_getElem? hi
    have hn' := (hp'.map Prod.fst).nodup_iff.2 hn0
    have hlen : ms'.length ≤ p.intentsNames.length := by
      have : (ms'.map Prod.fst).Subperm p.intentsNames :=
        hn'.subperm (fun x hx => by obtain ⟨m, hm, rfl⟩ := List.mem_map.1 hx; exact hsub m hm)
      simpa using this.length_le
    rw [hrd] at hout hrs
    obtain ⟨r0, hr0, hname, hlt⟩ := winner_first ((hp.map Prod.fst).nodup_iff.2 hn0) hn' (i := i)
      (by rw [hout, hint, hi]) (fun m hm => hp'.mem_iff.2 (hp.mem_iff.1 hm)) (P := fun _ => True)
      (fun m hm _ => hp.mem_iff.2 (hp'.mem_iff.1 hm)) hlen hsub
    rw [hrs] at hr0 hlt
    exact ⟨r0, (hnd' r0).2 hr0, hname, hall r0, fun r hr1 _ hr3 => hlt r ((hnd' r).1 hr1) (fun _ _ => trivial) hr3⟩
  rw [hi] at key
  exact ⟨key.1, fun r hr1 hr2 => key.2 r hr1 (hall r) hr2⟩

/-- Two intents without slots recognised by the same words. -/
def tiedDet : Det where
  regexes := [("idiom".toList, [plainRegex "tea".toList]), ("halt".toList, [plainRegex "tea".toList])]
  groupNames := []
  slotEntities := [("idiom".toList, []), ("halt".toList, [])]
  stopWords := StopWords.new false [] []
  scopes := detScopes demoKinds [("idiom".toList, []), ("halt".toList, [])]

/-- C06 is false of the code even with a single deterministic parser, when it hesitates: no intent is returned,
one of the two candidates is missing from the alternatives and the absent intent is repeated. -/
theorem c06_tie_counterexample :
    ∃ (e : Engine) (res : ParseResult), e.parsers = [tiedDet.impl demoEnv] ∧
      tiedDet.Built demoEnv.names ∧ tiedDet.regexes.keys.Nodup ∧
      (e.parseWithAlternatives HashOrd.insertion "tea".toList none none 2 0).run ruleWorld = .ok res ∧
      (e.getIntents (HashOrd.insertion.sub 2) "tea".toList).run ruleWorld
        = .ok [⟨some "idiom".toList, 1 / 2⟩, ⟨some "halt".toList, 1 / 2⟩, ⟨none, 0⟩] ∧
      res.intent.name = none ∧
      res.alternatives = [⟨⟨some "halt".toList, 1 / 2⟩, []⟩, ⟨⟨none, 0⟩, []⟩] := by
  refine ⟨{ filterDemo with parsers := [tiedDet.impl demoEnv], names := demoKinds },
    ⟨"tea".toList, ⟨none, 1⟩, [], [⟨⟨some "halt".toList, 1 / 2⟩, []⟩, ⟨⟨none, 0⟩, []⟩]⟩, rfl, ⟨rfl, by decide⟩, by decide,
    by decide +kernel, by decide +kernel, rfl, rfl⟩

/-- The hypotheses of `c06_deterministic`, with two alternatives. -/
example :
    let e : Engine := { filterDemo with parsers := [demoDet.impl demoEnv], names := demoKinds }
    (e.parseWithAlternatives HashOrd.insertion "make the two tea".toList none none 2 0).run ruleWorld
      = .ok ⟨"make the two tea".toList, ⟨some "idiom".toList, 2 / 3⟩, [],
        [⟨⟨some "brew".toList, 1 / 3⟩, [⟨"two".toList, .builtin 2, [], ⟨9, 12⟩, "snips/number".toList, "count".toList⟩]⟩,
         ⟨⟨some "halt".toList, 0⟩, []⟩]⟩ := by decide +kernel

/-- The hypotheses of `c06_lookup`, with two alternatives. -/
example :
    let e : Engine := ⟨⟨[("drink".toList, false)], []⟩, [demoLookup.impl demoEnv], demoKinds⟩
    (e.parseWithAlternatives HashOrd.insertion "make the two tea".toList none none 2 0).run ruleWorld
      = .ok ⟨"make the two tea".toList, ⟨some "idiom".toList, 3 / 4⟩, [],
        [⟨⟨some "brew".toList, 1 / 4⟩, [⟨"two".toList, .builtin 2, [], ⟨9, 12⟩, "snips/number".toList, "count".toList⟩,
          ⟨"tea".toList, .custom "tea".toList, [], ⟨13, 16⟩, "drink".toList, "kind".toList⟩]⟩,
         ⟨⟨some "halt".toList, 0⟩, []⟩]⟩ := by decide +kernel

end Snips
