import Verif.Props.C08_Ranking

/-! # C06, C07: what the alternatives are -/

namespace Snips

theorem passesFilter_iff {e : Engine} {wl bl eff : Option (List Text)} (h : e.IsFilterFor wl bl eff)
    (r : IntentResult) : Engine.passesFilter eff r = true ↔ e.Passes wl bl r := by
  unfold Engine.passesFilter Engine.Passes
  cases hn : r.name with
  | none => simp
  | some n =>
    simp only [Option.some.injEq, forall_eq']
    cases eff with
    | none =>
      obtain ⟨rfl, rfl⟩ := h
      simp [Allowed]
    | some l =>
      obtain ⟨h1, h2⟩ := h
      simp only [List.contains_eq_mem, decide_eq_true_eq]
      rw [h2 n]
      tauto

/-- Inversion: the alternatives are a stretch of the filtered merged ranking. -/
theorem alternatives_eq {e : Engine} {o : HashOrd} {w : World} {input : Text}
    {whitelist blacklist : Option (List Text)} {ni ns : Nat} {res : ParseResult}
    (h : (e.parseWithAlternatives o input whitelist blacklist ni ns).run w = .ok res) (hni : ni ≠ 0) :
    ∃ eff ranked, e.IsFilterFor whitelist blacklist eff ∧ (e.getIntents (o.sub 2) input).run w = .ok ranked ∧
      res.alternatives.map Alternative.intent
        = ((ranked.filter (Engine.passesFilter eff)).drop 1).take ni ∧
      ∀ (j : Nat) (a : Alternative), res.alternatives[j]? = some a →
        (e.alternativeSlots ((o.sub 3).sub j) input ns a.intent.name).run w = .ok a.slots := by
  obtain ⟨eff, main, hwl, _, hres⟩ := Engine.parseWith_ok h
  have hknown : e.FilterKnown whitelist blacklist := by
    by_contra hk
    obtain ⟨i, _, _, h3⟩ := getIntentsWhitelist_unknown e (o.sub 0) whitelist blacklist hk
    rw [h3] at hwl; cases hwl
  obtain ⟨eff', h1, h2⟩ := getIntentsWhitelist_known e (o.sub 0) whitelist blacklist hknown
  rw [hwl] at h1
  injection h1 with h1
  subst h1
  rcases hres with ⟨h0, _⟩ | ⟨_, ranked, alts, hr, ha, rfl⟩
  · exact absurd h0 hni
  · obtain ⟨g1, g2⟩ := Engine.alternativesSlots_run _ _ _ _ _ _ _ _ ha
    refine ⟨eff, ranked, h2, hr, g1, ?_⟩
    intro j a hj
    have := g2 j a hj
    rwa [Nat.zero_add] at this

/-- C07: alternatives come by non-increasing confidence, each intent at most once, every named one
passes the filter, one without intent has no slots; and each is an entry of the engine's own ranking. -/
theorem c07_alternatives (e : Engine) (o : HashOrd) (w : World) (input : Text)
    (whitelist blacklist : Option (List Text)) (ni ns : Nat) (res : ParseResult)
    (h : (e.parseWithAlternatives o input whitelist blacklist ni ns).run w = .ok res) :
    res.alternatives.Pairwise (fun a b => b.intent.score ≤ a.intent.score) ∧
    (res.alternatives.map (fun a => a.intent.name)).Nodup ∧
    (∀ a ∈ res.alternatives, e.Passes whitelist blacklist a.intent) ∧
    (∀ a ∈ res.alternatives, a.intent.name = none → a.slots = []) ∧
    (ni ≠ 0 → ∃ ranked, (e.getIntents (o.sub 2) input).run w = .ok ranked ∧
      ∀ a ∈ res.alternatives, a.intent ∈ ranked) := by
  by_cases hni : ni = 0
  · subst hni
    obtain ⟨_, _, _, _, _, _, _, hlen⟩ := c05_main_unchanged e o w input whitelist blacklist 0 ns res h
    have : res.alternatives = [] := List.eq_nil_of_length_eq_zero (by omega)
    simp [this]
  · obtain ⟨eff, ranked, hf, hr, heq, hslots⟩ := alternatives_eq h hni
    obtain ⟨hn, hs, _⟩ := c08_sorted_nodup e (o.sub 2) w input ranked hr
    have hsub : (res.alternatives.map Alternative.intent).Sublist (ranked.filter (Engine.passesFilter eff)) := by
      rw [heq]
      exact (List.take_sublist _ _).trans (List.drop_sublist _ _)
    have hsub2 := hsub.trans List.filter_sublist
    refine ⟨?_, ?_, ?_, ?_, fun _ => ⟨ranked, hr, ?_⟩⟩
    · have := hs.sublist hsub2
      rwa [List.pairwise_map] at this
    · have := hn.sublist (hsub2.map IntentResult.name)
      rwa [List.map_map] at this
    · intro a ha
      have : a.intent ∈ ranked.filter (Engine.passesFilter eff) :=
        hsub.subset (List.mem_map.2 ⟨a, ha, rfl⟩)
      exact (passesFilter_iff hf _).1 (List.mem_filter.1 this).2
    · intro a ha hnone
      obtain ⟨j, hj⟩ := List.getElem?_of_mem ha
      have := hslots j a hj
      rw [hnone] at this
      simp only [Engine.alternativeSlots, Prog.run_ret, Outcome.ok.injEq] at this
      exact this.symm
    · intro a ha
      exact hsub2.subset (List.mem_map.2 ⟨a, ha, rfl⟩)

/-- The slots of a named alternative are those `get_slots` finds for that intent. -/
theorem c07_alternative_slots (e : Engine) (o : HashOrd) (w : World) (input : Text)
    (whitelist blacklist : Option (List Text)) (ni ns : Nat) (res : ParseResult)
    (h : (e.parseWithAlternatives o input whitelist blacklist ni ns).run w = .ok res)
    (j : Nat) (a : Alternative) (hj : res.alternatives[j]? = some a) (n : Text)
    (hn : a.intent.name = some n) :
    (e.getSlotsWithAlternatives ((o.sub 3).sub j) input n ns).run w = .ok a.slots := by
  by_cases hni : ni = 0
  · subst hni
    obtain ⟨_, _, _, _, _, _, _, hlen⟩ := c05_main_unchanged e o w input whitelist blacklist 0 ns res h
    have : res.alternatives = [] := List.eq_nil_of_length_eq_zero (by omega)
    rw [this] at hj; simp at hj
  · obtain ⟨eff, ranked, hf, hr, heq, hslots⟩ := alternatives_eq h hni
    have := hslots j a hj
    rw [hn] at this
    exact this

/-- C06 is false of the code: two parsers that both rank intents properly; the first recognises `a`
with confidence 3/5, the second ranks `b` at 9/10; `a` is returned as the main intent *and* as the only
alternative, and the better `b` is skipped. -/
theorem c06_counterexample :
    ∃ (e : Engine) (input : Text) (res : ParseResult),
      (e.parseWithAlternatives HashOrd.insertion input none none 1 0).run noEntities = .ok res ∧
      res.intent.name = some ['a'] ∧
      res.alternatives = [⟨⟨some ['a'], 3 / 5⟩, []⟩] ∧
      (e.getIntents (HashOrd.insertion.sub 2) input).run noEntities
        = .ok [⟨some ['b'], 9 / 10⟩, ⟨some ['a'], 3 / 5⟩] := by
  refine ⟨{ filterDemo with parsers :=
      [⟨fun _ _ _ => .ret ⟨⟨some ['a'], 3 / 5⟩, []⟩, fun _ _ => .ret [⟨some ['a'], 3 / 5⟩, ⟨some ['b'], 2 / 5⟩],
        fun _ _ _ => .ret []⟩,
       ⟨fun _ _ _ => .ret ⟨⟨some ['b'], 9 / 10⟩, []⟩, fun _ _ => .ret [⟨some ['b'], 9 / 10⟩, ⟨some ['a'], 1 / 10⟩],
        fun _ _ _ => .ret []⟩] }, ['x'], ⟨['x'], ⟨some ['a'], 3 / 5⟩, [], [⟨⟨some ['a'], 3 / 5⟩, []⟩]⟩, ?_⟩
  decide +kernel

/-- What does hold for C06: if the main intent is the best one of the engine's ranking that passes the
filter, it is not repeated, and every other intent of the ranking that passes the filter is listed
unless as many as requested, at least as good ones, are.  Missing for the full claim: the hypothesis
`hfirst`, which the code does not ensure (`c06_counterexample`). -/
theorem c06_not_repeated_partial (e : Engine) (o : HashOrd) (w : World) (input : Text)
    (whitelist blacklist : Option (List Text)) (ni ns : Nat) (res : ParseResult) (ranked : List IntentResult)
    (h : (e.parseWithAlternatives o input whitelist blacklist ni ns).run w = .ok res)
    (hr : (e.getIntents (o.sub 2) input).run w = .ok ranked)
    (hfirst : ∃ pre r0 post, ranked = pre ++ r0 :: post ∧ (∀ r ∈ pre, ¬ e.Passes whitelist blacklist r) ∧
      e.Passes whitelist blacklist r0 ∧ r0.name = res.intent.name) :
    (∀ a ∈ res.alternatives, a.intent.name ≠ res.intent.name) ∧
    (∀ r ∈ ranked, e.Passes whitelist blacklist r → r.name ≠ res.intent.name →
      (∃ a ∈ res.alternatives, a.intent = r) ∨
      (res.alternatives.length = ni ∧ ∀ a ∈ res.alternatives, r.score ≤ a.intent.score)) := by
  by_cases hni : ni = 0
  · subst hni
    obtain ⟨_, _, _, _, _, _, _, hlen⟩ := c05_main_unchanged e o w input whitelist blacklist 0 ns res h
    have : res.alternatives = [] := List.eq_nil_of_length_eq_zero (by omega)
    simp [this]
  · obtain ⟨eff, ranked', hf, hr', heq, _⟩ := alternatives_eq h hni
    rw [hr] at hr'
    injection hr' with hr'
    subst hr'
    obtain ⟨hn, hs, _⟩ := c08_sorted_nodup e (o.sub 2) w input ranked hr
    obtain ⟨pre, r0, post, rfl, hpre, hr0, hname⟩ := hfirst
    have hfilter : (pre ++ r0 :: post).filter (Engine.passesFilter eff)
        = r0 :: post.filter (Engine.passesFilter eff) := by
      rw [List.filter_append, List.filter_cons, if_pos ((passesFilter_iff hf r0).2 hr0)]
      have : pre.filter (Engine.passesFilter eff) = [] := by
        rw [List.filter_eq_nil_iff]
        intro r hr1 hr2
        exact hpre r hr1 ((passesFilter_iff hf r).1 hr2)
      rw [this, List.nil_append]
    rw [hfilter, List.drop_one, List.tail_cons] at heq
    have hmem : ∀ a ∈ res.alternatives, a.intent ∈ post.filter (Engine.passesFilter eff) := by
      intro a ha
      have : a.intent ∈ (post.filter (Engine.passesFilter eff)).take ni := by
        rw [← heq]; exact List.mem_map.2 ⟨a, ha, rfl⟩
      exact List.mem_of_mem_take this
    constructor
    · intro a ha hc
      have ha' := (List.mem_filter.1 (hmem a ha)).1
      rw [List.map_append, List.map_cons, List.nodup_append] at hn
      have := hn.2.1
      rw [List.nodup_cons] at this
      exact this.1 (List.mem_map.2 ⟨a.intent, ha', by rw [hc, hname]⟩)
    · intro r hrm hpass hne
      have hpost : r ∈ post.filter (Engine.passesFilter eff) := by
        rw [List.mem_filter]
        refine ⟨?_, (passesFilter_iff hf r).2 hpass⟩
        rcases List.mem_append.1 hrm with hh | hh
        · exact absurd hpass (hpre r hh)
        · rcases List.mem_cons.1 hh with rfl | hh
          · exact absurd hname hne
          · exact hh
      have hsorted : (post.filter (Engine.passesFilter eff)).Pairwise (fun a b => b.score ≤ a.score) := by
        refine hs.sublist (List.filter_sublist.trans ?_)
        exact (List.sublist_cons_self _ _).trans (List.sublist_append_right _ _)
      rw [← List.take_append_drop ni (post.filter (Engine.passesFilter eff))] at hpost hsorted
      rcases List.mem_append.1 hpost with hh | hh
      · left
        rw [← heq] at hh
        obtain ⟨a, ha, hae⟩ := List.mem_map.1 hh
        exact ⟨a, ha, hae⟩
      · right
        have hlen : res.alternatives.length = ni := by
          have h1 : res.alternatives.length = ((post.filter (Engine.passesFilter eff)).take ni).length := by
            rw [← heq, List.length_map]
          have h2 : 0 < ((post.filter (Engine.passesFilter eff)).drop ni).length :=
            List.length_pos_of_mem hh
          rw [List.length_drop] at h2
          rw [h1, List.length_take]
          omega
        refine ⟨hlen, fun a ha => ?_⟩
        rw [List.pairwise_append] at hsorted
        refine hsorted.2.2 a.intent ?_ r hh
        rw [← heq]
        exact List.mem_map.2 ⟨a, ha, rfl⟩

/-! Non-vacuity: the ranking parser alone, one and two alternatives requested. -/

example :
    let e : Engine := { filterDemo with parsers := [rankingParser] }
    (e.getIntents (HashOrd.insertion.sub 2) ['x']).run noEntities
      = .ok [⟨some ['a'], 2 / 3⟩, ⟨some ['b'], 1 / 3⟩, ⟨none, 0⟩] ∧
    (e.parseWithAlternatives HashOrd.insertion ['x'] none none 2 0).run noEntities
      = .ok ⟨['x'], ⟨some ['a'], 2 / 3⟩, [], [⟨⟨some ['b'], 1 / 3⟩, []⟩, ⟨⟨none, 0⟩, []⟩]⟩ ∧
    (∃ pre r0 post, ([⟨some ['a'], 2 / 3⟩, ⟨some ['b'], 1 / 3⟩, ⟨none, 0⟩] : List IntentResult)
        = pre ++ r0 :: post ∧ (∀ r ∈ pre, ¬ e.Passes none none r) ∧
      e.Passes none none r0 ∧ r0.name = some ['a']) := by
  refine ⟨by decide +kernel, by decide +kernel, [], ⟨some ['a'], 2 / 3⟩, _, rfl, by simp, ?_, rfl⟩
  intro n _
  simp [Allowed]

end Snips
