import Verif.Proofs.LookupTable
import Verif.Props.C35_Decision
import Verif.Spec.RuleDemo

/-! # C81 The lookup parser reads a sentence as its table says -/

namespace Snips

/-- What an answer of the lookup parser is, in terms of the readings of the table. -/
theorem lookup_parse_says {env : RuleEnv} {p : Lookup} {o : HashOrd} {w : World} {input : Text}
    {filter : Option (List Text)} {out : InternalResult} (h : (p.parse env o input filter).run w = .ok out) {i : Text}
    (hi : out.intent.name = some i) :
    p.Hit env w input filter i out.slots ∧ 1 / 2 < out.intent.score ∧ out.intent.score ≤ 1 ∧
      (∀ sl', p.Hit env w input filter i sl' → slotWeight env.rd sl'.length ≤ slotWeight env.rd out.slots.length) ∧
      ∀ j sl', j ≠ i → p.Hit env w input filter j sl' → out.slots.length < sl'.length := by
  obtain ⟨ms, ms', hn, hp, hout, h1, h2, _⟩ := lookup_parse_run h
  have hn' : (ms'.map Prod.fst).Nodup := (hp.map Prod.fst).nodup_iff.2 hn
  rcases pick_cases' (ms := ms') env.rd with ⟨h3, _⟩ | ⟨m, hm, h3, h4⟩
  · rw [hout, h3] at hi
    simp [noIntent] at hi
  · rw [h3] at hout
    subst hout
    simp only [Option.some.injEq] at hi
    subst hi
    obtain ⟨h5, h6⟩ := h1 m.1 m.2 (hp.mem_iff.1 hm)
    refine ⟨h5, h4, conf_le_one env.rd (r := mkRes m) (List.mem_map.2 ⟨m, hm, rfl⟩), h6, ?_⟩
    intro j sl' hj hh
    obtain ⟨sl, hsl⟩ := h2 j sl' hh
    have hw := (h1 j sl hsl).2 sl' hh
    by_contra hlt
    have hle := slotWeight_anti env.rd (Nat.le_of_not_lt hlt)
    obtain ⟨a, ha⟩ := List.mem_iff_getElem?.1 hm
    obtain ⟨b, hb⟩ := List.mem_iff_getElem?.1 (hp.mem_iff.2 hsl)
    have hab : a ≠ b := by
      rintro rfl
      rw [ha] at hb
      exact hj (by rw [Option.some.inj hb])
    exact absurd (conf_le_half_of_weight env.rd (rs := ms'.map mkRes) (r := mkRes m) (c := mkRes (j, sl)) hab
      (by simp [ha]) (by simp [hb]) (hle.trans hw)) (not_le.2 h4)

/-- An intent that is returned is what the table says, with the slots that are returned. -/
theorem c81_sound (env : RuleEnv) (p : Lookup) (hs : p.Sound) (o : HashOrd) (w : World) (input : Text)
    (hg : p.GoodMatches env w input) (filter : Option (List Text)) (out : InternalResult)
    (h : (p.parse env o input filter).run w = .ok out) (i : Text) (hi : out.intent.name = some i) :
    p.Says env w input filter i out.slots ∧ 1 / 2 < out.intent.score ∧ out.intent.score ≤ 1 := by
  obtain ⟨h1, h2, h3, _⟩ := lookup_parse_says h hi
  exact ⟨says_of_hit hs hg h1, h2, h3⟩

/-- Every reading with another intent has more slots than the answer. -/
theorem c81_fewest (env : RuleEnv) (p : Lookup) (o : HashOrd) (w : World) (input : Text)
    (hg : p.GoodMatches env w input) (hd : p.NoRepeats env w input) (filter : Option (List Text)) (out : InternalResult)
    (h : (p.parse env o input filter).run w = .ok out) (i : Text) (hi : out.intent.name = some i) (j : Text)
    (slots : List InternalSlot) (hj : j ≠ i) (hsay : p.Says env w input filter j slots) :
    out.slots.length < slots.length :=
  (lookup_parse_says h hi).2.2.2.2 j slots hj (hit_of_says hg hd hsay)

/-- Every reading with the intent of the answer has at least as many slots as the answer (exact arithmetic). -/
theorem c81_fewest_own (env : RuleEnv) (hrd : env.rd = Rounding.exact) (p : Lookup) (o : HashOrd) (w : World)
    (input : Text) (hg : p.GoodMatches env w input) (hd : p.NoRepeats env w input) (filter : Option (List Text))
    (out : InternalResult) (h : (p.parse env o input filter).run w = .ok out) (i : Text)
    (hi : out.intent.name = some i) (slots : List InternalSlot) (hsay : p.Says env w input filter i slots) :
    out.slots.length ≤ slots.length := by
  have := (lookup_parse_says h hi).2.2.2.1 slots (hit_of_says hg hd hsay)
  rw [hrd] at this
  exact exact_weight_le this

/-- If the table says one intent only, this intent is returned, with certainty. -/
theorem c81_only (env : RuleEnv) (p : Lookup) (hs : p.Sound) (o : HashOrd) (w : World) (input : Text)
    (hg : p.GoodMatches env w input) (hd : p.NoRepeats env w input) (filter : Option (List Text)) (out : InternalResult)
    (h : (p.parse env o input filter).run w = .ok out) (i : Text) (slots : List InternalSlot)
    (hsay : p.Says env w input filter i slots) (honly : ∀ j sl, p.Says env w input filter j sl → j = i) :
    out.intent = ⟨some i, 1⟩ := by
  obtain ⟨ms, hn, h1, h2, hv⟩ := c35_lookup_rounded env p o w input filter out h
  obtain ⟨sl, hsl⟩ := h2 i slots (hit_of_says hg hd hsay)
  have hall : ∀ m ∈ ms, m.1 = i := fun m hm => honly m.1 m.2 (says_of_hit hs hg (h1 m.1 m.2 hm).1)
  have hone : ms = [(i, sl)] := by
    cases ms with
    | nil => cases hsl
    | cons a ms =>
      cases ms with
      | nil => rw [List.mem_singleton.1 hsl]
      | cons b ms =>
        have ha := hall a (by simp)
        have hb := hall b (by simp)
        simp [ha, hb] at hn
  rw [hv.single i sl hone]

/-- No intent is returned if the table says nothing. -/
theorem c81_nothing (env : RuleEnv) (p : Lookup) (hs : p.Sound) (o : HashOrd) (w : World) (input : Text)
    (hg : p.GoodMatches env w input) (filter : Option (List Text)) (out : InternalResult)
    (h : (p.parse env o input filter).run w = .ok out) (hno : ∀ j sl, ¬ p.Says env w input filter j sl) :
    out = ⟨⟨none, 1⟩, []⟩ := by
  obtain ⟨ms, hn, h1, h2, hv⟩ := c35_lookup_rounded env p o w input filter out h
  cases hi : out.intent.name with
  | none => exact hv.absent hi
  | some i => exact absurd (c81_sound env p hs o w input hg filter out h i hi).1 (hno i _)

/-- No intent is returned if two intents are said and neither with fewer slots than the other. -/
theorem c81_tie (env : RuleEnv) (p : Lookup) (o : HashOrd) (w : World) (input : Text)
    (hg : p.GoodMatches env w input) (hd : p.NoRepeats env w input) (filter : Option (List Text)) (out : InternalResult)
    (h : (p.parse env o input filter).run w = .ok out) (i j : Text) (hij : i ≠ j) (si sj : List InternalSlot)
    (hi : p.Says env w input filter i si) (hj : p.Says env w input filter j sj) (hlen : si.length = sj.length)
    (hmin : ∀ k sl, p.Says env w input filter k sl → si.length ≤ sl.length) (hs : p.Sound) :
    out = ⟨⟨none, 1⟩, []⟩ := by
  obtain ⟨ms, hn, h1, h2, hv⟩ := c35_lookup_rounded env p o w input filter out h
  cases hk : out.intent.name with
  | none => exact hv.absent hk
  | some k =>
    exfalso
    have hle := hmin k _ (c81_sound env p hs o w input hg filter out h k hk).1
    by_cases hki : i = k
    · have := c81_fewest env p o w input hg hd filter out h k hk j sj (fun e => hij (hki.trans e.symm)) hj
      omega
    · have := c81_fewest env p o w input hg hd filter out h k hk i si hki hi
      omega

/-- A text, typed with the placeholders in it, is found in the table without any entity: in a release build the intent
is returned although the entry has two slots and the answer none (in a debug build the parser panics, see
`c58_debug_placeholder_counterexample`). -/
theorem c81_typed_placeholder_counterexample :
    demoLookup.Entry demoEnv "make %snips/number% %drink%".toList "brew".toList ["count".toList, "kind".toList] ∧
    (demoLookup.parse { demoEnv with debugAssertions := false } HashOrd.insertion "make %snips/number% %drink%".toList
      none).run ruleWorld = .ok ⟨⟨some "brew".toList, 1⟩, []⟩ := by
  refine ⟨⟨0, [0, 1], by decide +kernel, rfl, .cons rfl (.cons rfl .nil)⟩, by decide +kernel⟩

/-! ## A case -/

theorem demoLookup_sound : demoLookup.Sound := ⟨by decide +kernel, by decide +kernel⟩

theorem demo_matches (scope : GroupedScope) (hs : scope ∈ demoLookup.scopes) (all : List MatchedEntity)
    (h : scope.Matches demoEnv ruleWorld "make the two tea".toList all) :
    all = [⟨⟨9, 12⟩, "snips/number".toList⟩, ⟨⟨13, 16⟩, "drink".toList⟩] ∨ all = [] := by
  obtain ⟨kinds, bs, cs, hk, hb, hc, rfl⟩ := h
  simp only [demoLookup, List.mem_cons, List.not_mem_nil, or_false] at hs
  rcases hs with rfl | rfl
  · left
    obtain ⟨k, rfl, hk1⟩ : ∃ k, kinds = [k] ∧ demoEnv.names.fromIdentifier "snips/number".toList = some k := by
      cases hk with
      | cons h t => cases t; exact ⟨_, rfl, h⟩
    have hk : k = 0 := by
      have h0 : demoEnv.names.fromIdentifier "snips/number".toList = some 0 := by decide
      rw [h0] at hk1
      exact (Option.some.inj hk1).symm
    subst hk
    have hb' : ruleWorld.builtin "make the two tea".toList (some [0]) 0 =
        .ok [⟨"two".toList, ⟨9, 12⟩, .builtin 2, [], 0⟩] := by decide +kernel
    have hc' : ruleWorld.custom "make the two tea".toList (some ["drink".toList]) 0 =
        .ok [⟨"tea".toList, "tea".toList, [], ⟨13, 16⟩, "drink".toList⟩] := by decide +kernel
    rw [hb'] at hb
    rw [hc'] at hc
    rw [← Outcome.ok.inj hb, ← Outcome.ok.inj hc]
    rfl
  · right
    have hk : kinds = [] := by cases hk; rfl
    subst hk
    have hb' : ruleWorld.builtin "make the two tea".toList (some []) 0 = .ok [] := by decide +kernel
    have hc' : ruleWorld.custom "make the two tea".toList (some []) 0 = .ok [] := by decide +kernel
    rw [hb'] at hb
    rw [hc'] at hc
    rw [← Outcome.ok.inj hb, ← Outcome.ok.inj hc]
    rfl

example : demoLookup.Sound ∧ demoLookup.GoodMatches demoEnv ruleWorld "make the two tea".toList ∧
    demoLookup.NoRepeats demoEnv ruleWorld "make the two tea".toList := by
  refine ⟨demoLookup_sound, fun s hs all h e he => ?_, fun s hs all h => ?_⟩
  · rcases demo_matches s hs all h with rfl | rfl
    · simp only [List.mem_cons, List.not_mem_nil, or_false] at he
      rcases he with rfl | rfl <;> exact ⟨by simp [Rng.NonEmpty], by decide⟩
    · cases he
  · rcases demo_matches s hs all h with rfl | rfl
    · decide
    · exact List.nodup_nil

/-- `make the two tea`, with the pieces `make the `, a number, a space and a drink, is `brew` by the table. -/
example : demoLookup.Says demoEnv ruleWorld "make the two tea".toList (some ["brew".toList]) "brew".toList
    [⟨"two".toList, ⟨9, 12⟩, "snips/number".toList, "count".toList⟩, ⟨"tea".toList, ⟨13, 16⟩, "drink".toList, "kind".toList⟩] := by
  have hord : ([⟨⟨9, 12⟩, "snips/number".toList⟩, ⟨⟨13, 16⟩, "drink".toList⟩] : List MatchedEntity).Pairwise
      fun a b => a.range.Before b.range := by
    simp [Rng.Before]
  refine ⟨_, List.mem_cons_self, "brew".toList, by decide, by simp [Permits], by simp [Permits],
    [⟨⟨9, 12⟩, "snips/number".toList⟩, ⟨⟨13, 16⟩, "drink".toList⟩], [⟨⟨9, 12⟩, "snips/number".toList⟩, ⟨⟨13, 16⟩, "drink".toList⟩],
    [.plain "make the ".toList, .ent "two".toList "snips/number".toList, .plain " ".toList, .ent "tea".toList "drink".toList],
    ["count".toList, "kind".toList], ?_, ⟨fun _ h => h, hord, fun x hx => .inl hx⟩, by decide, ?_, ?_, ?_⟩
  · exact ⟨[0], [⟨"two".toList, ⟨9, 12⟩, .builtin 2, [], 0⟩], [⟨"tea".toList, "tea".toList, [], ⟨13, 16⟩, "drink".toList⟩],
      .cons (by decide) .nil, by decide +kernel, by decide +kernel, rfl⟩
  · rw [show entitiesOf _ = _ from rfl]; decide
  · exact ⟨0, [0, 1], by decide +kernel, rfl, .cons rfl (.cons rfl .nil)⟩
  · decide +kernel

end Snips
