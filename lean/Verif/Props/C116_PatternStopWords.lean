import Verif.Proofs.PatternStopWords
import Verif.Props.C112_StopWords
import Verif.Props.C68_SlotOrigin

/-! C116: stop words put into a query do not change what the deterministic parser reads in it. -/

namespace Snips

/-- `parse`: the same intent with the same score, the same slots with the same values, each at its place in the longer query. -/
theorem c116_parse (env : RuleEnv) (htok : ∀ t, Tokenized t (env.fns.tokenize t)) (hap : env.fns.TokensApart)
    (cr : CharRules) (hblank : cr.white ' ' = true) (p : Det) (hb : p.Built env.names) (htr : p.Trained cr) (w : World)
    (x : Spot) (words : Text) (hm : w.SameMatches x words) (hs : p.SmallQuery env w x.short)
    (hs' : p.SmallQuery env w (x.long words)) (hty : p.NoTypedPlaceholders env w x.short) (filter : Option (List Text))
    (hw : p.AreStopWords env filter words) (o : HashOrd) (out : InternalResult)
    (h : (p.parse env o x.short filter).run w = .ok out) :
    (p.parse env o (x.long words) filter).run w = .ok (out.moved x words) := by
  unfold Det.parse at h ⊢
  rw [Prog.run_bind, Outcome.bind_ok] at h ⊢
  obtain ⟨top, htop, h⟩ := h
  rw [Prog.run_ret, Outcome.ok.injEq] at h
  refine ⟨_, InsertedPattern.top_moved hblank htok hap hb htr hm hs hs' hty hw htop, ?_⟩
  rw [Prog.run_ret, Inserted.pick_moved, h]

/-- `get_slots`. -/
theorem c116_get_slots (env : RuleEnv) (htok : ∀ t, Tokenized t (env.fns.tokenize t)) (hap : env.fns.TokensApart)
    (cr : CharRules) (hblank : cr.white ' ' = true) (p : Det) (hb : p.Built env.names) (htr : p.Trained cr) (w : World)
    (x : Spot) (words : Text) (hm : w.SameMatches x words) (hs : p.SmallQuery env w x.short)
    (hs' : p.SmallQuery env w (x.long words)) (hty : p.NoTypedPlaceholders env w x.short) (intent : Text)
    (hw : p.AreStopWords env (some [intent]) words) (o : HashOrd) (out : List InternalSlot)
    (h : (p.getSlots env o x.short intent).run w = .ok out) :
    (p.getSlots env o (x.long words) intent).run w = .ok (out.map (InternalSlot.moved x words)) := by
  unfold Det.getSlots at h ⊢
  split at h
  · rename_i hc
    rw [if_pos hc]
    rw [Prog.run_bind, Outcome.bind_ok] at h ⊢
    obtain ⟨r, hr, h⟩ := h
    rw [Prog.run_ret, Outcome.ok.injEq] at h
    refine ⟨_, c116_parse env htok hap cr hblank p hb htr w x words hm hs hs' hty _ hw o r hr, ?_⟩
    rw [Prog.run_ret, ← h]
    rfl
  · cases h

/-- `get_intents`: the same ranking. -/
theorem c116_get_intents (env : RuleEnv) (htok : ∀ t, Tokenized t (env.fns.tokenize t)) (hap : env.fns.TokensApart)
    (cr : CharRules) (hblank : cr.white ' ' = true) (p : Det) (hb : p.Built env.names) (htr : p.Trained cr) (w : World)
    (x : Spot) (words : Text) (hm : w.SameMatches x words) (hs : p.SmallQuery env w x.short)
    (hs' : p.SmallQuery env w (x.long words)) (hty : p.NoTypedPlaceholders env w x.short)
    (hw : p.AreStopWords env none words) (o : HashOrd) (out : List IntentResult)
    (h : (p.getIntents env o x.short).run w = .ok out) :
    (p.getIntents env o (x.long words)).run w = .ok out := by
  unfold Det.getIntents at h ⊢
  rw [Prog.run_bind, Outcome.bind_ok] at h ⊢
  obtain ⟨top, htop, h⟩ := h
  refine ⟨_, InsertedPattern.top_moved hblank htok hap hb htr hm hs hs' hty hw htop, ?_⟩
  rw [← h, List.map_map]
  rfl

/-! Non-vacuity. -/

private theorem spaceTokens_append (a b : List Text) (n : Nat) :
    spaceTokens n (a ++ b) = spaceTokens n a ++ spaceTokens (n + (a.map fun v => v.length + 1).sum) b := by
  induction a generalizing n with
  | nil => rfl
  | cons v a ih =>
    simp only [List.cons_append, spaceTokens, ih, List.map_cons, List.sum_cons]
    congr 3
    omega

private theorem spaceTokens_shift (ws : List Text) (n k : Nat) :
    spaceTokens (n + k) ws = (spaceTokens n ws).map fun t =>
      ⟨t.value, ⟨t.range.start + k, t.range.stop + k⟩, ⟨t.charRange.start + k, t.charRange.stop + k⟩⟩ := by
  induction ws generalizing n with
  | nil => rfl
  | cons v ws ih =>
    simp only [spaceTokens, List.map_cons]
    rw [← ih]
    congr 2
    all_goals first | omega | (congr 1; omega)

private theorem splitOn_sum (a : Text) : ((a.splitOn ' ').map fun v => v.length + 1).sum = a.length + 1 := by
  induction a with
  | nil => rfl
  | cons c a ih =>
    rw [List.splitOn, List.splitOnP_cons_eq_if_modifyHead]
    split
    · rw [List.map_cons, List.sum_cons]
      unfold List.splitOn at ih
      simp only [List.length_nil, List.length_cons]
      omega
    · unfold List.splitOn at ih
      cases h : List.splitOnP (· == ' ') a with
      | nil => exact absurd h (List.splitOnP_ne_nil _ _)
      | cons v vs =>
        rw [h] at ih
        simp only [List.modifyHead_cons, List.map_cons, List.sum_cons, List.length_cons] at ih ⊢
        omega

theorem demoEnv_tokens_apart : demoEnv.fns.TokensApart := by
  intro a b
  show ((spaceTokens 0 ((a ++ ' ' :: b).splitOn ' ')).filter _).map _ =
    ((spaceTokens 0 (a.splitOn ' ')).filter _).map _ ++ ((spaceTokens 0 (b.splitOn ' ')).filter _).map _
  rw [List.splitOn_append_cons_self, spaceTokens_append, List.filter_append, List.map_append, splitOn_sum, spaceTokens_shift,
    List.filter_map, List.map_map]
  rfl

/-- The parser of the examples with a pattern as those of trained models. -/
def spottedDet : Det := { demoDet with
  regexes := [("brew".toList, [trainedRegex asciiRules brewPattern]), ("idiom".toList, []), ("halt".toList, [])]
  groupNames := [("g0".toList, "count".toList), ("g1".toList, "kind".toList)] }

theorem spottedDet_trained : spottedDet.Trained asciiRules := by
  intro intent patterns h r hr
  have := Map.get_some_mem h
  simp only [spottedDet, List.mem_cons, Prod.mk.injEq, List.not_mem_nil, or_false] at this
  rcases this with ⟨_, rfl⟩ | ⟨_, rfl⟩ | ⟨_, rfl⟩
  · rw [List.mem_singleton] at hr
    subst hr
    exact ⟨brewPattern, trainedRegex_implements _ _, brewPattern_solid, by simp [brewPattern], ⟨_, rfl⟩,
      ⟨brewPattern.dropLast, by decide +kernel⟩⟩
  · cases hr
  · cases hr

theorem spottedDet_small (input : Text) (h : input = "make two tea".toList ∨ input = "make the two tea".toList) :
    spottedDet.SmallQuery demoEnv ruleWorld input := by
  refine ⟨by rcases h with rfl | rfl <;> decide, ?_⟩
  intro s hs bs cs hbs hcs
  simp only [ruleWorld, Outcome.ok.injEq] at hbs hcs
  subst hbs hcs
  simp only [Rng.NonEmpty]
  rcases h with rfl | rfl <;> (revert s; decide +kernel)

theorem spottedDet_no_typed : spottedDet.NoTypedPlaceholders demoEnv ruleWorld "make two tea".toList := by
  rintro intent raw shown table patterns ⟨kinds, ents, bs, cs, new, hget, hbs, hcs, hrep, -, hshown⟩ hp r hr caps hcap i bytes
    hi hbytes
  have := Map.get_some_mem hp
  simp only [spottedDet, List.mem_cons, Prod.mk.injEq, List.not_mem_nil, or_false] at this
  rcases this with ⟨rfl, rfl⟩ | ⟨_, rfl⟩ | ⟨_, rfl⟩
  · rw [List.mem_singleton] at hr
    subst hr
    have h1 : spottedDet.scopes.get "brew".toList = some ([0], ["drink".toList]) := by decide +kernel
    rw [h1] at hget
    cases hget
    have h2 : ruleWorld.builtin "make two tea".toList (some [0]) 0 = .ok [⟨"two".toList, ⟨5, 8⟩, .builtin 2, [], 0⟩] := by
      decide +kernel
    rw [h2] at hbs
    cases hbs
    have h3 : ruleWorld.custom "make two tea".toList (some ["drink".toList]) 0 =
        .ok [⟨"tea".toList, "tea".toList, [], ⟨9, 12⟩, "drink".toList⟩] := by decide +kernel
    rw [h3] at hcs
    cases hcs
    have h4 : replaceChecked demoEnv.debugAssertions "make two tea".toList [⟨⟨5, 8⟩, "snips/number".toList⟩,
        ⟨⟨9, 12⟩, "drink".toList⟩] (entityPlaceholder demoEnv.fns) =
        .ok ([(⟨5, 19⟩, ⟨5, 8⟩), (⟨20, 27⟩, ⟨9, 12⟩)], "make %SNIPS/NUMBER% %DRINK%".toList) := by decide +kernel
    have h5 := h4.symm.trans hrep
    rw [Outcome.ok.injEq, Prod.mk.injEq] at h5
    obtain ⟨rfl, rfl⟩ := h5
    have h6 : spottedDet.preprocess demoEnv.fns "make %SNIPS/NUMBER% %DRINK%".toList "brew".toList =
        .ok "make %SNIPS/NUMBER% %DRINK%".toList := by decide +kernel
    have h7 := h6.symm.trans hshown
    rw [Outcome.ok.injEq] at h7
    subst h7
    have h8 : ((trainedRegex asciiRules brewPattern).capturesIter "make %SNIPS/NUMBER% %DRINK%".toList).find?
        (fun c => !c.isEmpty) = some [some ⟨0, 27⟩, some ⟨5, 19⟩, some ⟨20, 27⟩] := by decide +kernel
    have h9 := h8.symm.trans (captures_find.1 hcap).2
    rw [Option.some.injEq] at h9
    subst h9
    match i, hi, hbytes with
    | 1, _, h => cases h; decide +kernel
    | 2, _, h => cases h; decide +kernel
    | i + 3, _, h => cases h
  · cases hr
  · cases hr

/-- The hypotheses are met: `make the two tea` is read as `make two tea`. -/
example : (∀ t, Tokenized t (demoEnv.fns.tokenize t)) ∧ demoEnv.fns.TokensApart ∧ asciiRules.white ' ' = true ∧
    spottedDet.Built demoEnv.names ∧ spottedDet.Trained asciiRules ∧
    ruleWorld.SameMatches (.between "make".toList "two tea".toList) "the".toList ∧
    spottedDet.SmallQuery demoEnv ruleWorld "make two tea".toList ∧
    spottedDet.SmallQuery demoEnv ruleWorld "make the two tea".toList ∧
    spottedDet.NoTypedPlaceholders demoEnv ruleWorld "make two tea".toList ∧
    spottedDet.AreStopWords demoEnv none "the".toList ∧
    (spottedDet.parse demoEnv HashOrd.insertion "make two tea".toList none).run ruleWorld =
      .ok ⟨⟨some "brew".toList, 1⟩, [⟨"two".toList, ⟨5, 8⟩, "snips/number".toList, "count".toList⟩,
        ⟨"tea".toList, ⟨9, 12⟩, "drink".toList, "kind".toList⟩]⟩ ∧
    (spottedDet.parse demoEnv HashOrd.insertion "make the two tea".toList none).run ruleWorld =
      .ok ⟨⟨some "brew".toList, 1⟩, [⟨"two".toList, ⟨9, 12⟩, "snips/number".toList, "count".toList⟩,
        ⟨"tea".toList, ⟨13, 16⟩, "drink".toList, "kind".toList⟩]⟩ := by
  refine ⟨ruleFns_tokenized, demoEnv_tokens_apart, by decide, ⟨rfl, by decide⟩, spottedDet_trained, ruleWorld_sameMatches,
    spottedDet_small _ (.inl rfl), spottedDet_small _ (.inr rfl), spottedDet_no_typed, ?_, by decide +kernel, by decide +kernel⟩
  intro i _ _ t ht
  have : demoEnv.fns.tokenize "the".toList = [⟨"the".toList, ⟨0, 3⟩, ⟨0, 3⟩⟩] := by decide +kernel
  rw [this, List.mem_singleton] at ht
  subst ht
  refine ⟨fun own h => absurd h (by simp [spottedDet, demoDet, StopWords.new, Map.get_nil]), fun _ => ?_⟩
  show _ ∈ ["the".toList]
  decide +kernel

/-- The words must be stop words for the intents themselves: for an intent that keeps `the`, the word is not blanked. -/
theorem c116_whitelisted :
    ∃ (p : Det) (o : HashOrd) (out : InternalResult),
      p.stopWords.general = ["the".toList] ∧
      (p.parse demoEnv o "make two tea".toList none).run ruleWorld = .ok out ∧ out.intent.name = some "brew".toList ∧
      (p.parse demoEnv o "make the two tea".toList none).run ruleWorld = .ok ⟨⟨none, 1⟩, []⟩ :=
  ⟨{ spottedDet with stopWords := StopWords.new true ["the".toList] [("brew".toList, ["the".toList])] }, HashOrd.insertion,
    ⟨⟨some "brew".toList, 1⟩, [⟨"two".toList, ⟨5, 8⟩, "snips/number".toList, "count".toList⟩,
      ⟨"tea".toList, ⟨9, 12⟩, "drink".toList, "kind".toList⟩]⟩, rfl, by decide +kernel, rfl, by decide +kernel⟩

/-- The patterns must be as those of trained models: one that has a blank where these have `\s*` no longer matches, as the
stop word leaves more than one blank. -/
theorem c116_untrained :
    ∃ (p : Det) (o : HashOrd), p.stopWords.general = ["the".toList] ∧
      (p.parse demoEnv o "make tea".toList none).run ruleWorld = .ok ⟨⟨some "idiom".toList, 1⟩, []⟩ ∧
      (p.parse demoEnv o "make the tea".toList none).run ruleWorld = .ok ⟨⟨none, 1⟩, []⟩ :=
  ⟨{ demoDet with regexes := [("brew".toList, []), ("idiom".toList, [plainRegex "make tea".toList]), ("halt".toList, [])] },
    HashOrd.insertion, rfl, by decide +kernel, by decide +kernel⟩

end Snips
