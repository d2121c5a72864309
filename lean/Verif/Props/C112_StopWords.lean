import Verif.Proofs.StopWords
import Verif.Props.C63_Reproducible
import Verif.Props.C105_Renaming
import Verif.Spec.RuleDemo

/-! C112: stop words put into a query do not change what the lookup parser reads in it. -/

namespace Snips

/-- `parse`: the same intent with the same score, the same slots with the same values, each at its place in the longer query. -/
theorem c112_parse (env : RuleEnv) (hrd : env.rd = Rounding.exact) (hsplit : env.fns.SplitsAtBlanks) (p : Lookup) (w : World)
    (x : Spot) (words : Text) (hm : w.SameMatches x words) (filter : Option (List Text))
    (hw : p.AreStopWords env filter words) (o o' : HashOrd) (out : InternalResult)
    (h : (p.parse env o x.short filter).run w = .ok out) :
    (p.parse env o' (x.long words) filter).run w = .ok (out.moved x words) := by
  refine c37_lookup env hrd p HashOrd.insertion o' w _ filter _ ?_
  have h1 := c37_lookup env hrd p o HashOrd.insertion w _ filter _ h
  unfold Lookup.parse at h1 ⊢
  rw [Prog.run_bind, Outcome.bind_ok] at h1 ⊢
  obtain ⟨top, htop, h1⟩ := h1
  rw [Prog.run_ret, Outcome.ok.injEq] at h1
  refine ⟨_, Inserted.top_moved hsplit hm hw HashOrd.insertion_blind htop, ?_⟩
  rw [Prog.run_ret, Inserted.pick_moved, h1]

/-- `get_slots`. -/
theorem c112_get_slots (env : RuleEnv) (hrd : env.rd = Rounding.exact) (hsplit : env.fns.SplitsAtBlanks) (p : Lookup)
    (w : World) (x : Spot) (words : Text) (hm : w.SameMatches x words) (intent : Text)
    (hw : p.AreStopWords env (some [intent]) words) (o o' : HashOrd) (out : List InternalSlot)
    (h : (p.getSlots env o x.short intent).run w = .ok out) :
    (p.getSlots env o' (x.long words) intent).run w
      = .ok (out.map (InternalSlot.moved x words)) := by
  unfold Lookup.getSlots at h ⊢
  split at h
  · rename_i hc
    rw [if_pos hc]
    rw [Prog.run_bind, Outcome.bind_ok] at h ⊢
    obtain ⟨r, hr, h⟩ := h
    rw [Prog.run_ret, Outcome.ok.injEq] at h
    refine ⟨_, c112_parse env hrd hsplit p w x words hm _ hw o o' r hr, ?_⟩
    rw [Prog.run_ret, ← h]
    rfl
  · cases h

private theorem same_perm {rs rs' : List IntentResult} (h : Engine.SameRanking rs rs') : rs.Perm rs' := by
  rw [List.perm_iff_count]
  intro r
  rw [← List.count_filter (p := fun x : IntentResult => decide (r.name = x.name)) (by simp), h r.name,
    List.count_filter (by simp)]

/-- `get_intents`: the same intents with the same scores. -/
theorem c112_get_intents (env : RuleEnv) (hrd : env.rd = Rounding.exact) (hsplit : env.fns.SplitsAtBlanks) (p : Lookup)
    (hnd : p.intentsNames.Nodup) (w : World) (x : Spot) (words : Text) (hm : w.SameMatches x words)
    (hw : p.AreStopWords env none words) (o o' : HashOrd) (out : List IntentResult)
    (h : (p.getIntents env o x.short).run w = .ok out) :
    ∃ out', (p.getIntents env o' (x.long words)).run w = .ok out' ∧
      out.Perm out' := by
  obtain ⟨out1, h1, hs1⟩ := (lookup_order_free env hrd p hnd w _).ranking o HashOrd.insertion out h
  have h2 : (p.getIntents env HashOrd.insertion (x.long words)).run w = .ok out1 := by
    change (p.getIntents env HashOrd.insertion x.short).run w = .ok out1 at h1
    unfold Lookup.getIntents at h1 ⊢
    rw [Prog.run_bind, Outcome.bind_ok] at h1 ⊢
    obtain ⟨top, htop, h1⟩ := h1
    refine ⟨_, Inserted.top_moved hsplit hm hw HashOrd.insertion_blind htop, ?_⟩
    rw [← h1, List.map_map]
    rfl
  obtain ⟨out2, h3, hs2⟩ := (lookup_order_free env hrd p hnd w _).ranking HashOrd.insertion o' out1 h2
  exact ⟨out2, h3, (same_perm hs1).trans (same_perm hs2)⟩

theorem demoEnv_splits : demoEnv.fns.SplitsAtBlanks := by
  intro a b
  show ((a ++ ' ' :: b).splitOn ' ').filter _ = (a.splitOn ' ').filter _ ++ (b.splitOn ' ').filter _
  rw [List.splitOn_append_cons_self, List.filter_append]

theorem ruleWorld_sameMatches : ruleWorld.SameMatches (.between "make".toList "two tea".toList) "the".toList := by
  constructor
  · intro kinds bs h
    have hb : bs = if kinds.contains 0 then [⟨"two".toList, ⟨5, 8⟩, .builtin 2, [], 0⟩] else [] := by
      simp only [ruleWorld, Outcome.ok.injEq] at h
      rw [← h]
      split
      · decide +kernel
      · rfl
    subst hb
    refine ⟨?_, if kinds.contains 0 then [⟨"two".toList, ⟨9, 12⟩, .builtin 2, [], 0⟩] else [], ?_, ?_⟩
    · split <;> simp [Spot.Beside]
    · simp only [ruleWorld, Outcome.ok.injEq]
      split
      · decide +kernel
      · rfl
    · split
      · exact .cons ⟨rfl, by decide +kernel⟩ .nil
      · exact .nil
  · intro names cs h
    have hb : cs = if names.contains "drink".toList then [⟨"tea".toList, "tea".toList, [], ⟨9, 12⟩, "drink".toList⟩] else [] := by
      simp only [ruleWorld, Outcome.ok.injEq] at h
      rw [← h]
      split
      · decide +kernel
      · rfl
    subst hb
    refine ⟨?_, if names.contains "drink".toList then [⟨"tea".toList, "tea".toList, [], ⟨13, 16⟩, "drink".toList⟩] else [],
      ?_, ?_⟩
    · split <;> simp [Spot.Beside]
    · simp only [ruleWorld, Outcome.ok.injEq]
      split
      · decide +kernel
      · rfl
    · split
      · exact .cons ⟨rfl, by decide +kernel⟩ .nil
      · exact .nil

theorem ruleWorld_sameMatches_front : ruleWorld.SameMatches (.front "make two tea".toList) "the".toList := by
  constructor
  · intro kinds bs h
    have hb : bs = if kinds.contains 0 then [⟨"two".toList, ⟨5, 8⟩, .builtin 2, [], 0⟩] else [] := by
      simp only [ruleWorld, Outcome.ok.injEq] at h
      rw [← h]
      split
      · decide +kernel
      · rfl
    subst hb
    refine ⟨?_, if kinds.contains 0 then [⟨"two".toList, ⟨9, 12⟩, .builtin 2, [], 0⟩] else [], ?_, ?_⟩
    · split <;> simp [Spot.Beside]
    · simp only [ruleWorld, Outcome.ok.injEq]
      split
      · decide +kernel
      · rfl
    · split
      · exact .cons ⟨rfl, by decide +kernel⟩ .nil
      · exact .nil
  · intro names cs h
    have hb : cs = if names.contains "drink".toList then [⟨"tea".toList, "tea".toList, [], ⟨9, 12⟩, "drink".toList⟩] else [] := by
      simp only [ruleWorld, Outcome.ok.injEq] at h
      rw [← h]
      split
      · decide +kernel
      · rfl
    subst hb
    refine ⟨?_, if names.contains "drink".toList then [⟨"tea".toList, "tea".toList, [], ⟨13, 16⟩, "drink".toList⟩] else [],
      ?_, ?_⟩
    · split <;> simp [Spot.Beside]
    · simp only [ruleWorld, Outcome.ok.injEq]
      split
      · decide +kernel
      · rfl
    · split
      · exact .cons ⟨rfl, by decide +kernel⟩ .nil
      · exact .nil

/-- The hypotheses are met: `make the two tea` is read as `make two tea`. -/
example : demoEnv.rd = Rounding.exact ∧ demoEnv.fns.SplitsAtBlanks ∧
    ruleWorld.SameMatches (.between "make".toList "two tea".toList) "the".toList ∧
    ruleWorld.SameMatches (.front "make two tea".toList) "the".toList ∧
    demoLookup.AreStopWords demoEnv (some ["brew".toList]) "the".toList ∧
    (demoLookup.parse demoEnv HashOrd.insertion "make two tea".toList (some ["brew".toList])).run ruleWorld =
      .ok ⟨⟨some "brew".toList, 1⟩, [⟨"two".toList, ⟨5, 8⟩, "snips/number".toList, "count".toList⟩,
        ⟨"tea".toList, ⟨9, 12⟩, "drink".toList, "kind".toList⟩]⟩ ∧
    (demoLookup.parse demoEnv HashOrd.insertion "make the two tea".toList (some ["brew".toList])).run ruleWorld =
      .ok ⟨⟨some "brew".toList, 1⟩, [⟨"two".toList, ⟨9, 12⟩, "snips/number".toList, "count".toList⟩,
        ⟨"tea".toList, ⟨13, 16⟩, "drink".toList, "kind".toList⟩]⟩ := by
  refine ⟨rfl, demoEnv_splits, ruleWorld_sameMatches, ruleWorld_sameMatches_front, ?_, by decide +kernel, by decide +kernel⟩
  intro s _ i _ _ t ht
  have : demoEnv.fns.tokenizeLight "the".toList = ["the".toList] := by decide +kernel
  rw [this, List.mem_singleton] at ht
  subst ht
  refine ⟨fun own h => absurd h (by simp [demoLookup, StopWords.new, Map.get_nil]), fun _ => ?_⟩
  show _ ∈ ["the".toList]
  decide +kernel

/-- The words must be stop words for the intents themselves: for an intent that keeps `the`, the word is not skipped. -/
theorem c112_whitelisted :
    ∃ (p : Lookup) (o : HashOrd) (out : InternalResult),
      p.stopWords.general = ["the".toList] ∧
      (p.parse demoEnv o "make two tea".toList (some ["brew".toList])).run ruleWorld = .ok out ∧
      out.intent.name = some "brew".toList ∧
      (p.parse demoEnv o "make the two tea".toList (some ["brew".toList])).run ruleWorld = .ok ⟨⟨none, 1⟩, []⟩ :=
  ⟨{ demoLookup with stopWords := StopWords.new true ["the".toList] [("brew".toList, ["the".toList])] }, HashOrd.insertion,
    ⟨⟨some "brew".toList, 1⟩, [⟨"two".toList, ⟨5, 8⟩, "snips/number".toList, "count".toList⟩,
      ⟨"tea".toList, ⟨9, 12⟩, "drink".toList, "kind".toList⟩]⟩, rfl, by decide +kernel, rfl, by decide +kernel⟩

end Snips
