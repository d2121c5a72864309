import Verif.Props.C120_ReadBlanks

/-! C121: further blanks in a query do not change the answer of the engine. -/

namespace Snips

/-- `parse` of an engine with a deterministic, a lookup and a probabilistic parser: with `n + 1` further blanks in front of the
query, behind it, or at a blank in it, the answer is the same, with the slots at their places in the longer query. -/
theorem c121_parse (e : Engine) (env : RuleEnv) (hrd : env.rd = Rounding.exact)
    (htok : ∀ t, Tokenized t (env.fns.tokenize t)) (hap : env.fns.TokensApart) (hsplit : env.fns.SplitsAtBlanks)
    (h0 : env.fns.tokenizeLight [] = []) (cr : CharRules) (hblank : cr.white ' ' = true)
    (p : Det) (hb : p.Built env.names) (htr : p.Trained cr) (q : Lookup)
    (penv : ProbEnv) (r : Prob) (hc : r.classifier.WordWise)
    (w : World) (x : Spot) (hr : ∀ e ∈ r.slotFillers, e.2.WordWise ∧ e.2.fns.Plain x.short) (n : Nat)
    (hd : r.classifier.RoomFor penv.feat w (x.long (List.replicate n ' ')))
    (hf : w.SameFindings x (List.replicate n ' ')) (hcu : w.SameCustom x (List.replicate n ' ')) (hx : x.short ≠ [])
    (hs : p.SmallQuery env w x.short) (hs' : p.SmallQuery env w (x.long (List.replicate n ' ')))
    (hty : p.NoTypedPlaceholders env w x.short) (hbe : r.SlotsBeside penv w x)
    (whitelist blacklist : Option (List Text)) (o : HashOrd) (ns : Nat) (out : ParseResult)
    (h : ((e.withParsers [p.impl env, q.impl env, r.impl penv]).parseWithAlternatives o x.short whitelist blacklist 0 ns).run w
      = .ok out) :
    ((e.withParsers [p.impl env, q.impl env, r.impl penv]).parseWithAlternatives o (x.long (List.replicate n ' ')) whitelist
      blacklist 0 ns).run w = .ok (out.moved x (List.replicate n ' ')) := by
  have hm := InsertedEngine.sameMatches hf
  refine c117_parse e w x _ hf whitelist blacklist [p.impl env, q.impl env, r.impl penv] [] ?_ o ns out h (.inr rfl)
  intro m hmem filter _
  simp only [List.mem_cons, List.not_mem_nil, or_false] at hmem
  rcases hmem with rfl | rfl | rfl
  · exact fun o out h => (c118_deterministic env htok hap cr hblank p hb htr w x n hm hs hs' hty o).1 filter out h
  · exact fun o out h => (c118_lookup env hrd hsplit h0 q w x n hm o o).1 filter out h
  · exact fun o out h => c120_parse penv o r x hc hr w n hd hm hcu hx filter out h (hbe.1 o filter out h)

/-- `get_slots` of the engine. -/
theorem c121_get_slots (e : Engine) (env : RuleEnv) (hrd : env.rd = Rounding.exact)
    (htok : ∀ t, Tokenized t (env.fns.tokenize t)) (hap : env.fns.TokensApart) (hsplit : env.fns.SplitsAtBlanks)
    (h0 : env.fns.tokenizeLight [] = []) (cr : CharRules) (hblank : cr.white ' ' = true)
    (p : Det) (hb : p.Built env.names) (htr : p.Trained cr) (q : Lookup) (penv : ProbEnv) (r : Prob)
    (w : World) (x : Spot) (hr : ∀ e ∈ r.slotFillers, e.2.WordWise ∧ e.2.fns.Plain x.short) (n : Nat)
    (hf : w.SameFindings x (List.replicate n ' '))
    (hs : p.SmallQuery env w x.short) (hs' : p.SmallQuery env w (x.long (List.replicate n ' ')))
    (hty : p.NoTypedPlaceholders env w x.short) (hbe : r.SlotsBeside penv w x) (intent : Text) (o : HashOrd) (ns : Nat)
    (out : List Slot)
    (h : ((e.withParsers [p.impl env, q.impl env, r.impl penv]).getSlotsWithAlternatives o x.short intent ns).run w = .ok out) :
    ((e.withParsers [p.impl env, q.impl env, r.impl penv]).getSlotsWithAlternatives o (x.long (List.replicate n ' ')) intent
      ns).run w = .ok (out.map (Slot.moved x (List.replicate n ' '))) := by
  have hm := InsertedEngine.sameMatches hf
  refine c117_get_slots e w x _ hf intent [p.impl env, q.impl env, r.impl penv] [] ?_ o ns out h (.inr rfl)
  intro m hmem
  simp only [List.mem_cons, List.not_mem_nil, or_false] at hmem
  rcases hmem with rfl | rfl | rfl
  · exact fun o out h => (c118_deterministic env htok hap cr hblank p hb htr w x n hm hs hs' hty o).2.1 intent out h
  · exact fun o out h => (c118_lookup env hrd hsplit h0 q w x n hm o o).2 intent out h
  · exact fun o out h => c120_get_slots penv o o r x intent (fun f hf => hr _ (Map.get_some_mem hf)) w n hm out h
      (hbe.2 o intent out h)

/-! Non-vacuity: an engine whose rule-based parsers know nothing, so that its probabilistic parser reads `make   two tea`. -/

def blankDet : Det := { spottedDet with regexes := [("brew".toList, []), ("idiom".toList, []), ("halt".toList, [])] }

theorem blankDet_patterns {intent : Text} {patterns : List Regex} (h : blankDet.regexes.get intent = some patterns) :
    patterns = [] := by
  have := Map.get_some_mem h
  simp only [blankDet, List.mem_cons, Prod.mk.injEq, List.not_mem_nil, or_false] at this
  rcases this with ⟨_, rfl⟩ | ⟨_, rfl⟩ | ⟨_, rfl⟩ <;> rfl

def blankLookup : Lookup := { demoLookup with map := [] }

theorem drinkWorld_sameFindings : drinkWorld.SameFindings (.between "make".toList "two tea".toList) (List.replicate 1 ' ') :=
  ⟨ruleWorld_sameFindings_blanks.builtin, ruleWorld_sameFindings_blanks.custom⟩

theorem blankDet_small (input : Text) (h : input = "make two tea".toList ∨ input = "make   two tea".toList) :
    blankDet.SmallQuery demoEnv drinkWorld input := by
  refine ⟨by rcases h with rfl | rfl <;> decide, ?_⟩
  intro s hs bs cs hbs hcs
  simp only [drinkWorld, ruleWorld, Outcome.ok.injEq] at hbs hcs
  subst hbs hcs
  simp only [Rng.NonEmpty]
  revert s
  rcases h with rfl | rfl <;> decide +kernel

theorem brewProb_beside : brewProb.SlotsBeside brewProbEnv drinkWorld (.between "make".toList "two tea".toList) := by
  have hslots : ∀ err intent out, (brewProb.slotsOf brewProbEnv err "make two tea".toList intent).run drinkWorld = .ok out →
      ∀ s ∈ out, (Spot.between "make".toList "two tea".toList).Beside s.charRange := by
    intro err intent out h s hs
    unfold Prob.slotsOf at h
    cases hf : brewProb.slotFillers.get intent with
    | none => rw [hf] at h; cases h
    | some f =>
      rw [hf] at h
      have := Map.get_some_mem hf
      have hf' : f = countFiller := (Prod.mk.inj (List.mem_singleton.1 this)).2
      subst hf'
      have hrun : (countFiller.getSlots brewProbEnv.codec "make two tea".toList).run drinkWorld
          = .ok [⟨"two".toList, ⟨5, 8⟩, "snips/number".toList, "count".toList⟩] := by decide +kernel
      rw [hrun, Outcome.ok.injEq] at h
      subst h
      rw [List.mem_singleton.1 hs]
      simp [Spot.Beside]
  refine ⟨fun o filter out h => ?_, fun o intent out h => hslots _ _ _ h⟩
  unfold Prob.parse at h
  rw [Blanks.bind_run] at h
  obtain ⟨res, -, h⟩ := h
  split at h
  · rw [Blanks.bind_run] at h
    obtain ⟨slots, h1, h2⟩ := h
    cases h2
    exact hslots _ _ _ h1
  · cases h
    simp

example :
    ((spottedEngine.withParsers [blankDet.impl demoEnv, blankLookup.impl demoEnv, brewProb.impl brewProbEnv]).parseWithAlternatives
      HashOrd.insertion "make   two tea".toList none none 0 0).run drinkWorld =
      .ok ⟨"make   two tea".toList, ⟨some "brew".toList, 4 / 5⟩, [⟨"two".toList, .builtin 2, [], ⟨7, 10⟩, "snips/number".toList,
          "count".toList⟩], []⟩ :=
  c121_parse spottedEngine demoEnv rfl ruleFns_tokenized demoEnv_tokens_apart demoEnv_splits (by decide +kernel) asciiRules
    (by decide) blankDet ⟨rfl, by decide⟩ (by
      intro i ps h r hr
      rw [blankDet_patterns h] at hr
      cases hr) blankLookup brewProbEnv brewProb brewProb_wordWise
    drinkWorld (.between "make".toList "two tea".toList)
    (by
      intro e he
      rw [List.mem_singleton.1 he]
      exact ⟨countFiller_wordWise, countFiller_plain⟩)
    1 (fun h => absurd h (by decide)) drinkWorld_sameFindings drinkWorld_sameCustom (by decide) (blankDet_small _ (.inl rfl)) (blankDet_small _ (.inr rfl))
    (by
      intro i raw shown table ps _ h r hr
      rw [blankDet_patterns h] at hr
      cases hr)
    brewProb_beside none none HashOrd.insertion 0
    ⟨"make two tea".toList, ⟨some "brew".toList, 4 / 5⟩, [⟨"two".toList, .builtin 2, [], ⟨5, 8⟩, "snips/number".toList,
      "count".toList⟩], []⟩ (by decide +kernel)

end Snips
