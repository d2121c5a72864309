import Verif.Props.C117_EngineStopWords

/-! C118: further blanks in a query do not change what the rule-based parsers read in it. -/

namespace Snips

namespace Blanks

theorem no_tokens {fns : TextFns} (htok : ∀ t, Tokenized t (fns.tokenize t)) (hap : fns.TokensApart) (n : Nat) :
    fns.tokenize (List.replicate n ' ') = [] := by
  have h0 : fns.tokenize [] = [] := by
    cases h : fns.tokenize [] with
    | nil => rfl
    | cons t ts =>
      have h1 := (htok []).nonempty t (by rw [h]; simp)
      have h2 := (htok []).inside t (by rw [h]; simp)
      unfold Rng.NonEmpty at h1
      simp only [List.length_nil] at h2
      omega
  induction n with
  | zero => exact h0
  | succ n ih =>
    have := hap [] (List.replicate n ' ')
    rw [h0, ih] at this
    exact List.map_eq_nil_iff.1 this

theorem no_words {fns : TextFns} (hsplit : fns.SplitsAtBlanks) (h0 : fns.tokenizeLight [] = []) (n : Nat) :
    fns.tokenizeLight (List.replicate n ' ') = [] := by
  induction n with
  | zero => exact h0
  | succ n ih =>
    have := hsplit [] (List.replicate n ' ')
    rwa [h0, ih] at this

end Blanks

/-- Lookup parser, `parse` and `get_slots`: with `n + 1` further blanks in front of the query, behind it, or at a blank in it,
the same is read. -/
theorem c118_lookup (env : RuleEnv) (hrd : env.rd = Rounding.exact) (hsplit : env.fns.SplitsAtBlanks)
    (h0 : env.fns.tokenizeLight [] = []) (p : Lookup) (w : World) (x : Spot) (n : Nat)
    (hm : w.SameMatches x (List.replicate n ' ')) (o o' : HashOrd) :
    (∀ filter out, (p.parse env o x.short filter).run w = .ok out →
      (p.parse env o' (x.long (List.replicate n ' ')) filter).run w = .ok (out.moved x (List.replicate n ' '))) ∧
    (∀ intent out, (p.getSlots env o x.short intent).run w = .ok out →
      (p.getSlots env o' (x.long (List.replicate n ' ')) intent).run w
        = .ok (out.map (InternalSlot.moved x (List.replicate n ' ')))) := by
  have hw : ∀ filter, p.AreStopWords env filter (List.replicate n ' ') := by
    intro filter s _ i _ _ t ht
    rw [Blanks.no_words hsplit h0] at ht
    cases ht
  exact ⟨fun filter out h => c112_parse env hrd hsplit p w x _ hm filter (hw filter) o o' out h,
    fun intent out h => c112_get_slots env hrd hsplit p w x _ hm intent (hw _) o o' out h⟩

/-- Deterministic parser, `parse`, `get_slots` and `get_intents`. -/
theorem c118_deterministic (env : RuleEnv) (htok : ∀ t, Tokenized t (env.fns.tokenize t)) (hap : env.fns.TokensApart)
    (cr : CharRules) (hblank : cr.white ' ' = true) (p : Det) (hb : p.Built env.names) (htr : p.Trained cr) (w : World)
    (x : Spot) (n : Nat) (hm : w.SameMatches x (List.replicate n ' ')) (hs : p.SmallQuery env w x.short)
    (hs' : p.SmallQuery env w (x.long (List.replicate n ' '))) (hty : p.NoTypedPlaceholders env w x.short) (o : HashOrd) :
    (∀ filter out, (p.parse env o x.short filter).run w = .ok out →
      (p.parse env o (x.long (List.replicate n ' ')) filter).run w = .ok (out.moved x (List.replicate n ' '))) ∧
    (∀ intent out, (p.getSlots env o x.short intent).run w = .ok out →
      (p.getSlots env o (x.long (List.replicate n ' ')) intent).run w
        = .ok (out.map (InternalSlot.moved x (List.replicate n ' ')))) ∧
    (∀ out, (p.getIntents env o x.short).run w = .ok out →
      (p.getIntents env o (x.long (List.replicate n ' '))).run w = .ok out) := by
  have hw : ∀ filter, p.AreStopWords env filter (List.replicate n ' ') := by
    intro filter i _ _ t ht
    rw [Blanks.no_tokens htok hap] at ht
    cases ht
  exact ⟨fun filter out h => c116_parse env htok hap cr hblank p hb htr w x _ hm hs hs' hty filter (hw _) o out h,
    fun intent out h => c116_get_slots env htok hap cr hblank p hb htr w x _ hm hs hs' hty intent (hw _) o out h,
    fun out h => c116_get_intents env htok hap cr hblank p hb htr w x _ hm hs hs' hty (hw _) o out h⟩

/-- The engine's `parse`, when its deterministic and lookup parsers, in front of any others, recognise the query. -/
theorem c118_engine (e : Engine) (env : RuleEnv) (hrd : env.rd = Rounding.exact)
    (htok : ∀ t, Tokenized t (env.fns.tokenize t)) (hap : env.fns.TokensApart) (hsplit : env.fns.SplitsAtBlanks)
    (h0 : env.fns.tokenizeLight [] = []) (cr : CharRules) (hblank : cr.white ' ' = true) (p : Det) (hb : p.Built env.names)
    (htr : p.Trained cr) (q : Lookup) (others : List ParserImpl) (w : World) (x : Spot) (n : Nat)
    (hf : w.SameFindings x (List.replicate n ' ')) (hs : p.SmallQuery env w x.short)
    (hs' : p.SmallQuery env w (x.long (List.replicate n ' '))) (hty : p.NoTypedPlaceholders env w x.short)
    (whitelist blacklist : Option (List Text)) (o : HashOrd) (ns : Nat) (out : ParseResult)
    (h : ((e.withParsers [p.impl env, q.impl env]).parseWithAlternatives o x.short whitelist blacklist 0 ns).run w = .ok out)
    (hsome : out.intent.name ≠ none) :
    ((e.withParsers (p.impl env :: q.impl env :: others)).parseWithAlternatives o (x.long (List.replicate n ' ')) whitelist
      blacklist 0 ns).run w = .ok (out.moved x (List.replicate n ' ')) := by
  refine c117_rules e env hrd htok hap hsplit cr hblank p hb htr q others w x _ hf hs hs' hty whitelist blacklist ?_ o ns out h
    hsome
  intro filter _
  constructor
  · intro i _ _ t ht
    rw [Blanks.no_tokens htok hap] at ht
    cases ht
  · intro s _ i _ _ t ht
    rw [Blanks.no_words hsplit h0] at ht
    cases ht

/-! Non-vacuity: `make two tea` and `make   two tea`. -/

theorem ruleWorld_sameFindings_blanks : ruleWorld.SameFindings (.between "make".toList "two tea".toList) (List.replicate 1 ' ') := by
  constructor
  · intro kinds n bs h
    have hb : bs = if kinds.contains 0 then [⟨"two".toList, ⟨5, 8⟩, .builtin 2, [], 0⟩] else [] := by
      simp only [ruleWorld, Outcome.ok.injEq] at h
      rw [← h]
      split
      · decide +kernel
      · rfl
    subst hb
    refine ⟨by split <;> simp [Spot.Beside], ?_⟩
    simp only [ruleWorld, Outcome.ok.injEq]
    split
    · decide +kernel
    · rfl
  · intro names n cs h
    have hb : cs = if names.contains "drink".toList then [⟨"tea".toList, "tea".toList, [], ⟨9, 12⟩, "drink".toList⟩] else [] := by
      simp only [ruleWorld, Outcome.ok.injEq] at h
      rw [← h]
      split
      · decide +kernel
      · rfl
    subst hb
    refine ⟨by split <;> simp [Spot.Beside], ?_⟩
    simp only [ruleWorld, Outcome.ok.injEq]
    split
    · decide +kernel
    · rfl

theorem spottedDet_small_blanks : spottedDet.SmallQuery demoEnv ruleWorld "make   two tea".toList := by
  refine ⟨by decide, ?_⟩
  intro s hs bs cs hbs hcs
  simp only [ruleWorld, Outcome.ok.injEq] at hbs hcs
  subst hbs hcs
  simp only [Rng.NonEmpty]
  revert s
  decide +kernel

example :
    ((spottedEngine.withParsers [spottedDet.impl demoEnv, demoLookup.impl demoEnv, haltParser]).parseWithAlternatives
      HashOrd.insertion "make   two tea".toList none none 0 0).run ruleWorld =
      .ok ⟨"make   two tea".toList, ⟨some "brew".toList, 1⟩, [⟨"two".toList, .builtin 2, [], ⟨7, 10⟩, "snips/number".toList,
          "count".toList⟩, ⟨"tea".toList, .custom "tea".toList, [], ⟨11, 14⟩, "drink".toList, "kind".toList⟩], []⟩ :=
  c118_engine spottedEngine demoEnv rfl ruleFns_tokenized demoEnv_tokens_apart demoEnv_splits (by decide +kernel) asciiRules
    (by decide) spottedDet ⟨rfl, by decide⟩ spottedDet_trained demoLookup [haltParser] ruleWorld
    (.between "make".toList "two tea".toList) 1 ruleWorld_sameFindings_blanks (spottedDet_small _ (.inl rfl))
    spottedDet_small_blanks spottedDet_no_typed none none HashOrd.insertion 0
    ⟨"make two tea".toList, ⟨some "brew".toList, 1⟩, [⟨"two".toList, .builtin 2, [], ⟨5, 8⟩, "snips/number".toList,
      "count".toList⟩, ⟨"tea".toList, .custom "tea".toList, [], ⟨9, 12⟩, "drink".toList, "kind".toList⟩], []⟩
    (by decide +kernel) (by simp)

end Snips
