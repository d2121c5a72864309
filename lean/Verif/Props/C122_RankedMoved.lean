import Verif.Spec.RankedMoved
import Verif.Props.C121_EngineBlanks

/-! C122: stop words or blanks put into a query change neither the ranking of the intents nor the alternatives. -/

namespace Snips

namespace RankedMoved

variable {x : Spot} {words : Text} {w : World} {e : Engine}

theorem collect_moved {o : HashOrd} (ho : o.Blind) : ∀ {ps : List ParserImpl}, (∀ p ∈ ps, p.RanksThrough w x words) →
    ∀ {i : Nat} {m out : Map (Option Text) IntentResult}, (Engine.collectIntents o x.short i ps m).run w = .ok out →
    (Engine.collectIntents o (x.long words) i ps m).run w = .ok out
  | [], _, _, _, _, h => h
  | p :: ps, hps, i, m, out, h => by
    unfold Engine.collectIntents at h ⊢
    rw [Prog.run_bind_ok] at h ⊢
    obtain ⟨rs, hrs, h⟩ := h
    exact ⟨rs, hps p (by simp) _ (ho.sub i) rs hrs, collect_moved ho (fun q hq => hps q (by simp [hq])) h⟩

theorem intents_moved {o : HashOrd} (ho : o.Blind) (hps : ∀ p ∈ e.parsers, p.RanksThrough w x words)
    {out : List IntentResult} (h : (e.getIntents o x.short).run w = .ok out) :
    (e.getIntents o (x.long words)).run w = .ok out := by
  unfold Engine.getIntents at h ⊢
  rw [Prog.run_bind_ok] at h ⊢
  obtain ⟨m, hm, h⟩ := h
  exact ⟨m, collect_moved (ho.sub 0) hps hm, h⟩

theorem alternatives_moved {ps : List ParserImpl}
    (hslots : ∀ (o : HashOrd) (intent : Text) (ns : Nat) (out : List Slot),
      ((e.withParsers ps).getSlotsWithAlternatives o x.short intent ns).run w = .ok out →
      ((e.withParsers ps).getSlotsWithAlternatives o (x.long words) intent ns).run w = .ok (out.map (Slot.moved x words)))
    {o : HashOrd} {ns : Nat} : ∀ {rs : List IntentResult} {i : Nat} {out : List Alternative},
    ((e.withParsers ps).alternativesSlots o x.short ns i rs).run w = .ok out →
    ((e.withParsers ps).alternativesSlots o (x.long words) ns i rs).run w
      = .ok (out.map fun a => { intent := a.intent, slots := a.slots.map (Slot.moved x words) })
  | [], _, _, h => by cases h; rfl
  | r :: rs, i, out, h => by
    unfold Engine.alternativesSlots at h ⊢
    rw [Prog.run_bind_ok] at h ⊢
    obtain ⟨slots, h1, h⟩ := h
    rw [Prog.run_bind_ok] at h
    obtain ⟨rest, h2, h⟩ := h
    rw [Prog.run_ret, Outcome.ok.injEq] at h
    subst h
    refine ⟨slots.map (Slot.moved x words), ?_, ?_⟩
    · unfold Engine.alternativeSlots at h1 ⊢
      split at h1
      · exact hslots _ _ _ _ h1
      · cases h1; rfl
    · rw [Prog.run_bind_ok]
      exact ⟨_, alternatives_moved hslots h2, rfl⟩

theorem cascade_alternatives {input : Text} {eff : Option (List Text)} {o : HashOrd} {ns : Nat} :
    ∀ {ps : List ParserImpl} {i : Nat} {s : ℚ} {out : ParseResult},
      (e.cascade o input eff ns i ps s).run w = .ok out → out.alternatives = []
  | [], _, _, _, h => by cases h; rfl
  | p :: ps, i, s, out, h => by
    unfold Engine.cascade at h
    rw [Prog.run_bind_ok] at h
    obtain ⟨r, -, h⟩ := h
    split at h
    · rw [Prog.run_bind_ok] at h
      obtain ⟨slots, -, h⟩ := h
      cases h
      rfl
    · exact cascade_alternatives h

end RankedMoved

/-- `get_intents` of an engine whose parsers rank the intents for the longer query as for the shorter one. -/
theorem c122_get_intents (e : Engine) (w : World) (x : Spot) (words : Text)
    (hrank : ∀ p ∈ e.parsers, p.RanksThrough w x words) (o : HashOrd) (ho : o.Blind) (out : List IntentResult)
    (h : (e.getIntents o x.short).run w = .ok out) :
    (e.getIntents o (x.long words)).run w = .ok out :=
  RankedMoved.intents_moved ho hrank h

/-- `parse_with_alternatives`, with any numbers of alternatives, of an engine whose parsers read through the words. -/
theorem c122_parse (e : Engine) (w : World) (x : Spot) (words : Text) (hf : w.SameFindings x words)
    (whitelist blacklist : Option (List Text)) (ps : List ParserImpl)
    (hread : ∀ p ∈ ps, ∀ filter, e.IsFilterFor whitelist blacklist filter → p.ReadsThrough w x words filter)
    (hfind : ∀ p ∈ ps, ∀ intent, p.FindsThrough w x words intent) (hrank : ∀ p ∈ ps, p.RanksThrough w x words)
    (o : HashOrd) (ho : o.Blind) (ni ns : Nat) (out : ParseResult)
    (h : ((e.withParsers ps).parseWithAlternatives o x.short whitelist blacklist ni ns).run w = .ok out) :
    ((e.withParsers ps).parseWithAlternatives o (x.long words) whitelist blacklist ni ns).run w
      = .ok (out.movedAll x words) := by
  unfold Engine.parseWithAlternatives at h ⊢
  rw [Prog.run_bind_ok] at h ⊢
  obtain ⟨eff, heff, h⟩ := h
  refine ⟨eff, heff, ?_⟩
  rw [Prog.run_ofOutcome] at heff
  rw [Prog.run_bind_ok] at h ⊢
  obtain ⟨main, hmain, h⟩ := h
  rw [ParserList.cascade_withParsers] at hmain
  have hmoved := InsertedEngine.cascade_moved hf (fun p hp => hread p hp eff (getIntentsWhitelist_filter heff)) [] hmain
    (.inr rfl)
  rw [List.append_nil] at hmoved
  refine ⟨_, by rw [ParserList.cascade_withParsers]; exact hmoved, ?_⟩
  split at h
  · rename_i h0
    rw [Prog.run_ret, Outcome.ok.injEq] at h
    subst h
    rw [if_pos h0, Prog.run_ret, ParseResult.moved, ParseResult.movedAll, RankedMoved.cascade_alternatives hmain]
    rfl
  · rename_i h0
    rw [if_neg h0]
    rw [Prog.run_bind_ok] at h ⊢
    obtain ⟨ranked, hranked, h⟩ := h
    refine ⟨ranked, RankedMoved.intents_moved (e := e.withParsers ps) (ho.sub 2) hrank hranked, ?_⟩
    rw [Prog.run_bind_ok] at h ⊢
    obtain ⟨alts, halts, h⟩ := h
    rw [Prog.run_ret, Outcome.ok.injEq] at h
    subst h
    refine ⟨_, RankedMoved.alternatives_moved (fun o intent ns out h => ?_) halts, rfl⟩
    have := c117_get_slots e w x words hf intent ps [] (fun p hp => hfind p hp intent) o ns out h (.inr rfl)
    rwa [List.append_nil] at this

/-- Rule-based parsers rank through stop words. -/
theorem c122_lookup (env : RuleEnv) (hsplit : env.fns.SplitsAtBlanks) (p : Lookup) (w : World) (x : Spot) (words : Text)
    (hm : w.SameMatches x words) (hw : p.AreStopWords env none words) : (p.impl env).RanksThrough w x words := by
  intro o ho out h
  change (p.getIntents env o x.short).run w = .ok out at h
  change (p.getIntents env o (x.long words)).run w = .ok out
  unfold Lookup.getIntents at h ⊢
  rw [Prog.run_bind, Outcome.bind_ok] at h ⊢
  obtain ⟨top, htop, h⟩ := h
  refine ⟨_, Inserted.top_moved hsplit hm hw ho htop, ?_⟩
  rw [← h, List.map_map]
  rfl

/-- An engine with a deterministic and a lookup parser, and stop words put into the query: `parse` with any numbers of
alternatives, and `get_intents`. -/
theorem c122_rules (e : Engine) (env : RuleEnv) (hrd : env.rd = Rounding.exact) (htok : ∀ t, Tokenized t (env.fns.tokenize t))
    (hap : env.fns.TokensApart) (hsplit : env.fns.SplitsAtBlanks) (cr : CharRules) (hblank : cr.white ' ' = true)
    (p : Det) (hb : p.Built env.names) (htr : p.Trained cr) (q : Lookup) (w : World) (x : Spot)
    (words : Text) (hf : w.SameFindings x words) (hs : p.SmallQuery env w x.short) (hs' : p.SmallQuery env w (x.long words))
    (hty : p.NoTypedPlaceholders env w x.short) (hw : p.AreStopWords env none words) (hw' : q.AreStopWords env none words)
    (o : HashOrd) (ho : o.Blind) :
    (∀ whitelist blacklist ni ns out,
      ((e.withParsers [p.impl env, q.impl env]).parseWithAlternatives o x.short whitelist blacklist ni ns).run w = .ok out →
      ((e.withParsers [p.impl env, q.impl env]).parseWithAlternatives o (x.long words) whitelist blacklist ni ns).run w
        = .ok (out.movedAll x words)) ∧
    (∀ out, ((e.withParsers [p.impl env, q.impl env]).getIntents o x.short).run w = .ok out →
      ((e.withParsers [p.impl env, q.impl env]).getIntents o (x.long words)).run w = .ok out) := by
  have hm := InsertedEngine.sameMatches hf
  have hw1 : ∀ filter, p.AreStopWords env filter words := fun f i hi _ => hw i hi (by intro l hl; cases hl)
  have hw2 : ∀ filter, q.AreStopWords env filter words := fun f s hs i hi _ => hw' s hs i hi (by intro l hl; cases hl)
  have hdet := c117_deterministic env htok hap cr hblank p hb htr w x words hf hs hs' hty
  have hlook := c117_lookup env hrd hsplit q w x words hf
  have hrank : ∀ r ∈ [p.impl env, q.impl env], r.RanksThrough w x words := by
    intro r hr
    rw [List.mem_cons, List.mem_singleton] at hr
    rcases hr with rfl | rfl
    · exact fun o _ out h => c116_get_intents env htok hap cr hblank p hb htr w x words hm hs hs' hty hw o out h
    · exact c122_lookup env hsplit q w x words hm hw'
  refine ⟨fun whitelist blacklist ni ns out h => ?_, fun out h => c122_get_intents _ w x words hrank o ho out h⟩
  refine c122_parse e w x words hf whitelist blacklist [p.impl env, q.impl env] ?_ ?_ hrank o ho ni ns out h
  · intro r hr filter _
    rw [List.mem_cons, List.mem_singleton] at hr
    rcases hr with rfl | rfl
    · exact hdet.1 filter (hw1 _)
    · exact hlook.1 filter (hw2 _)
  · intro r hr intent
    rw [List.mem_cons, List.mem_singleton] at hr
    rcases hr with rfl | rfl
    · exact hdet.2 intent (hw1 _)
    · exact hlook.2 intent (hw2 _)

/-- An engine with a deterministic, a lookup and a probabilistic parser, and further blanks in the query: `parse` with any
numbers of alternatives, and `get_intents`. -/
theorem c122_blanks (e : Engine) (env : RuleEnv) (hrd : env.rd = Rounding.exact)
    (htok : ∀ t, Tokenized t (env.fns.tokenize t)) (hap : env.fns.TokensApart) (hsplit : env.fns.SplitsAtBlanks)
    (h0 : env.fns.tokenizeLight [] = []) (cr : CharRules) (hblank : cr.white ' ' = true)
    (p : Det) (hb : p.Built env.names) (htr : p.Trained cr) (q : Lookup)
    (penv : ProbEnv) (r : Prob) (hc : r.classifier.WordWise)
    (w : World) (x : Spot) (hr : ∀ e ∈ r.slotFillers, e.2.WordWise ∧ e.2.fns.Plain x.short) (n : Nat)
    (hd : r.classifier.RoomFor penv.feat w (x.long (List.replicate n ' ')))
    (hf : w.SameFindings x (List.replicate n ' ')) (hcu : w.SameCustom x (List.replicate n ' ')) (hx : x.short ≠ [])
    (hs : p.SmallQuery env w x.short) (hs' : p.SmallQuery env w (x.long (List.replicate n ' ')))
    (hty : p.NoTypedPlaceholders env w x.short) (hbe : r.SlotsBeside penv w x) (o : HashOrd) (ho : o.Blind) :
    (∀ whitelist blacklist ni ns out,
      ((e.withParsers [p.impl env, q.impl env, r.impl penv]).parseWithAlternatives o x.short whitelist blacklist ni ns).run w
        = .ok out →
      ((e.withParsers [p.impl env, q.impl env, r.impl penv]).parseWithAlternatives o (x.long (List.replicate n ' ')) whitelist
        blacklist ni ns).run w = .ok (out.movedAll x (List.replicate n ' '))) ∧
    (∀ out, ((e.withParsers [p.impl env, q.impl env, r.impl penv]).getIntents o x.short).run w = .ok out →
      ((e.withParsers [p.impl env, q.impl env, r.impl penv]).getIntents o (x.long (List.replicate n ' '))).run w = .ok out) := by
  have hm := InsertedEngine.sameMatches hf
  have hdet := c118_deterministic env htok hap cr hblank p hb htr w x n hm hs hs' hty
  have hlook := c118_lookup env hrd hsplit h0 q w x n hm
  have hrank : ∀ m ∈ [p.impl env, q.impl env, r.impl penv], m.RanksThrough w x (List.replicate n ' ') := by
    intro m hmem
    simp only [List.mem_cons, List.not_mem_nil, or_false] at hmem
    rcases hmem with rfl | rfl | rfl
    · exact fun o _ out h => (hdet o).2.2 out h
    · refine c122_lookup env hsplit q w x _ hm ?_
      intro s _ i _ _ t ht
      rw [Blanks.no_words hsplit h0] at ht
      cases ht
    · exact fun o _ out h => c120_get_intents penv o r hc w x n hd hm hcu hx out h
  refine ⟨fun whitelist blacklist ni ns out h => ?_, fun out h => c122_get_intents _ w x _ hrank o ho out h⟩
  refine c122_parse e w x _ hf whitelist blacklist [p.impl env, q.impl env, r.impl penv] ?_ ?_ hrank o ho ni ns out h
  · intro m hmem filter _
    simp only [List.mem_cons, List.not_mem_nil, or_false] at hmem
    rcases hmem with rfl | rfl | rfl
    · exact fun o out h => (hdet o).1 filter out h
    · exact fun o out h => (hlook o o).1 filter out h
    · exact fun o out h => c120_parse penv o r x hc hr w n hd hm hcu hx filter out h (hbe.1 o filter out h)
  · intro m hmem intent
    simp only [List.mem_cons, List.not_mem_nil, or_false] at hmem
    rcases hmem with rfl | rfl | rfl
    · exact fun o out h => (hdet o).2.1 intent out h
    · exact fun o out h => (hlook o o).2 intent out h
    · exact fun o out h => c120_get_slots penv o o r x intent (fun f hf => hr _ (Map.get_some_mem hf)) w n hm out h
        (hbe.2 o intent out h)

/-! Non-vacuity. -/

theorem the_stop_word :
    spottedDet.AreStopWords demoEnv none "the".toList ∧ demoLookup.AreStopWords demoEnv none "the".toList := by
  constructor
  · intro i _ _ t ht
    have : demoEnv.fns.tokenize "the".toList = [⟨"the".toList, ⟨0, 3⟩, ⟨0, 3⟩⟩] := by decide +kernel
    rw [this, List.mem_singleton] at ht
    subst ht
    refine ⟨fun own h => absurd h (by simp [spottedDet, demoDet, StopWords.new, Map.get_nil]), fun _ => ?_⟩
    show _ ∈ ["the".toList]
    decide +kernel
  · intro s _ i _ _ t ht
    have : demoEnv.fns.tokenizeLight "the".toList = ["the".toList] := by decide +kernel
    rw [this, List.mem_singleton] at ht
    subst ht
    refine ⟨fun own h => absurd h (by simp [demoLookup, StopWords.new, Map.get_nil]), fun _ => ?_⟩
    show _ ∈ ["the".toList]
    decide +kernel

/-- `make the two tea`, with two alternatives. -/
example :
    ((spottedEngine.withParsers [spottedDet.impl demoEnv, demoLookup.impl demoEnv]).parseWithAlternatives
      HashOrd.insertion "make the two tea".toList none none 2 0).run ruleWorld =
      .ok ⟨"make the two tea".toList, ⟨some "brew".toList, 1⟩, [⟨"two".toList, .builtin 2, [], ⟨9, 12⟩, "snips/number".toList,
          "count".toList⟩, ⟨"tea".toList, .custom "tea".toList, [], ⟨13, 16⟩, "drink".toList, "kind".toList⟩],
          [⟨⟨some "idiom".toList, 3 / 4⟩, []⟩, ⟨⟨some "halt".toList, 0⟩, []⟩]⟩ :=
  (c122_rules spottedEngine demoEnv rfl ruleFns_tokenized demoEnv_tokens_apart demoEnv_splits asciiRules (by decide)
    spottedDet ⟨rfl, by decide⟩ spottedDet_trained demoLookup ruleWorld (.between "make".toList "two tea".toList)
    "the".toList ruleWorld_sameFindings (spottedDet_small _ (.inl rfl)) (spottedDet_small _ (.inr rfl)) spottedDet_no_typed
    the_stop_word.1 the_stop_word.2 HashOrd.insertion HashOrd.insertion_blind).1 none none 2 0
    ⟨"make two tea".toList, ⟨some "brew".toList, 1⟩, [⟨"two".toList, .builtin 2, [], ⟨5, 8⟩,
      "snips/number".toList, "count".toList⟩, ⟨"tea".toList, .custom "tea".toList, [], ⟨9, 12⟩, "drink".toList, "kind".toList⟩],
      [⟨⟨some "idiom".toList, 3 / 4⟩, []⟩, ⟨⟨some "halt".toList, 0⟩, []⟩]⟩
    (by decide +kernel)

/-- A parser that only ranks, and ranks `halt` above all. -/
def haltRanker : ParserImpl :=
  ⟨fun _ _ _ => .ret ⟨⟨none, 1⟩, []⟩, fun _ _ => .ret [⟨some "halt".toList, 2⟩], fun _ _ _ => .ret []⟩

/-- With it, the alternative is `brew`, whose slots are found at their places in `make the two tea`. -/
example :
    ((spottedEngine.withParsers [haltRanker, spottedDet.impl demoEnv]).parseWithAlternatives
      HashOrd.insertion "make the two tea".toList none none 1 0).run ruleWorld =
      .ok ⟨"make the two tea".toList, ⟨some "brew".toList, 1⟩, [⟨"two".toList, .builtin 2, [], ⟨9, 12⟩, "snips/number".toList,
          "count".toList⟩, ⟨"tea".toList, .custom "tea".toList, [], ⟨13, 16⟩, "drink".toList, "kind".toList⟩],
          [⟨⟨some "brew".toList, 1⟩, [⟨"two".toList, .builtin 2, [], ⟨9, 12⟩, "snips/number".toList,
          "count".toList⟩, ⟨"tea".toList, .custom "tea".toList, [], ⟨13, 16⟩, "drink".toList, "kind".toList⟩]⟩]⟩ := by
  have hdet := c117_deterministic demoEnv ruleFns_tokenized demoEnv_tokens_apart asciiRules (by decide) spottedDet
    ⟨rfl, by decide⟩ spottedDet_trained ruleWorld (.between "make".toList "two tea".toList) "the".toList ruleWorld_sameFindings
    (spottedDet_small _ (.inl rfl)) (spottedDet_small _ (.inr rfl)) spottedDet_no_typed
  have hw : ∀ filter, spottedDet.AreStopWords demoEnv filter "the".toList :=
    fun _ i hi _ => the_stop_word.1 i hi (by intro l hl; cases hl)
  refine c122_parse spottedEngine ruleWorld (.between "make".toList "two tea".toList) "the".toList ruleWorld_sameFindings
    none none [haltRanker, spottedDet.impl demoEnv] ?_ ?_ ?_ HashOrd.insertion HashOrd.insertion_blind 1 0
    ⟨"make two tea".toList, ⟨some "brew".toList, 1⟩, [⟨"two".toList, .builtin 2, [], ⟨5, 8⟩, "snips/number".toList,
      "count".toList⟩, ⟨"tea".toList, .custom "tea".toList, [], ⟨9, 12⟩, "drink".toList, "kind".toList⟩],
      [⟨⟨some "brew".toList, 1⟩, [⟨"two".toList, .builtin 2, [], ⟨5, 8⟩, "snips/number".toList,
      "count".toList⟩, ⟨"tea".toList, .custom "tea".toList, [], ⟨9, 12⟩, "drink".toList, "kind".toList⟩]⟩]⟩ (by decide +kernel)
  · intro p hp filter _
    rw [List.mem_cons, List.mem_singleton] at hp
    rcases hp with rfl | rfl
    · intro o out h; cases h; rfl
    · exact hdet.1 _ (hw _)
  · intro p hp intent
    rw [List.mem_cons, List.mem_singleton] at hp
    rcases hp with rfl | rfl
    · intro o out h; cases h; rfl
    · exact hdet.2 _ (hw _)
  · intro p hp
    rw [List.mem_cons, List.mem_singleton] at hp
    rcases hp with rfl | rfl
    · intro o _ out h; exact h
    · exact fun o _ out h => c116_get_intents demoEnv ruleFns_tokenized demoEnv_tokens_apart asciiRules (by decide) spottedDet
        ⟨rfl, by decide⟩ spottedDet_trained ruleWorld (.between "make".toList "two tea".toList) "the".toList
        (InsertedEngine.sameMatches ruleWorld_sameFindings) (spottedDet_small _ (.inl rfl)) (spottedDet_small _ (.inr rfl))
        spottedDet_no_typed (hw _) o out h

/-- `make   two tea`, read by the probabilistic parser, with one alternative. -/
example :
    ((spottedEngine.withParsers [blankDet.impl demoEnv, blankLookup.impl demoEnv, brewProb.impl brewProbEnv]).parseWithAlternatives
      HashOrd.insertion "make   two tea".toList none none 1 0).run drinkWorld =
      .ok ⟨"make   two tea".toList, ⟨some "brew".toList, 4 / 5⟩, [⟨"two".toList, .builtin 2, [], ⟨7, 10⟩, "snips/number".toList,
          "count".toList⟩], [⟨⟨none, 1 / 5⟩, []⟩]⟩ :=
  (c122_blanks spottedEngine demoEnv rfl ruleFns_tokenized demoEnv_tokens_apart demoEnv_splits (by decide +kernel) asciiRules
    (by decide) blankDet ⟨rfl, by decide⟩ (by
      intro i ps h r hr
      rw [blankDet_patterns h] at hr
      cases hr) blankLookup brewProbEnv brewProb brewProb_wordWise
    drinkWorld (.between "make".toList "two tea".toList)
    (by
      intro e he
      rw [List.mem_singleton.1 he]
      exact ⟨countFiller_wordWise, countFiller_plain⟩)
    1 (fun h => absurd h (by decide)) drinkWorld_sameFindings drinkWorld_sameCustom (by decide) (blankDet_small _ (.inl rfl)) (blankDet_small _ (.inr rfl))
    (by
      intro i raw shown table ps _ h r hr
      rw [blankDet_patterns h] at hr
      cases hr)
    brewProb_beside HashOrd.insertion HashOrd.insertion_blind).1 none none 1 0
    ⟨"make two tea".toList, ⟨some "brew".toList, 4 / 5⟩, [⟨"two".toList, .builtin 2, [], ⟨5, 8⟩, "snips/number".toList,
      "count".toList⟩], [⟨⟨none, 1 / 5⟩, []⟩]⟩ (by decide +kernel)

end Snips
