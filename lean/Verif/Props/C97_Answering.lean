import Verif.Proofs.Answering
import Verif.Spec.Messages
import Verif.Props.C58_NoPanic

/-! # C97: queries on complete models are answered, others say what is unknown -/

namespace Snips

/-! ### Answered -/

/-- On an engine made of well-formed parsers with complete tables, and as long as the libraries answer: `parse` succeeds
whenever the lists name trained intents; `get_intents` succeeds; `get_slots` succeeds for an intent that all the parsers know;
`parse_with_alternatives` succeeds if in addition every intent that a parser ranks is known to all of them (or no
alternatives are asked for); `extract_slot` succeeds for a slot of the dataset. -/
theorem c97_answered (dataset : DatasetMetadata) (names : KindNames) (ps : List ParserModel) (hp : ∀ p ∈ ps, p.Sound)
    (hc : ∀ p ∈ ps, p.Complete dataset names) (w : World) (hnp : w.NoPanic) (hne : w.NoError) (hsc : w.Scoped) (o : HashOrd)
    (input : Text) (hfit : ∀ p ∈ ps, p.Fits w input) :
    let e := Engine.ofParsers dataset names ps
    (∀ whitelist blacklist, e.FilterKnown whitelist blacklist → ∃ r, (e.parse o input whitelist blacklist).run w = .ok r) ∧
    (∃ rs, (e.getIntents o input).run w = .ok rs) ∧
    (∀ intent alternatives, (∀ p ∈ ps, p.Knows intent) →
      ∃ slots, (e.getSlotsWithAlternatives o input intent alternatives).run w = .ok slots) ∧
    (∀ whitelist blacklist intents slots, e.FilterKnown whitelist blacklist →
      (intents = 0 ∨ ∀ p ∈ ps, ∀ intent, p.Ranks intent → ∀ q ∈ ps, q.Knows intent) →
        ∃ r, (e.parseWithAlternatives o input whitelist blacklist intents slots).run w = .ok r) ∧
    ∀ intent slot alternatives mapping entity, dataset.slotNameMappings.get intent = some mapping →
      Map.get mapping slot = some entity → Resolvable dataset names entity →
        ∃ r, (e.extractSlotWithAlternatives input intent slot alternatives).run w = .ok r := by
  intro e
  obtain ⟨s1, s2, s3, -, s5, -, s7⟩ := c58_engine dataset names ps hp w hnp o input hfit
  have ha := ofParsers_answers hne hsc input hc
  have fin : ∀ {α : Type} {Q : α → Prop} {p : Prog α}, p.Only w Q → p.run w ≠ .panic → ∃ a, p.run w = .ok a :=
    fun h1 h2 => by
      obtain ⟨a, h, -⟩ := Outcome.Only.exists h1 h2
      exact ⟨a, h⟩
  exact ⟨fun wl bl hk => fin (parseWith_only (e := e) hne o wl bl hk 0 0 ha (.inl rfl)) (s1 wl bl),
    fin (getIntents_only (e := e) o ha) s3,
    fun intent n hk => fin (getSlots_only (e := e) hne o hk n ha) (s5 intent n),
    fun wl bl ni ns hk hr => fin (parseWith_only (e := e) hne o wl bl hk ni ns ha
      (hr.imp id fun h i ⟨p, hpm, hpr⟩ q hq => h p hpm i hpr q hq)) (s2 wl bl ni ns),
    fun intent slot n mapping entity h1 h2 h3 => fin (extract_only (e := e) hne input n h1 h2 h3) (s7 intent slot n)⟩

/-! ### Refused -/

/-- A parser refuses an intent that it does not know, saying so, and no other. -/
theorem c97_unknown (msg : MessageEnv) (p : ParserModel) (o : HashOrd) (input intent : Text) (w : World) (h : ¬ p.Knows intent) :
    ∃ root, (p.impl.getSlots o input intent).run w = .err root ∧ msg.root root = p.unknown intent := by
  cases p with
  | lookup env p =>
    refine ⟨.unknownIntent intent, ?_, rfl⟩
    show (p.getSlots env o input intent).run w = _
    unfold Lookup.getSlots
    rw [if_neg (by simpa using (show intent ∉ _ from h))]
    rfl
  | deterministic env p =>
    refine ⟨.unknownIntent intent, ?_, rfl⟩
    show (p.getSlots env o input intent).run w = _
    unfold Det.getSlots
    rw [if_neg (by simpa using (show intent ∉ _ from h))]
    rfl
  | probabilistic env p =>
    refine ⟨.extractUnknownIntent intent, ?_, ?_⟩
    · show (p.getSlots env o input intent).run w = _
      unfold Prob.getSlots Prob.slotsOf
      cases hg : p.slotFillers.get intent with
      | some filler => exact absurd ⟨filler, hg⟩ h
      | none => rfl
    · show "Unknown intent: ".toList ++ intent ++ "".toList = _
      rw [show "".toList = [] from rfl, List.append_nil]
      rfl

theorem slotsCascade_refused (e : Engine) (o : HashOrd) (input intent : Text) (n : Nat) (w : World) (p : ParserImpl)
    (rest : List ParserImpl) (root : Err) : ∀ (pre : List ParserImpl) (i : Nat),
    (∀ (k : Nat) (q : ParserImpl), pre[k]? = some q → (q.getSlots (o.sub (i + k)) input intent).run w = .ok []) →
    (p.getSlots (o.sub (i + pre.length)) input intent).run w = .err root →
    (e.slotsCascade o input intent n i (pre ++ p :: rest)).run w = .err root
  | [], i, _, hp => by
    rw [List.nil_append]
    unfold Engine.slotsCascade
    show (Prog.bind _ _).run w = _
    rw [Prog.run_bind]
    rw [show i + ([] : List ParserImpl).length = i from rfl] at hp
    rw [hp]
    rfl
  | q :: pre, i, h, hp => by
    have hq := h 0 q rfl
    rw [Nat.add_zero] at hq
    rw [List.cons_append]
    unfold Engine.slotsCascade
    show (Prog.bind _ _).run w = _
    rw [Prog.run_bind, hq]
    show Prog.run w (if ([] : List InternalSlot).isEmpty = true then _ else _) = _
    rw [if_pos (by simp)]
    refine slotsCascade_refused e o input intent n w p rest root pre (i + 1) (fun k q' hk => ?_) ?_
    · have := h (k + 1) q' hk
      rwa [show i + (k + 1) = i + 1 + k by omega] at this
    · rwa [show i + 1 + pre.length = i + (q :: pre).length by simp; omega]

/-- `parse` with a list that names an intent the engine was not trained on fails with a message that names such an intent;
`get_slots` fails if a parser does not know the intent and those before it found no slots, and the message names the intent;
`extract_slot` fails for an unknown intent, or an unknown slot of a known intent, and the message names it.  This needs
nothing from the model, nor from the libraries. -/
theorem c97_refused (msg : MessageEnv) (dataset : DatasetMetadata) (names : KindNames) (ps : List ParserModel) (w : World)
    (o : HashOrd) (input : Text) :
    let e := Engine.ofParsers dataset names ps
    (∀ whitelist blacklist intents slots, ¬ e.FilterKnown whitelist blacklist →
      ∃ i, (i ∈ whitelist.getD [] ∨ i ∈ blacklist.getD []) ∧ i ∉ e.intents ∧
        ∃ contexts root, e.parseReport o w input whitelist blacklist intents slots = .err contexts root ∧
          msg.messages contexts root = ["Cannot use unknown intent '".toList ++ i ++ "' in intents filter".toList]) ∧
    (∀ before p after intent alternatives, ps = before ++ p :: after → ¬ p.Knows intent →
      (∀ (k : Nat) q, before[k]? = some q → (q.impl.getSlots (o.sub k) input intent).run w = .ok []) →
        ∃ root, (e.getSlotsWithAlternatives o input intent alternatives).run w = .err root ∧
          msg.messages [] root = [p.unknown intent]) ∧
    (∀ intent slot alternatives, dataset.slotNameMappings.get intent = none →
      ∃ root, (e.extractSlotWithAlternatives input intent slot alternatives).run w = .err root ∧
        msg.messages [] root = ["Unknown intent: ".toList ++ intent]) ∧
    ∀ intent slot alternatives mapping, dataset.slotNameMappings.get intent = some mapping → Map.get mapping slot = none →
      ∃ root, (e.extractSlotWithAlternatives input intent slot alternatives).run w = .err root ∧
        msg.messages [] root = ["Unknown slot: ".toList ++ slot] := by
  intro e
  refine ⟨fun wl bl ni ns h => ?_, fun before p after intent n hps hk hb => ?_, fun intent slot n h => ?_,
    fun intent slot n mapping h1 h2 => ?_⟩
  · obtain ⟨i, h1, h2, h3⟩ := getIntentsWhitelist_unknown e (o.sub 0) wl bl h
    refine ⟨i, h1, h2, [], .unknownFilterIntent i, ?_, rfl⟩
    unfold Engine.parseReport
    rw [h3]
    rfl
  · obtain ⟨root, h1, h2⟩ := c97_unknown msg p (o.sub before.length) input intent w hk
    refine ⟨root, ?_, by rw [← h2]; rfl⟩
    have hparsers : e.parsers = before.map ParserModel.impl ++ p.impl :: after.map ParserModel.impl := by
      show ps.map ParserModel.impl = _
      rw [hps, List.map_append, List.map_cons]
    unfold Engine.getSlotsWithAlternatives
    rw [hparsers]
    refine slotsCascade_refused e o input intent n w _ _ root _ 0 (fun k q hq => ?_) ?_
    · rw [List.getElem?_map, Option.map_eq_some_iff] at hq
      obtain ⟨q', hq', rfl⟩ := hq
      rw [Nat.zero_add]
      exact hb k q' hq'
    · rw [Nat.zero_add, List.length_map]
      exact h1
  · refine ⟨.extractUnknownIntent intent, ?_, ?_⟩
    · unfold Engine.extractSlotWithAlternatives
      rw [show e.dataset.slotNameMappings.get intent = none from h]
      rfl
    · show ["Unknown intent: ".toList ++ intent ++ "".toList] = _
      rw [show "".toList = [] from rfl, List.append_nil]
  · refine ⟨.extractUnknownSlot slot, ?_, ?_⟩
    · unfold Engine.extractSlotWithAlternatives
      rw [show e.dataset.slotNameMappings.get intent = some mapping from h1]
      show Prog.run w (Prog.bind (Prog.ofOutcome (Outcome.ofOption _ (Map.get mapping slot))) _) = _
      rw [h2]
      rfl
    · show ["Unknown slot: ".toList ++ slot ++ "".toList] = _
      rw [show "".toList = [] from rfl, List.append_nil]

/-! ### Messages -/

theorem Report.of_bind {α β : Type} (x : Outcome α) (f : α → Outcome β) (g : α → Report β) (h : ∀ a, (g a).outcome = f a) :
    ((Report.of x).bind g).outcome = x.bind f := by
  cases x with
  | ok a => exact h a
  | err e => rfl
  | panic => rfl

theorem Report.bind_outcome {α β : Type} (x : Report α) (f : α → Report β) :
    (x.bind f).outcome = x.outcome.bind fun a => (f a).outcome := by
  cases x <;> rfl

theorem cascadeReport_outcome (e : Engine) (o : HashOrd) (w : World) (input : Text) (wl : Option (List Text)) (ns : Nat) :
    ∀ (ps : List ParserImpl) (i : Nat) (q : ℚ),
      (e.cascadeReport o w input wl ns i ps q).outcome = (e.cascade o input wl ns i ps q).run w
  | [], _, _ => rfl
  | p :: ps, i, q => by
    unfold Engine.cascadeReport Engine.cascade
    show _ = Prog.run w (Prog.bind _ _)
    rw [Prog.run_bind]
    refine Report.of_bind _ _ _ fun r => ?_
    cases r.intent.name with
    | none => exact cascadeReport_outcome e o w input wl ns ps _ _
    | some name =>
      simp only
      show _ = Prog.run w (Prog.bind _ _)
      rw [Prog.run_bind]
      unfold Prog.report
      cases (e.resolveSlots input r.slots ns).run w <;> rfl

/-- The messages change nothing else. -/
theorem c97_same (e : Engine) (o : HashOrd) (w : World) (input : Text) (whitelist blacklist : Option (List Text))
    (intents slots : Nat) :
    (e.parseReport o w input whitelist blacklist intents slots).outcome
      = (e.parseWithAlternatives o input whitelist blacklist intents slots).run w := by
  unfold Engine.parseReport Engine.parseWithAlternatives
  show _ = Prog.run w (Prog.bind _ _)
  rw [Prog.run_bind, Prog.run_ofOutcome]
  refine Report.of_bind _ _ _ fun wl => ?_
  show _ = Prog.run w (Prog.bind _ _)
  rw [Prog.run_bind, Report.bind_outcome, cascadeReport_outcome]
  congr 1
  funext main
  split
  · rfl
  · show _ = Prog.run w (Prog.bind _ _)
    rw [Prog.run_bind]
    refine Report.of_bind _ _ _ fun ranked => ?_
    simp only
    show _ = Prog.run w (Prog.bind _ _)
    rw [Prog.run_bind]
    exact Report.of_bind _ _ _ fun alts => rfl

theorem cascadeReport_messages (e : Engine) (o : HashOrd) (w : World) (input : Text) (wl : Option (List Text)) (ns : Nat) :
    ∀ (ps : List ParserImpl) (i : Nat) (q : ℚ) (contexts : List Text) (root : Err),
      e.cascadeReport o w input wl ns i ps q = .err contexts root →
      (contexts = [] ∧ ∃ (k : Nat) (p : ParserImpl), ps[k]? = some p ∧ (p.parse (o.sub (i + k)) input wl).run w = .err root) ∨
      (contexts = ["Cannot resolve slots".toList] ∧ ∃ (k : Nat) (p : ParserImpl) (r : InternalResult) (intent : Text), ps[k]? = some p ∧
        (p.parse (o.sub (i + k)) input wl).run w = .ok r ∧ r.intent.name = some intent ∧
          (e.resolveSlots input r.slots ns).run w = .err root)
  | [], _, _, _, _, h => by cases h
  | p :: ps, i, q, contexts, root, h => by
    unfold Engine.cascadeReport Prog.report at h
    cases hp : (p.parse (o.sub i) input wl).run w with
    | err e' =>
      rw [hp] at h
      cases h
      exact .inl ⟨rfl, 0, p, rfl, hp⟩
    | panic => rw [hp] at h; cases h
    | ok r =>
      rw [hp] at h
      cases hn : r.intent.name with
      | none =>
        simp only [Report.of, Report.bind, hn] at h
        rcases cascadeReport_messages e o w input wl ns ps (i + 1) _ contexts root h with ⟨h1, k, p', h2, h3⟩ | ⟨h1, k, p', r', j, h2, h3, h4⟩
        · exact .inl ⟨h1, k + 1, p', h2, by rwa [show i + (k + 1) = i + 1 + k by omega]⟩
        · exact .inr ⟨h1, k + 1, p', r', j, h2, by rwa [show i + (k + 1) = i + 1 + k by omega], h4⟩
      | some intent =>
        simp only [Report.of, Report.bind, hn] at h
        cases hr : (e.resolveSlots input r.slots ns).run w with
        | ok s => rw [hr] at h; cases h
        | panic => rw [hr] at h; cases h
        | err e' =>
          rw [hr] at h
          cases h
          exact .inr ⟨rfl, 0, p, r, intent, rfl, hp, hn, hr⟩

/-- A failing `parse_with_alternatives` has a message in front of the error exactly when the slots of the answer of a parser
could not be resolved: otherwise the error is the one of the filter, of a parser, of `get_intents` or of the slots of an
alternative, as it is. -/
theorem c97_messages (e : Engine) (o : HashOrd) (w : World) (input : Text) (whitelist blacklist : Option (List Text))
    (intents slots : Nat) (contexts : List Text) (root : Err)
    (h : e.parseReport o w input whitelist blacklist intents slots = .err contexts root) :
    (contexts = [] ∨ contexts = ["Cannot resolve slots".toList]) ∧
      (contexts ≠ [] → ∃ (k : Nat) (p : ParserImpl) (effective : Option (List Text)) (r : InternalResult) (intent : Text),
        e.parsers[k]? = some p ∧ (p.parse ((o.sub 1).sub k) input effective).run w = .ok r ∧ r.intent.name = some intent ∧
          (e.resolveSlots input r.slots slots).run w = .err root) := by
  unfold Engine.parseReport at h
  cases hwl : e.getIntentsWhitelist (o.sub 0) whitelist blacklist with
  | err e' => rw [hwl] at h; cases h; exact ⟨.inl rfl, fun h => absurd rfl h⟩
  | panic => rw [hwl] at h; cases h
  | ok wl =>
    rw [hwl] at h
    simp only [Report.of, Report.bind] at h
    cases hc : e.cascadeReport (o.sub 1) w input wl slots 0 e.parsers 0 with
    | panic => rw [hc] at h; cases h
    | err cs e' =>
      rw [hc] at h
      cases h
      rcases cascadeReport_messages e (o.sub 1) w input wl slots e.parsers 0 0 _ _ hc with ⟨rfl, -⟩ | ⟨rfl, k, p, r, j, h2, h3, h4⟩
      · exact ⟨.inl rfl, fun h => absurd rfl h⟩
      · exact ⟨.inr rfl, fun _ => ⟨k, p, wl, r, j, h2, by rwa [Nat.zero_add] at h3, h4⟩⟩
    | ok main =>
      rw [hc] at h
      simp only at h
      split at h
      · cases h
      · unfold Prog.report at h
        cases hg : (e.getIntents (o.sub 2) input).run w with
        | panic => rw [hg] at h; cases h
        | err e' => rw [hg] at h; cases h; exact ⟨.inl rfl, fun h => absurd rfl h⟩
        | ok ranked =>
          rw [hg] at h
          simp only [Report.of] at h
          generalize (((ranked.filter (Engine.passesFilter wl)).drop 1).take intents) = sel at h
          cases ha : (e.alternativesSlots (o.sub 3) input slots 0 sel).run w with
          | panic => rw [ha] at h; cases h
          | err e' => rw [ha] at h; cases h; exact ⟨.inl rfl, fun h => absurd rfl h⟩
          | ok alts => rw [ha] at h; cases h

/-! ### Concrete cases -/

/-- Metadata of the examples. -/
def answerDataset : DatasetMetadata :=
  ⟨[("drink".toList, true), (['e'], true)], [("brew".toList, [("kind".toList, "drink".toList), ("count".toList, "snips/number".toList)]),
    ("idiom".toList, []), ("halt".toList, [])]⟩

/-- A lookup parser and a deterministic one, for the same intents. -/
def answerParsers : List ParserModel :=
  [.lookup releaseEnv demoLookup, .deterministic { releaseEnv with fns := wholeTextFns } demoDet]

theorem ruleWorld_scoped : ruleWorld.Scoped := by
  intro s asked n es h e he
  simp only [ruleWorld, Outcome.ok.injEq] at h
  subst h
  split at he
  · rename_i hc
    obtain ⟨t, -, ht⟩ := List.mem_filterMap.1 he
    split at ht
    · cases ht
      simpa using hc
    · cases ht
  · cases he

example : ruleWorld.NoError := ⟨fun _ _ _ _ => by simp [ruleWorld], fun _ _ _ _ => by simp [ruleWorld]⟩

theorem answerParsers_complete : ∀ p ∈ answerParsers, p.Complete answerDataset demoKinds := by
  intro p hp
  simp only [answerParsers, List.mem_cons, List.not_mem_nil, or_false] at hp
  rcases hp with rfl | rfl
  · refine ⟨?_, fun kind => .inr ⟨0, rfl⟩, ?_⟩
    · have hall : ∀ s ∈ demoLookup.scopes, ∀ b ∈ s.builtin, releaseEnv.names.fromIdentifier b = some 0 := by decide
      exact fun s hs b hb => ⟨0, hall s hs b hb⟩
    intro s hs c hc
    simp only [demoLookup, List.mem_cons, List.not_mem_nil, or_false] at hs
    rcases hs with rfl | rfl
    · rw [List.mem_singleton] at hc
      subst hc
      exact .inl ⟨true, by decide⟩
    · cases hc
  · refine ⟨?_, ?_⟩
    · intro s hs
      have : s.1 ∈ demoDet.regexes.keys := by
        have hall : ∀ s ∈ demoDet.scopes, s.1 ∈ demoDet.regexes.keys := by decide
        exact hall s hs
      exact Map.get_isSome_iff.2 this
    · intro intent declared hd slot entity he
      have hall : ∀ x ∈ demoDet.slotEntities, ∀ y ∈ x.2, y.2 = "snips/number".toList ∨ y.2 = "drink".toList := by decide
      rcases hall _ (Map.get_some_mem hd) _ (Map.get_some_mem he) with h | h
      · simp only at h
        subst h
        exact .inr ⟨0, by decide⟩
      · simp only at h
        subst h
        exact .inl ⟨true, by decide⟩

example : ∀ p ∈ answerParsers, ∀ intent, p.Ranks intent → ∀ q ∈ answerParsers, q.Knows intent := by
  intro p hp intent hr q hq
  simp only [answerParsers, List.mem_cons, List.not_mem_nil, or_false] at hp hq
  rcases hp with rfl | rfl <;> rcases hq with rfl | rfl <;> exact hr

/-- The probabilistic parser of the examples with one intent is complete. -/
example : (ParserModel.probabilistic demoEngineEnv ⟨{ demoClassifier with intentList := [some ['b'], none] },
    [(['b'], oneSlotFiller)]⟩).Complete answerDataset demoKinds := by
  refine ⟨?_, ?_, ?_⟩
  · intro f l hf hl m hm
    cases hf
    cases hl
    have : m = 1 := by
      have h : ([0, 1] : List Nat).max? = some m := hm
      rw [show ([0, 1] : List Nat).max? = some 1 from rfl] at h
      cases h
      rfl
    subst this
    rfl
  · intro intent h
    simp only [List.mem_cons, List.not_mem_nil, or_false, Option.some.injEq, reduceCtorEq] at h
    subst h
    exact ⟨oneSlotFiller, rfl⟩
  · intro intent filler h
    have hmem := Map.get_some_mem h
    simp only [List.mem_singleton, Prod.mk.injEq] at hmem
    obtain ⟨_, rfl⟩ := hmem
    intro tagger ht features
    cases ht
    refine ⟨fun e => by simp [oneSlotTagger], fun encoded he x hx => ?_⟩
    cases he
    obtain ⟨_, _, rfl⟩ := List.mem_map.1 hx
    exact ⟨_, rfl, .inr ⟨['e'], by decide +kernel, .inl ⟨true, by decide⟩⟩⟩

/-- A parser that does not know an intent ranked by the one before it: `parse` succeeds, and asking for an alternative makes it
fail, although the intent of the alternative is one of the dataset. -/
theorem c97_alternatives_counterexample :
    let e := Engine.ofParsers answerDataset demoKinds [.lookup releaseEnv demoLookup,
      .deterministic { releaseEnv with fns := wholeTextFns } { demoDet with regexes := [], scopes := [] }]
    (∀ p ∈ [ParserModel.deterministic { releaseEnv with fns := wholeTextFns } { demoDet with regexes := [], scopes := [] }],
      p.Complete answerDataset demoKinds) ∧
    (∃ r, (e.parse HashOrd.insertion "stop".toList none none).run ruleWorld = .ok r ∧ r.intent.name = some "halt".toList) ∧
    (e.parseWithAlternatives HashOrd.insertion "stop".toList none none 1 0).run ruleWorld = .err (.unknownIntent "brew".toList) := by
  intro e
  refine ⟨?_, ⟨⟨"stop".toList, ⟨some "halt".toList, 1⟩, [], []⟩, by decide +kernel, by decide⟩, by decide +kernel⟩
  intro p hp
  rw [List.mem_singleton] at hp
  subst hp
  refine ⟨fun s hs => (by cases hs), ?_⟩
  intro intent declared hd slot entity he
  have hall : ∀ x ∈ demoDet.slotEntities, ∀ y ∈ x.2, y.2 = "snips/number".toList ∨ y.2 = "drink".toList := by decide
  rcases hall _ (Map.get_some_mem hd) _ (Map.get_some_mem he) with h | h
  · simp only at h
    subst h
    exact .inr ⟨0, by decide⟩
  · simp only at h
    subst h
    exact .inl ⟨true, by decide⟩

/-- An entity that is neither in the dataset nor builtin: the message is in front of the error. -/
example : (match (Engine.ofParsers { answerDataset with entities := [] } demoKinds [.lookup releaseEnv demoLookup]).parseReport
      HashOrd.insertion ruleWorld "make two tea".toList (some ["brew".toList]) none 0 0 with
    | .err contexts _ => some contexts
    | _ => none) = some ["Cannot resolve slots".toList] := by
  decide +kernel

end Snips
