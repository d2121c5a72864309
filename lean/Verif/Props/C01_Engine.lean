import Verif.Props.C14_RuleSlots
import Verif.Props.C40_Classifier
import Verif.Props.C03_Cascade
import Verif.Props.C05_Alternatives
import Verif.Props.C10_Resolution
import Verif.Props.C09_GetSlots
import Verif.Props.C02_Filter

/-! # C01, C14 and C15 for engines made of the three kinds of parsers -/

namespace Snips

/-! ### C01 -/

/-- What any parser returns passes the filter it is given. -/
theorem parser_honours_filter (pm : ParserModel) (hc : pm.Constructed) (hf : pm.FairClassifier) (o : HashOrd)
    (w : World) (input : Text) (filter : List Text) (out : InternalResult)
    (h : (pm.impl.parse o input (some filter)).run w = .ok out) :
    ∀ i, out.intent.name = some i → i ∈ filter := by
  cases pm with
  | lookup env p => exact c01_lookup env p o w input filter out h
  | deterministic env p => exact c01_deterministic env p hc o w input filter out h
  | probabilistic env p => exact c01_probabilistic_partial env p o w input (Or.inl hf) filter out h

theorem ofParsers_getElem {d : DatasetMetadata} {n : KindNames} {ps : List ParserModel} {k : Nat} {q : ParserImpl}
    (h : (Engine.ofParsers d n ps).parsers[k]? = some q) : ∃ pm ∈ ps, q = pm.impl := by
  unfold Engine.ofParsers at h
  simp only [List.getElem?_map, Option.map_eq_some_iff] at h
  obtain ⟨pm, h1, h2⟩ := h
  exact ⟨pm, List.mem_of_getElem? h1, h2.symm⟩

theorem isFilterFor_allowed {e : Engine} {wl bl eff : Option (List Text)} (h : e.IsFilterFor wl bl eff) {i : Text}
    (hi : ∀ l, eff = some l → i ∈ l) : Allowed wl bl i := by
  cases eff with
  | none =>
    obtain ⟨rfl, rfl⟩ := h
    exact ⟨by simp, by simp⟩
  | some l => exact ((h.2 i).1 (hi l rfl)).2

/-- Every intent of a result, the main one and the alternatives, belongs to the whitelist if one is given
and not to the blacklist if one is given.  Missing from the full statement: engines with a classifier that
is not fair, for which the statement is false (`c01_engine_counterexample`). -/
theorem c01_engine_partial (dataset : DatasetMetadata) (names : KindNames) (ps : List ParserModel)
    (hc : ∀ pm ∈ ps, pm.Constructed) (hf : ∀ pm ∈ ps, pm.FairClassifier)
    (o : HashOrd) (w : World) (input : Text) (whitelist blacklist : Option (List Text)) (ni ns : Nat)
    (res : ParseResult)
    (h : ((Engine.ofParsers dataset names ps).parseWithAlternatives o input whitelist blacklist ni ns).run w
      = .ok res) :
    (∀ i, res.intent.name = some i → Allowed whitelist blacklist i) ∧
    ∀ a ∈ res.alternatives, ∀ i, a.intent.name = some i → Allowed whitelist blacklist i := by
  constructor
  · intro i hi
    obtain ⟨eff, heff, _, h | h⟩ := c03_result_origin _ o w input whitelist blacklist ni ns res h
    · obtain ⟨k, r, _, hans, _, hint, _⟩ := h
      refine isFilterFor_allowed heff ?_
      rintro l rfl
      obtain ⟨q, hq, hr⟩ := parserAnswer_iff.1 hans
      obtain ⟨pm, hpm, rfl⟩ := ofParsers_getElem hq
      exact parser_honours_filter pm (hc pm hpm) (hf pm hpm) _ w input l r hr i (by rw [← hint]; exact hi)
    · rw [h.2.1] at hi; cases hi
  · intro a ha i hi
    obtain ⟨wl, main, h1, _, h3⟩ := Engine.parseWith_ok h
    have hk : (Engine.ofParsers dataset names ps).FilterKnown whitelist blacklist := by
      by_contra hk
      obtain ⟨_, _, _, he⟩ := getIntentsWhitelist_unknown _ (o.sub 0) _ _ hk
      rw [he] at h1
      cases h1
    obtain ⟨eff, h1', heff⟩ := getIntentsWhitelist_known _ (o.sub 0) _ _ hk
    rw [h1] at h1'
    cases h1'
    rcases h3 with ⟨hni, hres⟩ | ⟨_, ranked, alts, _, hal, rfl⟩
    · have := (c05_zero (Engine.ofParsers dataset names ps) o w input whitelist blacklist ns res).1
        (by rw [← hni]; exact h)
      rw [this] at ha
      cases ha
    · obtain ⟨hsel, _⟩ := Engine.alternativesSlots_run _ _ _ _ _ _ _ _ hal
      have hmem : a.intent ∈ alts.map Alternative.intent := List.mem_map.2 ⟨a, ha, rfl⟩
      rw [hsel] at hmem
      have hp := (List.mem_filter.1 (List.mem_of_mem_drop (List.mem_of_mem_take hmem))).2
      refine isFilterFor_allowed heff ?_
      rintro l rfl
      unfold Engine.passesFilter at hp
      rw [hi] at hp
      simpa using hp

/-- An engine whose classifier knows a single intent returns this intent although it is blacklisted. -/
theorem c01_engine_counterexample (o : HashOrd) (w : World) (env : ProbEnv) (fns : TextFns) :
    ∃ (dataset : DatasetMetadata) (names : KindNames) (ps : List ParserModel) (input : Text)
      (blacklist : List Text) (res : ParseResult),
      ((Engine.ofParsers dataset names ps).parse o input none (some blacklist)).run w = .ok res ∧
      ∃ i, res.intent.name = some i ∧ i ∈ blacklist := by
  refine ⟨⟨[], [(['a'], [])]⟩, ⟨fun _ => none, fun _ => none, fun _ => []⟩,
    [.probabilistic env ⟨⟨[some ['a']], none, none⟩, [(['a'], ⟨fns, .bio, none, none, []⟩)]⟩], ['x'], [['a']],
    ⟨['x'], ⟨some ['a'], 1⟩, [], []⟩, ?_, ['a'], rfl, by simp⟩
  have h1 : (o.sub 0).order 0 [['a']] = [(['a'] : Text)] := List.perm_singleton.1 ((o.sub 0).perm 0 _)
  have h2 : (Engine.ofParsers ⟨[], [(['a'], [])]⟩ ⟨fun _ => none, fun _ => none, fun _ => []⟩
      [.probabilistic env ⟨⟨[some ['a']], none, none⟩, [(['a'], ⟨fns, .bio, none, none, []⟩)]⟩]).getIntentsWhitelist
      (o.sub 0) none (some [['a']]) = .ok (some []) := by
    simp only [Engine.getIntentsWhitelist, Engine.ofParsers, Map.keys, List.map_cons, List.map_nil, h1]
    rfl
  unfold Engine.parse
  rw [parse_eq_cascade _ _ _ _ _ _ _ _ h2]
  rfl

/-! ### C14 and C15: slots of the probabilistic parser -/

theorem prob_slots_run {env : ProbEnv} {f : SlotFiller} {w : World} {input : Text} {slots : List InternalSlot}
    (h : (f.getSlots env.codec input).run w = .ok slots) :
    slots = [] ∨ ∃ tagger features encoded tags, f.tagger = some tagger ∧ tagger.tag features = .ok encoded ∧
      mapOutcome env.codec.decode encoded = .ok tags ∧
      tagsToSlots input (f.fns.tokenize input) tags f.scheme f.mapping = .ok slots := by
  unfold SlotFiller.getSlots at h
  split at h
  · rename_i tagger os ht _
    simp only at h
    split at h
    · cases h; exact Or.inl rfl
    · rw [Prog.run_bind, Outcome.bind_ok] at h
      obtain ⟨features, _, h⟩ := h
      rw [Prog.run_ofOutcome] at h
      simp only [Outcome.bind_eq, Outcome.bind_ok] at h
      obtain ⟨encoded, h1, tags, h2, h3⟩ := h
      exact Or.inr ⟨tagger, features, encoded, tags, ht, h1, h2, h3⟩
  · cases h; exact Or.inl rfl

theorem slotFiller_text {env : ProbEnv} {f : SlotFiller} (ht : TokenizerOk f.fns) {w : World} {input : Text}
    {slots : List InternalSlot} (h : (f.getSlots env.codec input).run w = .ok slots) :
    TextAtRange input slots := by
  rcases prob_slots_run h with rfl | ⟨_, _, _, tags, _, _, _, h⟩
  · intro s hs; cases hs
  · intro s hs
    exact (c28_value _ _ _ _ _ _ (ht input).2 h s hs).2.2

theorem tagsToSlots_order {text : Text} {tokens : List Token} {tags : List Text} {sch : Scheme}
    {mapping : Map Text Text} {slots : List InternalSlot}
    (hne : ∀ tok ∈ tokens, tok.charRange.NonEmpty)
    (hord : tokens.Pairwise (fun a b => a.charRange.stop ≤ b.charRange.start))
    (hok : ∀ t ∈ tags, TagOk sch t)
    (h : tagsToSlots text tokens tags sch mapping = .ok slots) : InTextOrder slots := by
  unfold tagsToSlots at h
  rw [tagsToSlotRanges_eq] at h
  simp only [Outcome.bind_eq, Outcome.bind_ok] at h
  obtain ⟨ranges, hr, h⟩ := h
  have hwf := (go_wf sch tags none 0 0 hok).1 (Or.inl rfl)
  have hspan := hwf.ordered
  have hfl : ∀ s ∈ goSpans sch none 0 0 tags, s.first ≤ s.last := by
    intro s hs
    have := hwf.nonempty s hs
    omega
  rw [mapOutcome_ok_iff] at hr h
  generalize goSpans sch none 0 0 tags = spans at hr hspan hfl
  clear hwf hok
  -- every slot goes from the start of a token to the end of a token of its span
  have hslots : List.Forall₂ (fun (s : Span) (o : InternalSlot) => ∃ a b, tokens[s.first]? = some a ∧
      tokens[s.last]? = some b ∧ o.charRange = ⟨a.charRange.start, b.charRange.stop⟩) spans slots := by
    clear hspan hfl
    induction hr generalizing slots with
    | nil => cases h; exact List.Forall₂.nil
    | cons h1 _ ih =>
      cases h with
      | cons h2 h =>
        refine List.Forall₂.cons ?_ (ih h)
        unfold spanRange at h1
        split at h1
        · rename_i a b ha hb
          simp only [Outcome.ok.injEq] at h1
          refine ⟨a, b, ha, hb, ?_⟩
          unfold slotRangeToSlot at h2
          simp only [Outcome.bind_eq, Outcome.bind_ok] at h2
          obtain ⟨_, _, _, _, h2⟩ := h2
          cases h2
          rw [← h1]
        · cases h1
  clear hr h
  have htok : ∀ (i j : Nat) (a b : Token), tokens[i]? = some a → tokens[j]? = some b → i < j →
      a.charRange.stop ≤ b.charRange.start := by
    intro i j a b ha hb hij
    obtain ⟨h1, rfl⟩ := List.getElem?_eq_some_iff.1 ha
    obtain ⟨h2, rfl⟩ := List.getElem?_eq_some_iff.1 hb
    exact List.pairwise_iff_getElem.1 hord i j h1 h2 hij
  have hbefore : slots.Pairwise fun a b => a.charRange.stop ≤ b.charRange.start ∧
      a.charRange.start ≤ b.charRange.start := by
    induction hslots with
    | nil => exact List.Pairwise.nil
    | @cons s o spans slots h1 hrest ih =>
      rw [List.pairwise_cons] at hspan
      refine List.Pairwise.cons ?_ (ih hspan.2 (fun s hs => hfl s (by simp [hs])))
      intro o' ho'
      obtain ⟨a, b, ha, hb, hr⟩ := h1
      obtain ⟨i, hi⟩ := List.mem_iff_getElem?.1 ho'
      obtain ⟨hi1, hi2⟩ := List.getElem?_eq_some_iff.1 hi
      have hi' : i < spans.length := by rw [hrest.length_eq]; exact hi1
      have hget := hrest.get hi' hi1
      simp only [List.get_eq_getElem] at hget
      rw [hi2] at hget
      obtain ⟨a', b', ha', hb', hr'⟩ := hget
      have hlt := hspan.1 _ (List.getElem_mem hi')
      have hle := hfl s (by simp)
      have e1 := htok _ _ _ _ hb ha' hlt
      have e2 := htok _ _ _ _ ha ha' (by omega)
      have e3 := hne a (List.mem_of_getElem? ha)
      unfold Rng.NonEmpty at e3
      rw [hr, hr']
      exact ⟨e1, by show a.charRange.start ≤ a'.charRange.start; omega⟩
  refine hbefore.imp ?_
  rintro a b ⟨h1, h2⟩
  refine ⟨?_, h2⟩
  rintro i ⟨⟨_, hi1⟩, ⟨hi2, _⟩⟩
  omega

theorem slotFiller_order {env : ProbEnv} {f : SlotFiller} (ht : TokenizerOk f.fns)
    (ha : f.InAlphabet env.codec) {w : World} {input : Text} {slots : List InternalSlot}
    (h : (f.getSlots env.codec input).run w = .ok slots) : InTextOrder slots := by
  rcases prob_slots_run h with rfl | ⟨tagger, features, encoded, tags, h1, h2, h3, h⟩
  · exact List.Pairwise.nil
  · refine tagsToSlots_order (ht input).1.nonempty (ht input).1.ordered ?_ h
    intro t ht'
    cases hs : f.scheme with
    | io => trivial
    | bilou => trivial
    | bio =>
      rw [mapOutcome_ok_iff] at h3
      obtain ⟨i, hi⟩ := List.mem_iff_getElem?.1 ht'
      obtain ⟨hi1, hi2⟩ := List.getElem?_eq_some_iff.1 hi
      have hi' : i < encoded.length := by rw [h3.length_eq]; exact hi1
      have hget := h3.get hi' hi1
      simp only [List.get_eq_getElem] at hget
      rw [hi2] at hget
      exact ha hs tagger h1 features encoded h2 _ (List.getElem_mem hi') t hget

/-- What holds of the slots of all fillers of a parser, and of the empty list, holds of its answers. -/
theorem prob_slots_of {env : ProbEnv} {p : Prob} {o : HashOrd} {w : World} {input : Text}
    (P : List InternalSlot → Prop) (h0 : P [])
    (hP : ∀ intent f slots, p.slotFillers.get intent = some f →
      (f.getSlots env.codec input).run w = .ok slots → P slots) :
    (∀ filter out, (p.parse env o input filter).run w = .ok out → P out.slots) ∧
    ∀ intent slots, (p.getSlots env o input intent).run w = .ok slots → P slots := by
  constructor
  · intro filter out h
    obtain ⟨_, h1, h2⟩ := c54_answer env p o w input filter out h
    cases hn : out.intent.name with
    | none => rw [h1 hn]; exact h0
    | some i =>
      obtain ⟨f, hg, hf⟩ := h2 i hn
      exact hP i f _ hg hf
  · intro intent slots h
    obtain ⟨h1, h2⟩ := c09_probabilistic env p o w input intent
    cases hf : p.slotFillers.get intent with
    | none =>
      obtain ⟨e, he⟩ := h2 (Map.get_none_iff.1 hf)
      rw [he] at h
      cases h
    | some f =>
      rw [h1 f hf] at h
      exact hP intent f _ hf h

/-- The slots of a parser's answer carry the text at their ranges. -/
theorem parser_text (pm : ParserModel) (hc : pm.Constructed) (ht : pm.TokenizerOk) (o : HashOrd) (w : World)
    (input : Text) :
    (∀ filter out, (pm.impl.parse o input filter).run w = .ok out → TextAtRange input out.slots) ∧
    ∀ intent slots, (pm.impl.getSlots o input intent).run w = .ok slots → TextAtRange input slots := by
  cases pm with
  | lookup env p =>
    exact ⟨fun filter out h => c14_lookup env p o w input filter out h,
      fun intent slots h => (c14_lookup_get_slots env p o w input intent slots h).1⟩
  | deterministic env p =>
    exact ⟨fun filter out h => c14_deterministic env p hc o w input filter out h,
      fun intent slots h => (c14_deterministic_get_slots env p hc o w input intent slots h).1⟩
  | probabilistic env p =>
    exact prob_slots_of (TextAtRange input) (fun s hs => by cases hs)
      (fun intent f _ hf h => slotFiller_text (ht intent f hf) h)

/-- The slots of a parser's answer are disjoint and in order. -/
theorem parser_order (pm : ParserModel) (hc : pm.Constructed) (ht : pm.TokenizerOk) (ha : pm.InAlphabet)
    (o : HashOrd) (w : World) (input : Text) :
    (∀ filter out, (pm.impl.parse o input filter).run w = .ok out → InTextOrder out.slots) ∧
    ∀ intent slots, (pm.impl.getSlots o input intent).run w = .ok slots → InTextOrder slots := by
  cases pm with
  | lookup env p =>
    exact ⟨fun filter out h => c15_lookup env p o w input filter out h,
      fun intent slots h => (c14_lookup_get_slots env p o w input intent slots h).2⟩
  | deterministic env p =>
    exact ⟨fun filter out h => c15_deterministic env p hc o w input filter out h,
      fun intent slots h => (c14_deterministic_get_slots env p hc o w input intent slots h).2⟩
  | probabilistic env p =>
    exact prob_slots_of InTextOrder List.Pairwise.nil
      (fun intent f _ hf h => slotFiller_order (ht intent f hf) (ha intent f hf) h)

/-! ### C14 and C15: engine -/

/-- All slot lists reachable through an engine: main slots, slots of the alternatives, `get_slots`. -/
theorem engine_slots {dataset : DatasetMetadata} {names : KindNames} {ps : List ParserModel} {w : World}
    {input : Text} (P : List InternalSlot → Prop) (h0 : P []) (hsub : ∀ l l', l'.Sublist l → P l → P l')
    (hparse : ∀ pm ∈ ps, ∀ o filter out, (pm.impl.parse o input filter).run w = .ok out → P out.slots)
    (hget : ∀ pm ∈ ps, ∀ o intent slots, (pm.impl.getSlots o input intent).run w = .ok slots → P slots)
    (o : HashOrd) :
    (∀ whitelist blacklist ni ns res,
      ((Engine.ofParsers dataset names ps).parseWithAlternatives o input whitelist blacklist ni ns).run w = .ok res →
      (∃ l, P l ∧ List.Forall₂ SameSlot l res.slots) ∧
      ∀ a ∈ res.alternatives, ∃ l, P l ∧ List.Forall₂ SameSlot l a.slots) ∧
    ∀ intent ns slots,
      ((Engine.ofParsers dataset names ps).getSlotsWithAlternatives o input intent ns).run w = .ok slots →
      ∃ l, P l ∧ List.Forall₂ SameSlot l slots := by
  have hgs : ∀ o intent ns slots,
      ((Engine.ofParsers dataset names ps).getSlotsWithAlternatives o input intent ns).run w = .ok slots →
      ∃ l, P l ∧ List.Forall₂ SameSlot l slots := by
    intro o intent ns slots h
    by_cases hne : slots = []
    · subst hne; exact ⟨[], h0, List.Forall₂.nil⟩
    · obtain ⟨k, sl, _, hk, kept, hkept, hF⟩ := c10_slot_identity_get_slots _ o w input intent ns slots h hne
      obtain ⟨q, hq, hr⟩ := parserSlots_iff.1 hk
      obtain ⟨pm, hpm, rfl⟩ := ofParsers_getElem hq
      exact ⟨kept, hsub _ _ hkept (hget pm hpm _ _ _ hr), hF⟩
  refine ⟨?_, hgs o⟩
  intro whitelist blacklist ni ns res h
  constructor
  · by_cases hne : res.slots = []
    · rw [hne]; exact ⟨[], h0, List.Forall₂.nil⟩
    · obtain ⟨eff, _, h2⟩ := c10_slot_identity _ o w input whitelist blacklist ni ns res h
      obtain ⟨k, r, _, hk, _, kept, hkept, hF⟩ := h2 hne
      obtain ⟨q, hq, hr⟩ := parserAnswer_iff.1 hk
      obtain ⟨pm, hpm, rfl⟩ := ofParsers_getElem hq
      exact ⟨kept, hsub _ _ hkept (hparse pm hpm _ _ _ hr), hF⟩
  · intro a ha
    obtain ⟨wl, main, _, hmain, h3⟩ := Engine.parseWith_ok h
    rcases h3 with ⟨hni, hres⟩ | ⟨_, ranked, alts, _, hal, rfl⟩
    · have := (c05_zero (Engine.ofParsers dataset names ps) o w input whitelist blacklist ns res).1
        (by rw [← hni]; exact h)
      rw [this] at ha
      cases ha
    · obtain ⟨_, hsl⟩ := Engine.alternativesSlots_run _ _ _ _ _ _ _ _ hal
      obtain ⟨j, hj⟩ := List.mem_iff_getElem?.1 (show a ∈ alts from ha)
      have := hsl j a hj
      unfold Engine.alternativeSlots at this
      split at this
      · exact hgs _ _ _ _ this
      · simp only [Prog.run_ret, Outcome.ok.injEq] at this
        rw [← this]; exact ⟨[], h0, List.Forall₂.nil⟩

theorem sameSlot_text {input : Text} {l : List InternalSlot} {slots : List Slot} (hl : TextAtRange input l)
    (h : List.Forall₂ SameSlot l slots) : RawValuesAtRanges input slots := by
  induction h with
  | nil => intro s hs; cases hs
  | cons h1 _ ih =>
    intro s hs
    rcases List.mem_cons.1 hs with rfl | hs
    · rw [h1.1, h1.2.1]; exact hl _ (by simp)
    · exact ih (fun s hs => hl s (by simp [hs])) s hs

theorem sameSlot_order {l : List InternalSlot} {slots : List Slot} (hl : InTextOrder l)
    (h : List.Forall₂ SameSlot l slots) : DisjointInOrder slots := by
  induction h with
  | nil => exact List.Pairwise.nil
  | @cons a b l slots h1 hrest ih =>
    unfold InTextOrder at hl
    rw [List.pairwise_cons] at hl
    refine List.Pairwise.cons ?_ (ih hl.2)
    intro b' hb'
    obtain ⟨i, hi⟩ := List.mem_iff_getElem?.1 hb'
    obtain ⟨hi1, hi2⟩ := List.getElem?_eq_some_iff.1 hi
    have hi' : i < l.length := by rw [hrest.length_eq]; exact hi1
    have hg := hrest.get hi' hi1
    simp only [List.get_eq_getElem] at hg
    rw [hi2] at hg
    rw [h1.2.1, hg.2.1]
    exact hl.1 _ (List.getElem_mem hi')

/-- The raw value of every slot of a result, of its alternatives and of `get_slots` is the text of the
input at the reported range: for any parsers as constructed from a model, given a tokenizer whose ranges are
right; whatever the taggers, extractors and regexes answer. -/
theorem c14_engine (dataset : DatasetMetadata) (names : KindNames) (ps : List ParserModel)
    (hc : ∀ pm ∈ ps, pm.Constructed) (ht : ∀ pm ∈ ps, pm.TokenizerOk) (o : HashOrd) (w : World) (input : Text) :
    (∀ whitelist blacklist ni ns res,
      ((Engine.ofParsers dataset names ps).parseWithAlternatives o input whitelist blacklist ni ns).run w = .ok res →
      RawValuesAtRanges input res.slots ∧ ∀ a ∈ res.alternatives, RawValuesAtRanges input a.slots) ∧
    ∀ intent ns slots,
      ((Engine.ofParsers dataset names ps).getSlotsWithAlternatives o input intent ns).run w = .ok slots →
      RawValuesAtRanges input slots := by
  obtain ⟨h1, h2⟩ := engine_slots (dataset := dataset) (names := names) (ps := ps) (w := w) (input := input)
    (TextAtRange input) (fun s hs => by cases hs)
    (fun l l' hs h s hm => h s (hs.subset hm))
    (fun pm hpm o => (parser_text pm (hc pm hpm) (ht pm hpm) o w input).1)
    (fun pm hpm o => (parser_text pm (hc pm hpm) (ht pm hpm) o w input).2) o
  refine ⟨?_, ?_⟩
  · intro whitelist blacklist ni ns res h
    obtain ⟨⟨l, hl, hF⟩, ha⟩ := h1 _ _ _ _ _ h
    refine ⟨sameSlot_text hl hF, fun a hm => ?_⟩
    obtain ⟨l, hl, hF⟩ := ha a hm
    exact sameSlot_text hl hF
  · intro intent ns slots h
    obtain ⟨l, hl, hF⟩ := h2 _ _ _ h
    exact sameSlot_text hl hF

/-- The slots of a result, of its alternatives and of `get_slots` are disjoint and in text order.  Missing
from the full statement: taggers of BIO slot fillers that answer with tags outside of the alphabet, for which
it is false (`c27_bio_malformed_counterexample`). -/
theorem c15_engine_partial (dataset : DatasetMetadata) (names : KindNames) (ps : List ParserModel)
    (hc : ∀ pm ∈ ps, pm.Constructed) (ht : ∀ pm ∈ ps, pm.TokenizerOk) (hta : ∀ pm ∈ ps, pm.InAlphabet)
    (o : HashOrd) (w : World) (input : Text) :
    (∀ whitelist blacklist ni ns res,
      ((Engine.ofParsers dataset names ps).parseWithAlternatives o input whitelist blacklist ni ns).run w = .ok res →
      DisjointInOrder res.slots ∧ ∀ a ∈ res.alternatives, DisjointInOrder a.slots) ∧
    ∀ intent ns slots,
      ((Engine.ofParsers dataset names ps).getSlotsWithAlternatives o input intent ns).run w = .ok slots →
      DisjointInOrder slots := by
  obtain ⟨h1, h2⟩ := engine_slots (dataset := dataset) (names := names) (ps := ps) (w := w) (input := input)
    InTextOrder List.Pairwise.nil
    (fun l l' hs h => List.Pairwise.sublist hs h)
    (fun pm hpm o => (parser_order pm (hc pm hpm) (ht pm hpm) (hta pm hpm) o w input).1)
    (fun pm hpm o => (parser_order pm (hc pm hpm) (ht pm hpm) (hta pm hpm) o w input).2) o
  refine ⟨?_, ?_⟩
  · intro whitelist blacklist ni ns res h
    obtain ⟨⟨l, hl, hF⟩, ha⟩ := h1 _ _ _ _ _ h
    refine ⟨sameSlot_order hl hF, fun a hm => ?_⟩
    obtain ⟨l, hl, hF⟩ := ha a hm
    exact sameSlot_order hl hF
  · intro intent ns slots h
    obtain ⟨l, hl, hF⟩ := h2 _ _ _ h
    exact sameSlot_order hl hF

/-- Without a probabilistic parser there is nothing to assume about tokenizers and taggers. -/
theorem c15_rule_based (dataset : DatasetMetadata) (names : KindNames) (ps : List ParserModel)
    (hc : ∀ pm ∈ ps, pm.Constructed) (hrule : ∀ pm ∈ ps, ∀ env p, pm ≠ .probabilistic env p)
    (o : HashOrd) (w : World) (input : Text) (whitelist blacklist : Option (List Text)) (ni ns : Nat)
    (res : ParseResult)
    (h : ((Engine.ofParsers dataset names ps).parseWithAlternatives o input whitelist blacklist ni ns).run w
      = .ok res) :
    DisjointInOrder res.slots ∧ ∀ a ∈ res.alternatives, DisjointInOrder a.slots := by
  have h1 : ∀ pm ∈ ps, pm.TokenizerOk := by
    intro pm hpm
    cases pm with
    | probabilistic env p => exact absurd rfl (hrule _ hpm env p)
    | lookup => trivial
    | deterministic => trivial
  have h2 : ∀ pm ∈ ps, pm.InAlphabet := by
    intro pm hpm
    cases pm with
    | probabilistic env p => exact absurd rfl (hrule _ hpm env p)
    | lookup => trivial
    | deterministic => trivial
  exact (c15_engine_partial dataset names ps hc h1 h2 o w input).1 _ _ _ _ _ h

/-! ### Concrete cases -/

/-- The whole text is one token. -/
def wholeTextFns : TextFns :=
  { singleFns with
    tokenize := fun t => if t = [] then [] else [⟨t, ⟨0, byteLen t⟩, ⟨0, t.length⟩⟩] }

theorem wholeTextFns_ok : TokenizerOk wholeTextFns := by
  intro t
  by_cases h : t = []
  · subst h
    exact ⟨⟨by intro _ h; simp [wholeTextFns] at h, by intro _ h; simp [wholeTextFns] at h,
      by intro _ h; simp [wholeTextFns] at h, List.Pairwise.nil⟩, by intro _ h; simp [wholeTextFns] at h⟩
  · have ht : wholeTextFns.tokenize t = [⟨t, ⟨0, byteLen t⟩, ⟨0, t.length⟩⟩] := by
      simp [wholeTextFns, h]
    rw [ht]
    refine ⟨⟨?_, ?_, ?_, List.pairwise_singleton _ _⟩, ?_⟩
    · intro tok hm
      rw [List.mem_singleton] at hm; subst hm
      exact List.length_pos_iff.2 h
    · intro tok hm
      rw [List.mem_singleton] at hm; subst hm
      exact Nat.le_refl _
    · intro tok hm
      rw [List.mem_singleton] at hm; subst hm
      simp
    · intro tok hm
      rw [List.mem_singleton] at hm; subst hm
      refine ⟨⟨Nat.zero_le _, by simp⟩, ⟨Nat.le_refl _, ?_⟩⟩
      simp only [List.take_length]
      clear h ht
      induction t with
      | nil => rfl
      | cons c t ih => simp only [List.map_cons, List.sum_cons, byteLen, ih]

/-- A tagger that puts the only token of the text in the slot `a`. -/
def oneSlotTagger : Tagger := ⟨fun fs => .ok (fs.map fun _ => ['B', '-', 'a']), .ok [], fun _ _ => .ok 0⟩

def oneSlotFiller : SlotFiller := ⟨wholeTextFns, .bio, some oneSlotTagger, some [], [(['a'], ['e'])]⟩

def demoEngineEnv : ProbEnv := ⟨crudeOps, demoFeatEnv, ⟨id, .ok⟩⟩

example : oneSlotFiller.InAlphabet demoEngineEnv.codec := by
  intro _ tagger ht features encoded he x hx t htx
  cases ht
  cases he
  obtain ⟨_, _, rfl⟩ := List.mem_map.1 hx
  cases htx
  exact Or.inr (Or.inl ⟨_, rfl⟩)

/-- An engine with a rule-based and a probabilistic parser, the latter answering with a slot. -/
example : ((Engine.ofParsers ⟨[(['e'], true)], [(['a'], []), (['b'], [])]⟩ demoEnv.names
      [.lookup demoEnv demoLookup, .probabilistic demoEngineEnv ⟨demoClassifier, [(['b'], oneSlotFiller)]⟩]).parse
    HashOrd.insertion ['x'] none (some [['a']])).run demoWorld0
    = .ok ⟨['x'], ⟨some ['b'], 1/2⟩, [⟨['x'], .custom ['x'], [], ⟨0, 1⟩, ['e'], ['a']⟩], []⟩ := by
  decide +kernel

end Snips
