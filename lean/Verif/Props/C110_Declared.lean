import Verif.Spec.Declared
import Verif.Proofs.Machine
import Verif.Props.C04_Alternatives
import Verif.Props.C10_Resolution
import Verif.Props.C83_Reading
import Verif.Props.C104_Keys

/-! # C110: a slot has the entity that the dataset declares for it -/

namespace Snips

theorem lookup_declared {env : RuleEnv} {p : Lookup} {d : DatasetMetadata} {w : World} {input : Text}
    (ha : (ParserModel.lookup env p).AgreesWith d w input) {filter : Option (List Text)} {intent : Text}
    {slots : List InternalSlot} (h : p.Says env w input filter intent slots) :
    ∀ s ∈ slots, d.Declares intent s.slotName s.entity := by
  obtain ⟨-, -, sentences, htr, hann, hleg⟩ := ha
  obtain ⟨scope, hscope, owner, howner, hperm, -, all, kept, segs, names, hm, hk, hseg, hsub, ⟨n, ids, hget, hn, hids⟩,
    rfl⟩ := h
  obtain ⟨u, hu, hkey, hval⟩ := htr _ _ hget
  obtain ⟨v, hv, rfl⟩ := List.mem_map.1 hu
  have hes := hleg v hv filter _ _ ⟨scope, hscope, owner, howner, hperm, all, kept, segs, hm, hk, hseg, hsub, rfl, rfl⟩ hkey
  obtain ⟨h1, h2⟩ := Prod.mk.inj hval
  have h1' : n = v.intent := by exact_mod_cast h1
  have h2' : ids = v.slots := by
    have hinj : Function.Injective (fun i : Nat => (i : Int)) := fun a b hab => Int.ofNat.inj hab
    exact List.map_injective_iff.mpr hinj h2
  subst h1'
  have hdecl := hann v hv intent hn
  rw [← h2', ← hes] at hdecl
  clear hes htr hann hleg hu hval hkey hget hsub h1 h2 h2'
  intro s hs
  obtain ⟨x, hx, rfl⟩ := List.mem_map.1 hs
  generalize entitiesOf segs = es at hdecl hx
  clear hs hseg
  induction hids generalizing es with
  | nil => simp at hx
  | @cons id name ids names hid _ ih =>
    cases es with
    | nil => cases hdecl
    | cons e es =>
      rw [List.map_cons] at hdecl
      cases hdecl with
      | cons hd hds =>
        rcases List.mem_cons.1 hx with rfl | hx
        · exact hd _ hid
        · exact ih es hds hx

theorem det_declared {env : RuleEnv} {p : Det} {d : DatasetMetadata} {w : World} {input : Text}
    (ha : (ParserModel.deterministic env p).AgreesWith d w input) {o : HashOrd} {intent : Text}
    {slots : List InternalSlot} (h : p.Recognises env o w input intent slots) :
    ∀ s ∈ slots, d.Declares intent s.slotName s.entity := by
  obtain ⟨raw, formatted, table, patterns, before, r, after, -, -, -, -, hr⟩ := h
  have key : ∀ text origin, p.Reads env.fns input intent r text origin slots →
      ∀ s ∈ slots, d.Declares intent s.slotName s.entity := by
    rintro text origin ⟨caps, groups, all, -, -, hall, hk⟩ s hs
    obtain ⟨i, hi⟩ := List.mem_iff_getElem?.1 (hk.subset.subset hs)
    obtain ⟨g, -, -, ⟨declared, h1, h2⟩, -⟩ := forall₂_getElem? (List.Forall₂.flip hall) hi
    exact ha.2 intent declared _ _ h1 h2
  rcases hr with h | ⟨-, h⟩
  · exact key _ _ h
  · exact key _ _ h

theorem filler_declared {codec : TagCodec} {f : SlotFiller} {w : World} {input : Text} {slots : List InternalSlot}
    (h : (f.getSlots codec input).run w = .ok slots) : ∀ s ∈ slots, f.mapping.get s.slotName = some s.entity := by
  rcases prob_slots_run (env := ⟨crudeOps, demoFeatEnv, codec⟩) h with rfl | ⟨_, _, _, tags, _, _, _, h⟩
  · intro s hs; cases hs
  · intro s hs
    unfold tagsToSlots at h
    simp only [Outcome.bind_eq, Outcome.bind_ok] at h
    obtain ⟨ranges, -, h⟩ := h
    obtain ⟨a, -, ha⟩ := mapOutcome_source h s hs
    unfold slotRangeToSlot at ha
    simp only [Outcome.bind_eq, Outcome.bind_ok] at ha
    obtain ⟨value, -, entity, he, ha⟩ := ha
    cases ha
    cases hm : f.mapping.get a.slotName with
    | none => rw [hm] at he; cases he
    | some e => rw [hm] at he; cases he; rfl

/-- What one parser answers. -/
theorem parser_declared {m : ParserModel} {d : DatasetMetadata} {w : World} {input : Text} (ha : m.AgreesWith d w input)
    (o : HashOrd) :
    (∀ filter r i, (m.impl.parse o input filter).run w = .ok r → r.intent.name = some i →
      ∀ s ∈ r.slots, d.Declares i s.slotName s.entity) ∧
    ∀ i slots, (m.impl.getSlots o input i).run w = .ok slots → ∀ s ∈ slots, d.Declares i s.slotName s.entity := by
  cases m with
  | lookup env p =>
    refine ⟨fun filter r i h hi => lookup_declared ha (c81_sound env p ha.1 o w input ha.2.1 filter r h i hi).1,
      fun i slots h => ?_⟩
    rcases c09_lookup_own env p o w input i slots h with rfl | hh
    · intro s hs; cases hs
    · exact lookup_declared ha (says_of_hit ha.1 ha.2.1 hh)
  | deterministic env p =>
    refine ⟨fun filter r i h hi => det_declared ha (c62_parse env p ha.1 o w input filter r h i hi), fun i slots h => ?_⟩
    rcases c09_deterministic_own env p ha.1 o w input i slots h with rfl | hh
    · intro s hs; cases hs
    · exact det_declared ha (c62_sound env p ha.1 o w input i slots hh)
  | probabilistic env p =>
    refine ⟨fun filter r i h hi s hs => ?_, fun i slots h s hs => ?_⟩
    · obtain ⟨-, -, h3⟩ := c54_answer env p o w input filter r h
      obtain ⟨f, hf, hg⟩ := h3 i hi
      exact ha i f _ _ hf (filler_declared hg s hs)
    · obtain ⟨h1, h2⟩ := c09_probabilistic env p o w input i
      change (p.getSlots env o input i).run w = _ at h
      cases hf : p.slotFillers.get i with
      | none =>
        obtain ⟨e, he⟩ := h2 (Map.get_none_iff.1 hf)
        rw [he] at h
        cases h
      | some f => exact ha i f _ _ hf (filler_declared ((h1 f hf).symm.trans h) s hs)

theorem sameSlots_declared {d : DatasetMetadata} {i : Text} {slots kept : List InternalSlot} {out : List Slot}
    (hsub : kept.Sublist slots) (hall : List.Forall₂ SameSlot kept out)
    (h : ∀ s ∈ slots, d.Declares i s.slotName s.entity) : ∀ s ∈ out, d.Declares i s.slotName s.entity := by
  intro s hs
  obtain ⟨j, hj⟩ := List.mem_iff_getElem?.1 hs
  obtain ⟨k, hk, hsame⟩ := forall₂_getElem? (List.Forall₂.flip hall) hj
  have := h k (hsub.subset (List.mem_of_getElem? hk))
  obtain ⟨-, -, h1, h2⟩ := hsame
  rw [h1, h2]
  exact this

/-- The slots that are returned for an intent asked for have the entities which the dataset declares for them.  Partial: the
claim is made without the assumption that the placeholders of a look-up table are legible in the query (part of `AgreesWith`),
see `c110_typed_counterexample`. -/
theorem c110_get_slots_partial (d : DatasetMetadata) (names : KindNames) (ps : List ParserModel) (o : HashOrd) (w : World)
    (input intent : Text) (hps : ∀ m ∈ ps, m.AgreesWith d w input) (ns : Nat) (out : List Slot)
    (h : ((Engine.ofParsers d names ps).getSlotsWithAlternatives o input intent ns).run w = .ok out) :
    ∀ s ∈ out, d.Declares intent s.slotName s.entity := by
  by_cases hne : out = []
  · subst hne
    intro s hs
    cases hs
  · obtain ⟨k, slots, -, hk, kept, hsub, hall⟩ := c10_slot_identity_get_slots _ o w input intent ns out h hne
    obtain ⟨m, hm, hr⟩ := parserSlots_of hk
    exact sameSlots_declared hsub hall ((parser_declared (hps m (List.mem_of_getElem? hm)) _).2 intent slots hr)

/-- The slots of an answer have the entities which the dataset declares for them in the intent of the answer; likewise the slots
of the alternatives.  Partial as before. -/
theorem c110_parse_partial (d : DatasetMetadata) (names : KindNames) (ps : List ParserModel) (o : HashOrd) (w : World)
    (input : Text) (hps : ∀ m ∈ ps, m.AgreesWith d w input) (wl bl : Option (List Text)) (ni ns : Nat) (res : ParseResult)
    (h : ((Engine.ofParsers d names ps).parseWithAlternatives o input wl bl ni ns).run w = .ok res) :
    (∀ s ∈ res.slots, ∃ i, res.intent.name = some i ∧ d.Declares i s.slotName s.entity) ∧
    ∀ a ∈ res.alternatives, ∀ s ∈ a.slots, ∃ i, a.intent.name = some i ∧ d.Declares i s.slotName s.entity := by
  constructor
  · intro s hs
    cases hn : res.intent.name with
    | none =>
      obtain ⟨_, -, -, h0, -⟩ := c04_with_alternatives _ o w input wl bl ni ns res h hn
      rw [h0] at hs
      cases hs
    | some i =>
      refine ⟨i, rfl, ?_⟩
      obtain ⟨eff, -, hk⟩ := c10_slot_identity _ o w input wl bl ni ns res h
      obtain ⟨k, r, -, ha, hi, kept, hsub, hall⟩ := hk (List.ne_nil_of_mem hs)
      obtain ⟨m, hm, hr⟩ := parserAnswer_of ha
      rw [hi] at hn
      exact sameSlots_declared hsub hall
        ((parser_declared (hps m (List.mem_of_getElem? hm)) _).1 eff r i hr hn) s hs
  · intro a ha s hs
    obtain ⟨eff, main, _, hmain, h3⟩ := Engine.parseWith_ok h
    rcases h3 with ⟨hni, hres⟩ | ⟨_, ranked, alts, _, hal, rfl⟩
    · have := (c05_zero (Engine.ofParsers d names ps) o w input wl bl ns res).1 (by rw [← hni]; exact h)
      rw [this] at ha
      cases ha
    · obtain ⟨_, hsl⟩ := Engine.alternativesSlots_run _ _ _ _ _ _ _ _ hal
      obtain ⟨j, hj⟩ := List.mem_iff_getElem?.1 (show a ∈ alts from ha)
      have := hsl j a hj
      unfold Engine.alternativeSlots at this
      split at this
      · next i hi => exact ⟨i, hi, c110_get_slots_partial d names ps _ w input i hps ns a.slots this s hs⟩
      · simp only [Prog.run_ret, Outcome.ok.injEq] at this
        rw [← this] at hs
        cases hs

/-- The slot that is extracted on request has the name asked for and the entity that the dataset declares for it, for every
engine. -/
theorem c110_extract (e : Engine) (w : World) (input intent slot : Text) (n : Nat) (s : Slot)
    (h : (e.extractSlotWithAlternatives input intent slot n).run w = .ok (some s)) :
    s.slotName = slot ∧ e.dataset.Declares intent slot s.entity := by
  unfold Engine.extractSlotWithAlternatives at h
  simp only [Prog.bind_eq, Prog.run_bind, Outcome.bind_ok, Prog.run_ofOutcome] at h
  obtain ⟨mapping, hm, entity, he, h⟩ := h
  cases hm' : e.dataset.slotNameMappings.get intent with
  | none => rw [hm'] at hm; cases hm
  | some slots =>
    rw [hm'] at hm
    cases hm
    cases he' : Map.get mapping slot with
    | none => rw [he'] at he; cases he
    | some en =>
      rw [he'] at he
      cases he
      suffices s.slotName = slot ∧ s.entity = entity from ⟨this.1, mapping, hm', by rw [he', this.2]⟩
      split at h
      · simp only [Engine.extractCustomSlot, Prog.run] at h
        split at h
        · simp only [Outcome.ok.injEq] at h
          split at h
          · cases h; exact ⟨rfl, rfl⟩
          · split at h
            · cases h; exact ⟨rfl, rfl⟩
            · cases h
        · cases h
        · cases h
      · simp only [Engine.extractBuiltinSlot, Prog.bind_eq, Prog.run_bind, Outcome.bind_ok, Prog.run_ofOutcome] at h
        obtain ⟨kind, -, h⟩ := h
        simp only [Prog.run] at h
        split at h
        · simp only [Outcome.ok.injEq, Option.map_eq_some_iff] at h
          obtain ⟨b, -, rfl⟩ := h
          exact ⟨rfl, rfl⟩
        · cases h
        · cases h

/-- A placeholder that is typed in the query is taken for an entity in a release build: the table has a sentence with a number
and a drink; typed with the placeholder of a number and a drink, it gets the drink under the name of the slot for the number. -/
theorem c110_typed_counterexample :
    let d : DatasetMetadata := ⟨[("drink".toList, true)],
      [("brew".toList, [("count".toList, "snips/number".toList), ("kind".toList, "drink".toList)]), ("idiom".toList, []),
        ("halt".toList, [])]⟩
    let e := Engine.ofParsers d demoKinds [.lookup { demoEnv with debugAssertions := false } demoLookup]
    demoLookup.Sound ∧
    (e.parse HashOrd.insertion "make %snips/number% tea".toList none none).run ruleWorld
      = .ok ⟨"make %snips/number% tea".toList, ⟨some "brew".toList, 1⟩,
        [⟨"tea".toList, .custom "tea".toList, [], ⟨20, 23⟩, "drink".toList, "count".toList⟩], []⟩ ∧
    ¬ d.Declares "brew".toList "count".toList "drink".toList := by
  refine ⟨demoLookup_sound, by decide +kernel, ?_⟩
  rintro ⟨slots, h1, h2⟩
  have : slots = [("count".toList, "snips/number".toList), ("kind".toList, "drink".toList)] := by
    have h3 : some slots = some [("count".toList, "snips/number".toList), ("kind".toList, "drink".toList)] :=
      h1.symm.trans (by decide +kernel)
    exact Option.some.inj h3
  subst this
  exact absurd h2 (by decide +kernel)

/-- Entities whose names differ in their spaces have the same placeholder: the table has a sentence with a `tea house`, in which
a `teahouse` is found. -/
theorem c110_placeholder_counterexample :
    let d : DatasetMetadata := ⟨[("tea house".toList, true), ("teahouse".toList, true)],
      [("visit".toList, [("place".toList, "tea house".toList), ("brand".toList, "teahouse".toList)])]⟩
    let p : Lookup := ⟨["place".toList, "brand".toList], ["visit".toList],
      [(demoEnv.fns.hashStr "visit %teahouse%".toList, (0, [0]))], StopWords.new false [] [],
      [⟨["visit".toList], [], ["tea house".toList, "teahouse".toList]⟩]⟩
    let w : World := ⟨fun _ _ _ => .ok [], fun _ _ _ => .ok [⟨"ming".toList, "Ming".toList, [], ⟨6, 10⟩, "teahouse".toList⟩]⟩
    ((Engine.ofParsers d demoKinds [.lookup demoEnv p]).parse HashOrd.insertion "visit ming".toList none none).run w
      = .ok ⟨"visit ming".toList, ⟨some "visit".toList, 1⟩,
        [⟨"ming".toList, .custom "Ming".toList, [], ⟨6, 10⟩, "teahouse".toList, "place".toList⟩], []⟩ ∧
    p.keyOf demoEnv "visit".toList ("visit ".toList ++ entityPlaceholder demoEnv.fns "tea house".toList) =
      "visit %teahouse%".toList ∧
    ¬ d.Declares "visit".toList "place".toList "teahouse".toList := by
  refine ⟨by decide +kernel, by decide +kernel, ?_⟩
  rintro ⟨slots, h1, h2⟩
  have : slots = [("place".toList, "tea house".toList), ("brand".toList, "teahouse".toList)] := by
    have h3 : some slots = some [("place".toList, "tea house".toList), ("brand".toList, "teahouse".toList)] :=
      h1.symm.trans (by decide +kernel)
    exact Option.some.inj h3
  subst this
  exact absurd h2 (by decide +kernel)

/-! ### A case -/

theorem demo_kept {kept : List MatchedEntity} {all : List MatchedEntity} (hk : KeptMatches all kept) :
    all = [⟨⟨9, 12⟩, "snips/number".toList⟩, ⟨⟨13, 16⟩, "drink".toList⟩] ∨ all = [] →
    kept.Sublist [⟨⟨9, 12⟩, "snips/number".toList⟩, ⟨⟨13, 16⟩, "drink".toList⟩] := by
  rintro (rfl | rfl)
  · have hs := hk.subset
    have ho := hk.order
    clear hk
    match kept with
    | [] => exact List.nil_sublist _
    | [a] => exact List.singleton_sublist.2 (hs a (by simp))
    | [a, b] =>
      have ha := hs a (by simp)
      have hb := hs b (by simp)
      have hab : a.range.stop ≤ b.range.start := by simpa [Rng.Before] using ho
      simp only [List.mem_cons, List.not_mem_nil, or_false] at ha hb
      rcases ha with rfl | rfl <;> rcases hb with rfl | rfl <;> simp at hab ⊢
    | a :: b :: c :: l =>
      exfalso
      have ha := hs a (by simp)
      have hb := hs b (by simp)
      have hc := hs c (by simp)
      simp only [List.pairwise_cons, List.mem_cons, Rng.Before] at ho
      have h1 := ho.1 b (by simp)
      have h2 := ho.2.1 c (by simp)
      simp only [List.mem_cons, List.not_mem_nil, or_false] at ha hb hc
      rcases ha with rfl | rfl <;> rcases hb with rfl | rfl <;> rcases hc with rfl | rfl <;> simp at h1 h2
  · rw [List.eq_nil_iff_forall_not_mem.2 fun e he => nomatch hk.subset e he]
    exact List.nil_sublist _

/-- The sentences behind the table of the examples. -/
def demoSentences : List AnnotatedSentence :=
  [⟨⟨"make %snips/number% %drink%".toList, 0, [0, 1]⟩, ["snips/number".toList, "drink".toList]⟩,
    ⟨⟨"make two tea".toList, 1, []⟩, []⟩, ⟨⟨"stop".toList, 2, []⟩, []⟩]

theorem demo_legible : demoLookup.Legible demoEnv ruleWorld "make the two tea".toList demoSentences := by
  intro u hu filter key es hr hash
  obtain ⟨scope, hscope, owner, howner, -, all, kept, segs, hm, hk, hseg, hsub, rfl, rfl⟩ := hr
  have hsub' := hsub.trans (demo_kept hk (demo_matches scope hscope all hm))
  rw [← replace_segs demoEnv.fns hseg] at hash
  have ho : ∀ t, demoLookup.keyOf demoEnv owner t = demoLookup.keyOf demoEnv "brew".toList t := by
    intro t
    rfl
  rw [ho] at hash
  generalize entitiesOf segs = es at hsub' hash
  have hes := List.mem_sublists.2 hsub'
  clear hsub hsub' ho
  have hlist : ([⟨⟨9, 12⟩, "snips/number".toList⟩, ⟨⟨13, 16⟩, "drink".toList⟩] : List MatchedEntity).sublists =
      [[], [⟨⟨9, 12⟩, "snips/number".toList⟩], [⟨⟨13, 16⟩, "drink".toList⟩],
        [⟨⟨9, 12⟩, "snips/number".toList⟩, ⟨⟨13, 16⟩, "drink".toList⟩]] := by decide
  rw [hlist] at hes
  simp only [List.mem_cons, List.not_mem_nil, or_false] at hes
  simp only [demoSentences, List.mem_cons, List.not_mem_nil, or_false] at hu
  rcases hu with rfl | rfl | rfl <;> rcases hes with rfl | rfl | rfl | rfl <;>
    first | rfl | exact absurd hash (by decide +kernel)

/-- The dataset, the table, the patterns and a slot filler of the examples agree. -/
example :
    let d : DatasetMetadata := ⟨[("drink".toList, true), (['e'], true)],
      [("brew".toList, [("count".toList, "snips/number".toList), ("kind".toList, "drink".toList)]), ("idiom".toList, []),
        ("halt".toList, []), (['a'], []), (['b'], [(['a'], ['e'])])]⟩
    let ps : List ParserModel := [.lookup demoEnv demoLookup, .deterministic demoEnv demoDet,
      .probabilistic demoEngineEnv ⟨demoClassifier, [(['b'], oneSlotFiller)]⟩]
    (∀ m ∈ ps, m.AgreesWith d ruleWorld "make the two tea".toList) ∧
    ((Engine.ofParsers d demoKinds ps).parse HashOrd.insertion "make the two tea".toList (some ["brew".toList]) none).run
      ruleWorld
      = .ok ⟨"make the two tea".toList, ⟨some "brew".toList, 1⟩,
        [⟨"two".toList, .builtin 2, [], ⟨9, 12⟩, "snips/number".toList, "count".toList⟩,
         ⟨"tea".toList, .custom "tea".toList, [], ⟨13, 16⟩, "drink".toList, "kind".toList⟩], []⟩ := by
  refine ⟨fun m hm => ?_, by decide +kernel⟩
  simp only [List.mem_cons, List.not_mem_nil, or_false] at hm
  rcases hm with rfl | rfl | rfl
  · refine ⟨demoLookup_sound, fun s hs all h e he => ?_, demoSentences, ?_, ?_, demo_legible⟩
    · rcases demo_matches s hs all h with rfl | rfl
      · simp only [List.mem_cons, List.not_mem_nil, or_false] at he
        rcases he with rfl | rfl <;> exact ⟨by simp [Rng.NonEmpty], by decide⟩
      · cases he
    · intro key entry h
      have hm := Map.get_some_mem h
      simp only [demoLookup, List.mem_cons, List.not_mem_nil, or_false, Prod.mk.injEq] at hm
      rcases hm with ⟨rfl, rfl⟩ | ⟨rfl, rfl⟩ | ⟨rfl, rfl⟩
      · exact ⟨⟨"make %snips/number% %drink%".toList, 0, [0, 1]⟩, by simp [demoSentences], rfl, rfl⟩
      · exact ⟨⟨"make two tea".toList, 1, []⟩, by simp [demoSentences], rfl, rfl⟩
      · exact ⟨⟨"stop".toList, 2, []⟩, by simp [demoSentences], rfl, rfl⟩
    · intro u hu intent hi
      simp only [demoSentences, List.mem_cons, List.not_mem_nil, or_false] at hu
      rcases hu with rfl | rfl | rfl
      · cases hi
        refine .cons (fun slot h => ?_) (.cons (fun slot h => ?_) .nil) <;> cases h
        · exact ⟨_, rfl, rfl⟩
        · exact ⟨_, rfl, rfl⟩
      · exact .nil
      · exact .nil
  · refine ⟨demoDet_built, fun intent slots slot entity h1 h2 => ?_⟩
    have hm1 := Map.get_some_mem h1
    simp only [demoDet, List.mem_cons, List.not_mem_nil, or_false, Prod.mk.injEq] at hm1
    rcases hm1 with ⟨rfl, rfl⟩ | ⟨rfl, rfl⟩ | ⟨rfl, rfl⟩
    · exact ⟨_, rfl, h2⟩
    · cases h2
    · cases h2
  · intro intent filler slot entity h1 h2
    have hm1 := Map.get_some_mem h1
    simp only [List.mem_cons, List.not_mem_nil, or_false, Prod.mk.injEq] at hm1
    obtain ⟨rfl, rfl⟩ := hm1
    exact ⟨_, rfl, h2⟩

end Snips
