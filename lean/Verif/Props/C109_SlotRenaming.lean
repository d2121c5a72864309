import Verif.Proofs.SlotRenaming
import Verif.Props.C01_Engine
import Verif.Props.C105_Renaming

/-! # C109: the names of the slots are only names -/

namespace Snips

/-- Give other names to the slots of an engine, different ones to different slots, everywhere they occur in its files, and
let the taggers be trained with them.  Every call, with the slot it names renamed, then ends as before with the slots
renamed, whatever the entity parsers find: with the same answer, with the same error (naming the renamed slot if it is
about an unknown slot), or with a panic. -/
theorem c109_call (f : Text → Text) (hf : Function.Injective f) (dataset : DatasetMetadata) (names : KindNames)
    (ps qs : List ParserModel) (hps : List.Forall₂ (ParserModel.SlotsRenamed f) ps qs) (call : EngineCall) (hb : call.Blind)
    (w : World) :
    Outcome.SlotsRenamed f (((Engine.ofParsers dataset names ps).code call).run w)
      (((Engine.ofParsers (dataset.renameSlots f) names qs).code (call.renameSlots f)).run w) := by
  rcases SlotNames.code hf (SlotNames.ofParsers hf dataset names hps) call hb with h | ⟨s, h1, h2⟩
  · exact SlotNames.ends (h.run w)
  · rw [h1, h2]
    exact .unknown s

/-- The same for any sequence of calls on one engine with its caches, which end up with the same entries. -/
theorem c109_history (f : Text → Text) (hf : Function.Injective f) (dataset : DatasetMetadata) (names : KindNames)
    (ps qs : List ParserModel) (hps : List.Forall₂ (ParserModel.SlotsRenamed f) ps qs) (calls : List (Nat × EngineCall))
    (hb : ∀ c ∈ calls, c.2.Blind) (x : Ext) (caches : Caches) :
    let before := runHistory x (calls.map fun c => (c.1, (Engine.ofParsers dataset names ps).code c.2)) caches
    let after := runHistory x (calls.map fun c =>
      (c.1, (Engine.ofParsers (dataset.renameSlots f) names qs).code (c.2.renameSlots f))) caches
    List.Forall₂ (Outcome.SlotsRenamed f) before.1 after.1 ∧ after.2 = before.2 :=
  SlotNames.history hf (SlotNames.ofParsers hf dataset names hps) x calls hb caches

/-- What makes a parser independent of iteration orders does not depend on the names of slots. -/
theorem reproducible_renameSlots {f : Text → Text} {w : World} {input : Text} {m m' : ParserModel}
    (hm : m.SlotsRenamed f m') (h : m.Reproducible w input) : m'.Reproducible w input := by
  cases hm with
  | lookup env p => exact h
  | probabilistic env p => trivial
  | deterministic env p =>
    obtain ⟨hrd, hbuilt, hnd, hsm⟩ := h
    refine ⟨hrd, ⟨?_, ?_⟩, hnd, hsm⟩
    · show p.scopes = detScopes env.names (p.slotEntities.map fun e => (e.1, e.2.renameKeys f))
      rw [hbuilt.scopes]
      simp only [Map.renameKeys, detScopes, List.map_map, Function.comp_def, List.filterMap_map]
    · show Map.keys (p.slotEntities.map fun e => (e.1, e.2.renameKeys f)) |>.Nodup
      have := hbuilt.nodup
      simpa [Map.keys, List.map_map, Function.comp_def] using this

/-- Whatever the orders of iteration of the two engines are: for parsers whose answers do not depend on them (C63), the
parse of the renamed engine is the renamed parse. -/
theorem c109_parse (f : Text → Text) (hf : Function.Injective f) (dataset : DatasetMetadata) (names : KindNames)
    (ps qs : List ParserModel) (hr : List.Forall₂ (ParserModel.SlotsRenamed f) ps qs) (o o' : HashOrd) (w : World)
    (input : Text) (hps : ∀ m ∈ ps, m.Reproducible w input) (whitelist blacklist : Option (List Text)) (ns : Nat)
    (res : ParseResult)
    (h : ((Engine.ofParsers dataset names ps).parseWithAlternatives o input whitelist blacklist 0 ns).run w = .ok res) :
    ((Engine.ofParsers (dataset.renameSlots f) names qs).parseWithAlternatives o' input whitelist blacklist 0 ns).run w =
      .ok (res.renameSlots f) := by
  have h1 := c63_parse dataset names ps o HashOrd.insertion w input hps whitelist blacklist ns res h
  have h2 := (SlotNames.parseWith (SlotNames.ofParsers hf dataset names hr) HashOrd.insertion_blind input whitelist blacklist
    0 ns).run w
  rw [h1] at h2
  refine c63_parse _ names _ HashOrd.insertion o' w input ?_ _ _ ns _ ?_
  · intro q hq
    clear h h1 h2
    induction hr with
    | nil => cases hq
    | @cons a b l l' hab _ ih =>
      rcases List.mem_cons.1 hq with rfl | hq
      · exact reproducible_renameSlots hab (hps a List.mem_cons_self)
      · exact ih (fun m hm => hps m (List.mem_cons_of_mem _ hm)) hq
  · revert h2
    generalize ((Engine.ofParsers (dataset.renameSlots f) names qs).parseWithAlternatives HashOrd.insertion input
      whitelist blacklist 0 ns).run w = out
    intro h2
    cases h2
    rfl

/-- The error on an unknown slot, exactly: it names the slot asked for, with the renamed engine under the new name. -/
theorem c109_unknown (f : Text → Text) (hf : Function.Injective f) (dataset : DatasetMetadata) (names : KindNames)
    (ps qs : List ParserModel) (w : World) (input intent slot : Text) (n : Nat) (slots : Map Text Text)
    (hi : dataset.slotNameMappings.get intent = some slots) (hs : slot ∉ slots.keys) :
    ((Engine.ofParsers dataset names ps).extractSlotWithAlternatives input intent slot n).run w =
      .err (.extractUnknownSlot slot) ∧
    ((Engine.ofParsers (dataset.renameSlots f) names qs).extractSlotWithAlternatives input intent (f slot) n).run w =
      .err (.extractUnknownSlot (f slot)) := by
  have hg := Map.get_mapBoth (h := (id : Text → Text)) Function.injective_id (Map.renameKeys (ν := Text) f)
    dataset.slotNameMappings intent
  rw [hi] at hg
  have hg' : (Engine.ofParsers (dataset.renameSlots f) names qs).dataset.slotNameMappings.get intent =
      some (slots.renameKeys f) := hg
  have hnone := Map.get_none_iff.2 hs
  rw [SlotNames.extract_eq, SlotNames.extract_eq, hg',
    show (Engine.ofParsers dataset names ps).dataset.slotNameMappings.get intent = some slots from hi]
  simp only [Outcome.ofOption, Prog.ofOutcome, Prog.bind, Map.get_renameKeys hf, hnone]
  exact ⟨rfl, rfl⟩

/-- A tag with its slot renamed. -/
def renameTag (f : Text → Text) (tag : Text) : Text := if tag = ['O'] then tag else tag.take 2 ++ f (tag.drop 2)

/-- For every slot filler whose tags are tags there is one that says the same with the other names. -/
theorem c109_exists (codec : TagCodec) (hc : ∀ t, codec.decode (codec.encode t) = .ok t) (f : Text → Text) (a : SlotFiller)
    (ha : ∀ t, a.tagger = some t → ∀ features tags, (t.tag features).bind (mapOutcome codec.decode) = .ok tags →
      ∀ tag ∈ tags, tag = ['O'] ∨ 2 ≤ tag.length) :
    ∃ b, a.SlotsRenamed codec f b := by
  refine ⟨{ a with
    mapping := a.mapping.renameKeys f
    tagger := a.tagger.map fun t =>
      ⟨fun features => ((t.tag features).bind (mapOutcome codec.decode)).bind fun tags =>
        .ok (tags.map fun tag => codec.encode (renameTag f tag)), t.labels, t.probability⟩ }, rfl, rfl, rfl, rfl, ?_⟩
  intro features
  cases ht : a.tagger with
  | none => exact .none
  | some t =>
    refine .some ?_
    simp only
    have hwf := ha t ht features
    revert hwf
    generalize (t.tag features).bind (mapOutcome codec.decode) = out
    intro hwf
    cases out with
    | err e => exact .err e
    | panic => exact .panic
    | ok tags =>
      have hd : ∀ l : List Text, mapOutcome codec.decode (l.map fun tag => codec.encode (renameTag f tag)) =
          .ok (l.map (renameTag f)) := by
        intro l
        induction l with
        | nil => rfl
        | cons x l ih => simp [mapOutcome, hc, ih]
      show SameOutcome _ _ (mapOutcome codec.decode _)
      rw [hd]
      refine .ok ?_
      rw [List.forall₂_map_right_iff]
      refine List.forall₂_same.2 fun tag htag => ?_
      unfold TagRenamed renameTag
      rcases hwf tags rfl tag htag with rfl | hl
      · simp
      · have hne : tag ≠ ['O'] := by rintro rfl; simp at hl
        have h2 : (tag.take 2).length = 2 := by simp [hl]
        rw [if_neg hne]
        exact ⟨by rw [List.take_append_of_le_length (by omega), List.take_of_length_le (by omega)],
          fun _ => by rw [List.drop_append_of_le_length (by omega), List.drop_of_length_le (by omega)]; rfl⟩

/-- The names given must differ: with one name for all, the slot asked for is taken for another one, of another entity. -/
theorem c109_distinct_needed :
    ∃ (f : Text → Text) (dataset : DatasetMetadata) (call : EngineCall), call.Blind ∧
      ¬ Outcome.SlotsRenamed f (((Engine.ofParsers dataset demoKinds []).code call).run ruleWorld)
        (((Engine.ofParsers (dataset.renameSlots f) demoKinds []).code (call.renameSlots f)).run ruleWorld) := by
  refine ⟨fun _ => [], ⟨[("city".toList, true), ("drink".toList, true)],
    [("brew".toList, [("place".toList, "city".toList), ("kind".toList, "drink".toList)])]⟩,
    .extract [] "brew".toList "kind".toList 0, trivial, ?_⟩
  have h1 : (((Engine.ofParsers ⟨[("city".toList, true), ("drink".toList, true)],
      [("brew".toList, [("place".toList, "city".toList), ("kind".toList, "drink".toList)])]⟩ demoKinds []).code
      (.extract [] "brew".toList "kind".toList 0)).run ruleWorld) =
      .ok (.extract (some ⟨[], .custom [], [], ⟨0, 0⟩, "drink".toList, "kind".toList⟩)) := by rfl
  have h2 : (((Engine.ofParsers (DatasetMetadata.renameSlots (fun _ => []) ⟨[("city".toList, true), ("drink".toList, true)],
      [("brew".toList, [("place".toList, "city".toList), ("kind".toList, "drink".toList)])]⟩) demoKinds []).code
      (EngineCall.renameSlots (fun _ => []) (.extract [] "brew".toList "kind".toList 0))).run ruleWorld) =
      .ok (.extract (some ⟨[], .custom [], [], ⟨0, 0⟩, "city".toList, []⟩)) := by rfl
  rw [h1, h2]
  generalize hr : EngineAnswer.extract (some ⟨[], .custom [], [], ⟨0, 0⟩, "city".toList, []⟩) = r
  intro h
  cases h
  simp [EngineAnswer.renameSlots, Slot.renameSlot] at hr

/-- A slot filler that marks the first word of a sentence as a slot. -/
def firstWordFiller (slot : Text) : SlotFiller where
  fns := ruleFns
  scheme := .bio
  tagger := some ⟨fun fs => .ok (fs.map fun l => if l.isEmpty then "O".toList else "B-".toList ++ slot), .ok [], fun _ _ => .ok 0⟩
  processor := some [⟨.isFirst, [0]⟩]
  mapping := [(slot, "drink".toList)]

/-- `c109_call`, `c109_parse`: a deterministic and a probabilistic parser with primes added to the names of their slots. -/
example :
    let f : Text → Text := fun t => t ++ "′".toList
    let dataset : DatasetMetadata := ⟨[("drink".toList, true)],
      [("brew".toList, [("count".toList, "snips/number".toList), ("kind".toList, "drink".toList)]), ("idiom".toList, []),
        ("halt".toList, [])]⟩
    let c : Classifier := ⟨[some "brew".toList], none, none⟩
    let ps (slot : Text) (d : Det) : List ParserModel :=
      [.deterministic demoEnv d, .probabilistic demoEngineEnv ⟨c, [("brew".toList, firstWordFiller slot)]⟩]
    let e' := Engine.ofParsers (dataset.renameSlots f) demoKinds (ps "kind′".toList (demoDet.renameSlots f))
    Function.Injective f ∧
    List.Forall₂ (ParserModel.SlotsRenamed f) (ps "kind".toList demoDet) (ps "kind′".toList (demoDet.renameSlots f)) ∧
    (e'.parse HashOrd.insertion "make the two tea".toList none (some ["idiom".toList])).run ruleWorld
      = .ok ⟨"make the two tea".toList, ⟨some "brew".toList, 1⟩,
        [⟨"two".toList, .builtin 2, [], ⟨9, 12⟩, "snips/number".toList, "count′".toList⟩], []⟩ ∧
    (e'.parse HashOrd.insertion "cocoa please".toList none none).run ruleWorld
      = .ok ⟨"cocoa please".toList, ⟨some "brew".toList, 1⟩,
        [⟨"cocoa".toList, .custom "cocoa".toList, [], ⟨0, 5⟩, "drink".toList, "kind′".toList⟩], []⟩ ∧
    (e'.extractSlot "cocoa".toList "brew".toList "kind".toList).run ruleWorld
      = .err (.extractUnknownSlot "kind".toList) := by
  refine ⟨fun a b h => List.append_cancel_right h, .cons (.deterministic _ _) (.cons (.probabilistic _ _ _ rfl ?_) .nil), ?_⟩
  · refine .cons ⟨rfl, rfl, rfl, rfl, rfl, fun features => .some ?_⟩ .nil
    show SameOutcome _ (mapOutcome _ _) (mapOutcome _ _)
    have hd : ∀ (slot : Text) (fs : List (List (Text × Text))), mapOutcome demoEngineEnv.codec.decode
        (fs.map fun l => if l.isEmpty then "O".toList else "B-".toList ++ slot) =
        .ok (fs.map fun l => if l.isEmpty then "O".toList else "B-".toList ++ slot) := by
      intro slot fs
      induction fs with
      | nil => rfl
      | cons x l ih =>
        rw [List.map_cons, mapOutcome, ih]
        rfl
    rw [hd, hd]
    refine .ok ?_
    rw [List.forall₂_map_left_iff, List.forall₂_map_right_iff]
    refine List.forall₂_same.2 fun l _ => ?_
    cases l.isEmpty
    · exact ⟨rfl, fun _ => rfl⟩
    · exact ⟨rfl, fun h => absurd rfl h⟩
  · decide +kernel

end Snips
