import Verif.Proofs.Renaming
import Verif.Props.C63_Reproducible

/-! # C105: the names of the intents are only names -/

namespace Snips

/-- Give other names to the intents of an engine, different ones to different intents, everywhere they occur in its files.
Every call, with the intents it names renamed, then ends as before with the intents renamed, whatever the entity parsers find:
with the same answer, with the same error (naming the renamed intent if it names one), or with a panic. -/
theorem c105_call (f : Text → Text) (hf : Function.Injective f) (dataset : DatasetMetadata) (names : KindNames)
    (ps : List ParserModel) (call : EngineCall) (hb : call.Blind) (w : World) :
    Outcome.Renamed f (EngineAnswer.rename f) (((Engine.ofParsers dataset names ps).code call).run w)
      (((Engine.ofParsers (dataset.rename f) names (ps.map (·.rename f))).code (call.rename f)).run w) :=
  ((ofParsers_alike hf dataset names ps).code hf call hb).run w

/-- The same for any sequence of calls on one engine with its caches, which end up with the same entries. -/
theorem c105_history (f : Text → Text) (hf : Function.Injective f) (dataset : DatasetMetadata) (names : KindNames)
    (ps : List ParserModel) (calls : List (Nat × EngineCall)) (hb : ∀ c ∈ calls, c.2.Blind) (x : Ext) (caches : Caches) :
    let before := runHistory x (calls.map fun c => (c.1, (Engine.ofParsers dataset names ps).code c.2)) caches
    let after := runHistory x (calls.map fun c =>
      (c.1, (Engine.ofParsers (dataset.rename f) names (ps.map (·.rename f))).code (c.2.rename f))) caches
    List.Forall₂ (Outcome.Renamed f (EngineAnswer.rename f)) before.1 after.1 ∧ after.2 = before.2 := by
  refine history_alike x _ _ ?_ caches
  rw [List.forall₂_map_left_iff, List.forall₂_map_right_iff]
  exact List.forall₂_same.2 fun c hc => ⟨rfl, (ofParsers_alike hf dataset names ps).code hf c.2 (hb c hc)⟩

/-- What makes a parser independent of iteration orders does not depend on names. -/
theorem reproducible_rename {f : Text → Text} (hf : Function.Injective f) {w : World} {input : Text} {m : ParserModel}
    (h : m.Reproducible w input) : (m.rename f).Reproducible w input := by
  cases m with
  | lookup env p => exact ⟨h.1, h.2.map hf⟩
  | probabilistic env p => trivial
  | deterministic env p =>
    obtain ⟨hrd, hbuilt, hnd, hsm⟩ := h
    refine ⟨hrd, ⟨?_, ?_⟩, ?_, ?_⟩
    · show p.scopes.renameKeys f = detScopes env.names (p.slotEntities.renameKeys f)
      rw [hbuilt.scopes]
      simp only [Map.renameKeys, detScopes, List.map_map]
      rfl
    · show (p.slotEntities.renameKeys f).keys.Nodup
      rw [Map.keys_renameKeys]
      exact hbuilt.nodup.map hf
    · show (p.regexes.renameKeys f).keys.Nodup
      rw [Map.keys_renameKeys]
      exact hnd.map hf
    · intro s hs bs cs hbs hcs
      obtain ⟨s', hs', rfl⟩ := List.mem_map.1 hs
      exact hsm s' hs' bs cs hbs hcs

theorem HashOrd.insertion_blind : HashOrd.insertion.Blind := fun _ _ _ _ _ => rfl

/-- Hash maps may well be iterated in another order once their keys have changed.  For parsers whose answers do not depend on
it (C63), the parse of the renamed engine is the renamed parse whatever the two orders are. -/
theorem c105_parse (f : Text → Text) (hf : Function.Injective f) (dataset : DatasetMetadata) (names : KindNames)
    (ps : List ParserModel) (o o' : HashOrd) (w : World) (input : Text) (hps : ∀ m ∈ ps, m.Reproducible w input)
    (whitelist blacklist : Option (List Text)) (ns : Nat) (res : ParseResult)
    (h : ((Engine.ofParsers dataset names ps).parseWithAlternatives o input whitelist blacklist 0 ns).run w = .ok res) :
    ((Engine.ofParsers (dataset.rename f) names (ps.map (·.rename f))).parseWithAlternatives o' input
      (whitelist.map (·.map f)) (blacklist.map (·.map f)) 0 ns).run w = .ok (res.rename f) := by
  have h1 := c63_parse dataset names ps o HashOrd.insertion w input hps whitelist blacklist ns res h
  have h2 := ((ofParsers_alike hf dataset names ps).parseWith hf HashOrd.insertion_blind input whitelist blacklist 0 ns).run w
  rw [h1] at h2
  refine c63_parse _ names _ HashOrd.insertion o' w input ?_ _ _ ns _ ?_
  · intro m hm
    obtain ⟨m', hm', rfl⟩ := List.mem_map.1 hm
    exact reproducible_rename hf (hps m' hm')
  · revert h2
    generalize ((Engine.ofParsers (dataset.rename f) names (ps.map (·.rename f))).parseWithAlternatives HashOrd.insertion input
      (whitelist.map (·.map f)) (blacklist.map (·.map f)) 0 ns).run w = out
    intro h2
    cases h2
    rfl

/-- And so are the slots of the renamed intent. -/
theorem c105_slots (f : Text → Text) (hf : Function.Injective f) (dataset : DatasetMetadata) (names : KindNames)
    (ps : List ParserModel) (o o' : HashOrd) (w : World) (input : Text) (hps : ∀ m ∈ ps, m.Reproducible w input)
    (intent : Text) (ns : Nat) (slots : List Slot)
    (h : ((Engine.ofParsers dataset names ps).getSlotsWithAlternatives o input intent ns).run w = .ok slots) :
    ((Engine.ofParsers (dataset.rename f) names (ps.map (·.rename f))).getSlotsWithAlternatives o' input
      (f intent) ns).run w = .ok slots := by
  have h1 := c63_slots dataset names ps o HashOrd.insertion w input hps intent ns slots h
  have ha := ofParsers_alike hf dataset names ps
  have h2 := (ha.slotsCascade HashOrd.insertion_blind input intent ns ha.parsers 0).run w
  change Outcome.Renamed f id (((Engine.ofParsers dataset names ps).getSlotsWithAlternatives HashOrd.insertion input intent ns).run w)
    (((Engine.ofParsers (dataset.rename f) names (ps.map (·.rename f))).getSlotsWithAlternatives HashOrd.insertion input
      (f intent) ns).run w) at h2
  rw [h1] at h2
  refine c63_slots _ names _ HashOrd.insertion o' w input ?_ _ ns _ ?_
  · intro m hm
    obtain ⟨m', hm', rfl⟩ := List.mem_map.1 hm
    exact reproducible_rename hf (hps m' hm')
  · revert h2
    generalize ((Engine.ofParsers (dataset.rename f) names (ps.map (·.rename f))).getSlotsWithAlternatives HashOrd.insertion input
      (f intent) ns).run w = out
    intro h2
    cases h2
    rfl

theorem unknown_filter {e : Engine} {o : HashOrd} {w : World} {input : Text} {wl bl : Option (List Text)} {ni ns : Nat}
    {pre post : List Text} {u : Text} (hm : wl.getD [] ++ bl.getD [] = pre ++ u :: post)
    (hpre : ∀ i ∈ pre, i ∈ e.dataset.slotNameMappings.keys) (hu : u ∉ e.dataset.slotNameMappings.keys) :
    (e.parseWithAlternatives o input wl bl ni ns).run w = .err (.unknownFilterIntent u) := by
  unfold Engine.parseWithAlternatives Engine.getIntentsWhitelist
  have hfind : (wl.getD [] ++ bl.getD []).find? (fun i => !e.dataset.slotNameMappings.keys.contains i) = some u := by
    rw [hm, List.find?_append, List.find?_eq_none.2 fun i hi => by simpa using hpre i hi]
    simp [hu]
  simp only [hfind]
  rfl

/-- The errors on unknown intents, exactly.  With a filter that names unknown intents the error names the first of them; the
extraction of a slot of an unknown intent names that intent: with the renamed engine, the renamed ones. -/
theorem c105_unknown (f : Text → Text) (hf : Function.Injective f) (dataset : DatasetMetadata) (names : KindNames)
    (ps : List ParserModel) (o : HashOrd) (w : World) (input : Text) (ni ns : Nat) :
    let e := Engine.ofParsers dataset names ps
    let e' := Engine.ofParsers (dataset.rename f) names (ps.map (·.rename f))
    (∀ (wl bl : Option (List Text)) (known rest : List Text) (unknown : Text), wl.getD [] ++ bl.getD [] = known ++ unknown :: rest →
      (∀ i ∈ known, i ∈ dataset.slotNameMappings.keys) → unknown ∉ dataset.slotNameMappings.keys →
      (e.parseWithAlternatives o input wl bl ni ns).run w = .err (.unknownFilterIntent unknown) ∧
      (e'.parseWithAlternatives o input (wl.map (·.map f)) (bl.map (·.map f)) ni ns).run w =
        .err (.unknownFilterIntent (f unknown))) ∧
    (∀ intent slot : Text, intent ∉ dataset.slotNameMappings.keys →
      (e.extractSlotWithAlternatives input intent slot ns).run w = .err (.extractUnknownIntent intent) ∧
      (e'.extractSlotWithAlternatives input (f intent) slot ns).run w = .err (.extractUnknownIntent (f intent))) := by
  intro e e'
  have hkeys : e'.dataset.slotNameMappings.keys = dataset.slotNameMappings.keys.map f := Map.keys_renameKeys _
  refine ⟨fun wl bl known rest unknown hm hk hu => ⟨unknown_filter hm hk hu, ?_⟩, fun intent slot hi => ⟨?_, ?_⟩⟩
  · refine unknown_filter (pre := known.map f) (post := rest.map f) ?_ ?_ ?_
    · have := congrArg (List.map f) hm
      cases wl <;> cases bl <;> simp at this ⊢ <;> exact this
    · intro i hi
      obtain ⟨j, hj, rfl⟩ := List.mem_map.1 hi
      rw [hkeys]
      exact List.mem_map_of_mem (hk j hj)
    · rw [hkeys, List.mem_map_of_injective hf]
      exact hu
  · unfold Engine.extractSlotWithAlternatives
    rw [show e.dataset.slotNameMappings.get intent = none from Map.get_none_iff.2 hi]
    rfl
  · unfold Engine.extractSlotWithAlternatives
    rw [show e'.dataset.slotNameMappings.get (f intent) = none from
      Map.get_none_iff.2 (by rw [hkeys, List.mem_map_of_injective hf]; exact hi)]
    rfl

/-- The names given must differ: with one name for all, the ranking is not the renamed one (it has two entries instead of four). -/
theorem c105_distinct_needed :
    ∃ (f : Text → Text) (ps : List ParserModel) (call : EngineCall), call.Blind ∧
      ¬ Outcome.Renamed f (EngineAnswer.rename f) (((Engine.ofParsers ⟨[], []⟩ demoKinds ps).code call).run ruleWorld)
        (((Engine.ofParsers (DatasetMetadata.rename f ⟨[], []⟩) demoKinds (ps.map (·.rename f))).code (call.rename f)).run ruleWorld) := by
  refine ⟨fun _ => [], [.lookup demoEnv demoLookup], .intents HashOrd.insertion [], HashOrd.insertion_blind, ?_⟩
  have h1 : ((Engine.ofParsers ⟨[], []⟩ demoKinds [.lookup demoEnv demoLookup]).getIntents HashOrd.insertion []).run ruleWorld =
      .ok [⟨some "brew".toList, 0⟩, ⟨some "idiom".toList, 0⟩, ⟨some "halt".toList, 0⟩, ⟨none, 0⟩] := by
    decide +kernel
  have h2 : ((Engine.ofParsers ⟨[], []⟩ demoKinds [.lookup demoEnv (demoLookup.rename fun _ => [])]).getIntents
      HashOrd.insertion []).run ruleWorld = .ok [⟨some [], 0⟩, ⟨none, 0⟩] := by
    decide +kernel
  intro h
  have e1 : ((Engine.ofParsers ⟨[], []⟩ demoKinds [.lookup demoEnv demoLookup]).code (.intents HashOrd.insertion [])).run ruleWorld =
      .ok (.intents [⟨some "brew".toList, 0⟩, ⟨some "idiom".toList, 0⟩, ⟨some "halt".toList, 0⟩, ⟨none, 0⟩]) :=
    Prog.run_bind_ok.2 ⟨_, h1, rfl⟩
  have e2 : ((Engine.ofParsers ⟨[], []⟩ demoKinds [.lookup demoEnv (demoLookup.rename fun _ => [])]).code
      (.intents HashOrd.insertion [])).run ruleWorld = .ok (.intents [⟨some [], 0⟩, ⟨none, 0⟩]) :=
    Prog.run_bind_ok.2 ⟨_, h2, rfl⟩
  rw [e1] at h
  change Outcome.Renamed _ _ _ (((Engine.ofParsers ⟨[], []⟩ demoKinds [.lookup demoEnv (demoLookup.rename fun _ => [])]).code
      (.intents HashOrd.insertion [])).run ruleWorld) at h
  rw [e2] at h
  generalize hr : (EngineAnswer.intents [⟨some [], 0⟩, ⟨none, 0⟩]) = r at h
  cases h
  simp [EngineAnswer.rename] at hr


/-- `c105_call`, `c105_parse`: the intents of the demonstration engine with a prime added to their names. -/
example :
    let f : Text → Text := fun t => t ++ "′".toList
    let dataset : DatasetMetadata :=
      ⟨[("drink".toList, false)], [("brew".toList, []), ("idiom".toList, []), ("halt".toList, [])]⟩
    let e' := Engine.ofParsers (dataset.rename f) demoKinds
      ([ParserModel.deterministic demoEnv demoDet, .lookup demoEnv demoLookup].map (·.rename f))
    Function.Injective f ∧
    (e'.parseWithAlternatives HashOrd.insertion "make the two tea".toList none (some ["idiom′".toList]) 0 0).run ruleWorld
      = .ok ⟨"make the two tea".toList, ⟨some "brew′".toList, 1⟩,
        [⟨"two".toList, .builtin 2, [], ⟨9, 12⟩, "snips/number".toList, "count".toList⟩], []⟩ ∧
    (e'.parseWithAlternatives HashOrd.insertion "make the two tea".toList none (some ["idiom".toList]) 0 0).run ruleWorld
      = .err (.unknownFilterIntent "idiom".toList) ∧
    (e'.getIntents HashOrd.insertion "make the two tea".toList).run ruleWorld
      = .ok [⟨some "idiom′".toList, 3 / 4⟩, ⟨some "brew′".toList, 1 / 3⟩, ⟨some "halt′".toList, 0⟩, ⟨none, 0⟩] :=
  ⟨fun a b h => List.append_cancel_right h, by decide +kernel⟩

end Snips
