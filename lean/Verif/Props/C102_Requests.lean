import Verif.Proofs.Requests
import Verif.Props.C101_Extracting

/-! # C102: how many different things an engine asks about a query is bounded by its model -/

namespace Snips

/-- All calls to an engine about one query ask the caching builtin parser for no more different things than the model has entity
scopes, vectorizers and features for builtin entities, whatever the extractors answer and the length of the query. -/
theorem c102_builtin (x : Ext) (dataset : DatasetMetadata) (names : KindNames) (ps : List ParserModel) (input : Text) :
    ∃ keys : List (CacheKey Kind), keys.length ≤ (ps.map ParserModel.builtinAsks).sum ∧
      ∀ (call : EngineCall), call.input = input → ∀ (t : Nat) (caches : Caches),
        ∀ a ∈ ((Engine.ofParsers dataset names ps).code call).accesses x t caches, ∀ k, a.key = .inl k → k ∈ keys := by
  refine ⟨(ps.flatMap fun p => p.builtinList input).map fun r => ⟨x.lower r.1, r.2, 0⟩, ?_, ?_⟩
  · rw [List.length_map, List.length_flatMap]
    refine Nat.le_of_eq (congrArg List.sum (List.map_congr_left fun p _ => builtinList_length input p))
  · rintro call rfl t caches a ha k hk
    have := code_asks (B := fun s kinds => (s, kinds) ∈ ps.flatMap fun p => p.builtinList call.input) (C := fun _ _ _ => True)
      dataset names ps call (fun p hp r hr => List.mem_flatMap.2 ⟨p, hp, hr⟩) (fun _ _ _ => trivial)
    obtain ⟨s, hs, hk'⟩ := (this.accesses x t caches a ha).1 k hk
    exact List.mem_map.2 ⟨_, hs, hk'.symm⟩

/-- The same for what its parsers ask of the caching custom parser. -/
theorem c102_custom (x : Ext) (ps : List ParserModel) (input : Text) :
    ∃ keys : List (CacheKey Text), keys.length ≤ (ps.map ParserModel.customAsks).sum ∧
      ∀ p ∈ ps, ∀ (o : HashOrd) (t : Nat) (caches : Caches) (a : Access),
        ((∃ whitelist, a ∈ (p.impl.parse o input whitelist).accesses x t caches) ∨ a ∈ (p.impl.getIntents o input).accesses x t caches ∨
          ∃ intent, a ∈ (p.impl.getSlots o input intent).accesses x t caches) →
        ∀ k, a.key = .inr k → k ∈ keys := by
  refine ⟨(ps.flatMap fun p => p.customList input).map fun r => ⟨x.lower r.1, r.2, 0⟩, ?_, ?_⟩
  · rw [List.length_map, List.length_flatMap]
    refine Nat.le_of_eq (congrArg List.sum (List.map_congr_left fun p _ => customList_length input p))
  · intro p hp o t caches a ha k hk
    obtain ⟨h1, h2, h3⟩ := parser_asks (B := fun _ _ => True)
      (C := fun s kinds n => (s, kinds) ∈ (ps.flatMap fun p => p.customList input) ∧ n = 0) input p (fun _ _ => trivial)
      (fun r hr => ⟨List.mem_flatMap.2 ⟨p, hp, hr⟩, rfl⟩)
    have : ∃ s, ((s, k.kinds) ∈ (ps.flatMap fun p => p.customList input) ∧ k.maxAlt = 0) ∧ k = ⟨x.lower s, k.kinds, k.maxAlt⟩ := by
      rcases ha with ⟨wl, ha⟩ | ha | ⟨intent, ha⟩
      · exact ((h1 o wl).accesses x t caches a ha).2 k hk
      · exact ((h2 o).accesses x t caches a ha).2 k hk
      · exact ((h3 o intent).accesses x t caches a ha).2 k hk
    obtain ⟨s, ⟨hs, hn⟩, hk'⟩ := this
    refine List.mem_map.2 ⟨_, hs, ?_⟩
    rw [hk']
    simp [hn]

/-- To resolve slots, the engine makes one request for the query and at most one for each slot. -/
theorem c102_resolve (x : Ext) (e : Engine) (text : Text) (slots : List InternalSlot) (n t : Nat) (caches : Caches) :
    ((e.resolveSlots text slots n).accesses x t caches).length ≤ 1 + slots.length :=
  resolveSlots_few x t e text n slots caches

/-- So a cache that has room for the model extracts each builtin request about a query once, over any calls about it, whatever was
asked before. -/
theorem c102_kept (x : Ext) (hnp : x.NoPanic) (dataset : DatasetMetadata) (names : KindNames) (ps : List ParserModel) (cap : Nat)
    (hcap : 0 < cap) (hroom : (ps.map ParserModel.builtinAsks).sum ≤ cap) (before calls : List (Nat × EngineCall)) (input : Text)
    (hinput : ∀ c ∈ calls, c.2.input = input) (pre post : List Access) (a : Access)
    (h : historyAccesses x (calls.map fun c => (c.1, (Engine.ofParsers dataset names ps).code c.2))
        (runHistory x (before.map fun c => (c.1, (Engine.ofParsers dataset names ps).code c.2)) (Caches.empty cap)).2 = pre ++ a :: post)
    (hbuiltin : ∃ k, a.key = .inl k) (hseen : ∃ b ∈ pre, b.answered = true ∧ b.key = a.key) : a.extracted = false := by
  obtain ⟨keys, hlen, hkeys⟩ := c102_builtin x dataset names ps input
  have hw := runHistory_well hnp hcap (before.map fun c => (c.1, (Engine.ofParsers dataset names ps).code c.2)) _ (empty_well cap)
  have ho := historyAccesses_onceBuiltin hnp (Nat.le_trans hlen hroom)
    (calls.map fun c => (c.1, (Engine.ofParsers dataset names ps).code c.2)) [] _ ⟨[], hw.1, by simp, by simp⟩ (by
      intro call hc c a ha k hk
      obtain ⟨c', hc', rfl⟩ := List.mem_map.1 hc
      exact hkeys c'.2 (hinput c' hc') _ c a ha k hk)
  rw [h] at ho
  exact onceBuiltin_split pre ho hbuiltin (by simpa using hseen)

/-! ### A concrete case -/

/-- The engine of the examples has room. -/
example : (readers.map ParserModel.builtinAsks).sum = 7 ∧ (readers.map ParserModel.customAsks).sum = 7 := by decide

/-- The builtin requests of a query and of another call about it. -/
def askedTwice : List Access :=
  (historyAccesses clockExt
    ([(3, EngineCall.parse HashOrd.insertion "make the two tea".toList none none 0 0),
      (4, EngineCall.slots HashOrd.insertion "make the two tea".toList "brew".toList 1)].map fun c =>
        (c.1, (Engine.ofParsers readersDataset demoKinds readers).code c.2)) (Caches.empty 1000)).filter fun a => a.key.isLeft

example : askedTwice.map Access.extracted = [true, true, false] := by decide +kernel

end Snips
