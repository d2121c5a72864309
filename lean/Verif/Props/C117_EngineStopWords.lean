import Verif.Spec.EngineStopWords
import Verif.Props.C115_ParserList
import Verif.Props.C116_PatternStopWords

/-! C117: stop words put into a query do not change the answer of an engine that understands it with its rule-based parsers. -/

namespace Snips

namespace InsertedEngine

variable {x : Spot} {words : Text} {w : World} {e : Engine}

theorem sameMatches (h : w.SameFindings x words) : w.SameMatches x words := by
  constructor
  · intro kinds bs hbs
    obtain ⟨h1, h2⟩ := h.builtin kinds 0 bs hbs
    refine ⟨h1, _, h2, ?_⟩
    rw [List.forall₂_map_right_iff]
    exact List.forall₂_same.2 fun b _ => ⟨rfl, rfl⟩
  · intro names cs hcs
    obtain ⟨h1, h2⟩ := h.custom names 0 cs hcs
    refine ⟨h1, _, h2, ?_⟩
    rw [List.forall₂_map_right_iff]
    exact List.forall₂_same.2 fun b _ => ⟨rfl, rfl⟩

theorem find_builtin (kind : Kind) (r : Rng) (bs : List BuiltinEntity) :
    (bs.map fun b => { b with range := x.moved words b.range }).find?
      (fun b : BuiltinEntity => b.kind = kind ∧ b.range = x.moved words r) =
    (bs.find? fun b => b.kind = kind ∧ b.range = r).map fun b => { b with range := x.moved words b.range } := by
  rw [List.find?_map]
  congr 1
  congr 1
  funext b
  simp only [Function.comp, Inserted.moved_inj.eq_iff]

theorem find_custom (name : Text) (r : Rng) (cs : List CustomEntity) :
    (cs.map fun c => { c with range := x.moved words c.range }).find?
      (fun c : CustomEntity => c.identifier = name ∧ c.range = x.moved words r) =
    (cs.find? fun c => c.identifier = name ∧ c.range = r).map fun c => { c with range := x.moved words c.range } := by
  rw [List.find?_map]
  congr 1
  congr 1
  funext b
  simp only [Function.comp, Inserted.moved_inj.eq_iff]

theorem one_moved {n : Nat} {bs : List BuiltinEntity} {cs : List CustomEntity} {s : InternalSlot} {r : Option Slot}
    (h : (e.resolveOne n bs cs s).run w = .ok r) :
    (e.resolveOne n (bs.map fun b => { b with range := x.moved words b.range })
      (cs.map fun c => { c with range := x.moved words c.range }) (s.moved x words)).run w
      = .ok (r.map (Slot.moved x words)) := by
  unfold Engine.resolveOne at h ⊢
  have he : (s.moved x words).entity = s.entity := rfl
  rw [he]
  cases hx : e.dataset.entities.get s.entity with
  | some ext =>
    simp only [hx] at h ⊢
    unfold resolveCustomSlot at h ⊢
    have := find_custom (x := x) (words := words) s.entity s.charRange cs
    have hr : (s.moved x words).charRange = x.moved words s.charRange := rfl
    rw [he, hr, this]
    cases hf : cs.find? (fun c => c.identifier = s.entity ∧ c.range = s.charRange) with
    | some c =>
      rw [hf] at h
      simp only [Prog.run_ret, Outcome.ok.injEq, Option.map_some] at h ⊢
      rw [← h]
      rfl
    | none =>
      rw [hf] at h
      simp only [Option.map_none] at h ⊢
      rw [Prog.run_custom_ok] at h ⊢
      obtain ⟨es, h1, h⟩ := h
      refine ⟨es, h1, ?_⟩
      rw [Prog.run_ret, Outcome.ok.injEq] at h ⊢
      rw [← h]
      have hv : (s.moved x words).value = s.value := rfl
      rw [hv]
      cases es.getLast?.bind fun e => if e.value.length = s.value.length then some e else none with
      | some c => rfl
      | none =>
        simp only [finishCustomSlot]
        cases ext <;> rfl
  | none =>
    simp only [hx] at h ⊢
    unfold resolveBuiltinSlot at h ⊢
    rw [Prog.run_bind_ok] at h ⊢
    obtain ⟨kind, hk, h⟩ := h
    refine ⟨kind, hk, ?_⟩
    have := find_builtin (x := x) (words := words) kind s.charRange bs
    have hr : (s.moved x words).charRange = x.moved words s.charRange := rfl
    rw [hr, this]
    cases hf : bs.find? (fun b => b.kind = kind ∧ b.range = s.charRange) with
    | some c =>
      rw [hf] at h
      simp only [Prog.run_ret, Outcome.ok.injEq, Option.map_some] at h ⊢
      rw [← h]
      rfl
    | none =>
      rw [hf] at h
      simp only [Option.map_none] at h ⊢
      rw [Prog.run_builtinFresh_ok] at h ⊢
      obtain ⟨es, h1, h⟩ := h
      refine ⟨es, h1, ?_⟩
      rw [Prog.run_ret, Outcome.ok.injEq] at h ⊢
      rw [← h, Option.map_map]
      rfl

theorem each_moved {n : Nat} {bs : List BuiltinEntity} {cs : List CustomEntity} : ∀ {slots : List InternalSlot}
    {out : List Slot}, (e.resolveEach n bs cs slots).run w = .ok out →
    (e.resolveEach n (bs.map fun b => { b with range := x.moved words b.range })
      (cs.map fun c => { c with range := x.moved words c.range }) (slots.map (InternalSlot.moved x words))).run w
      = .ok (out.map (Slot.moved x words))
  | [], out, h => by
    simp only [Engine.resolveEach, Prog.run_ret, Outcome.ok.injEq, List.map_nil] at h ⊢
    subst h
    rfl
  | s :: slots, out, h => by
    rw [List.map_cons]
    unfold Engine.resolveEach at h ⊢
    rw [Prog.run_bind_ok] at h ⊢
    obtain ⟨r, hr, h⟩ := h
    rw [Prog.run_bind_ok] at h
    obtain ⟨rest, hrest, h⟩ := h
    refine ⟨_, one_moved hr, ?_⟩
    rw [Prog.run_bind_ok]
    refine ⟨_, each_moved hrest, ?_⟩
    rw [Prog.run_ret, Outcome.ok.injEq] at h ⊢
    subst h
    cases r <;> rfl

theorem resolve_moved (hf : w.SameFindings x words) {slots : List InternalSlot} {n : Nat} {out : List Slot}
    (h : (e.resolveSlots x.short slots n).run w = .ok out) :
    (e.resolveSlots (x.long words) (slots.map (InternalSlot.moved x words)) n).run w
      = .ok (out.map (Slot.moved x words)) := by
  unfold Engine.resolveSlots at h ⊢
  cases hs : slots.isEmpty with
  | true =>
    have : (slots.map (InternalSlot.moved x words)).isEmpty = true := by rw [List.isEmpty_map, hs]
    rw [if_pos hs] at h
    rw [if_pos this]
    rw [Prog.run_ret, Outcome.ok.injEq] at h ⊢
    subst h
    rfl
  | false =>
    have hs' : ¬ (slots.map (InternalSlot.moved x words)).isEmpty = true := by rw [List.isEmpty_map, hs]; decide
    rw [if_neg (by rw [hs]; decide)] at h
    rw [if_neg hs']
    have h1 : (slots.map (InternalSlot.moved x words)).filterMap (fun s => e.names.fromStr s.entity) =
        slots.filterMap fun s => e.names.fromStr s.entity := by
      rw [List.filterMap_map]
      rfl
    have h2 : (slots.map (InternalSlot.moved x words)).filterMap (fun s =>
          if (e.names.fromStr s.entity).isSome then none else some s.entity) =
        slots.filterMap fun s => if (e.names.fromStr s.entity).isSome then none else some s.entity := by
      rw [List.filterMap_map]
      rfl
    simp only [h1, h2]
    simp only at h
    rw [Prog.run_builtinFresh_ok] at h ⊢
    obtain ⟨bs, hbs, h⟩ := h
    refine ⟨_, (hf.builtin _ _ _ hbs).2, ?_⟩
    rw [Prog.run_custom_ok] at h ⊢
    obtain ⟨cs, hcs, h⟩ := h
    exact ⟨_, (hf.custom _ _ _ hcs).2, each_moved h⟩

theorem cascade_moved (hf : w.SameFindings x words) {eff : Option (List Text)} {o : HashOrd} {ns : Nat} :
    ∀ {ps : List ParserImpl} (_ : ∀ p ∈ ps, p.ReadsThrough w x words eff) (after : List ParserImpl) {i : Nat} {s : ℚ}
      {out : ParseResult}, (e.cascade o x.short eff ns i ps s).run w = .ok out → out.intent.name ≠ none ∨ after = [] →
      (e.cascade o (x.long words) eff ns i (ps ++ after) s).run w = .ok (out.moved x words)
  | [], _, after, i, s, out, h, hn => by
    simp only [Engine.cascade, Prog.run_ret, Outcome.ok.injEq] at h
    subst h
    rcases hn with hn | rfl
    · exact absurd rfl hn
    · rfl
  | p :: ps, hall, after, i, s, out, h, hn => by
    have h0 := h
    unfold Engine.cascade at h0
    rw [Prog.run_bind_ok] at h0
    obtain ⟨r, hr, -⟩ := h0
    rw [ParserList.cascade_head hr] at h
    rw [List.cons_append, ParserList.cascade_head (hall p (by simp) _ _ hr)]
    have hname : (r.moved x words).intent = r.intent := rfl
    rw [hname]
    cases hi : r.intent.name with
    | some name =>
      rw [hi] at h
      simp only at h ⊢
      cases hres : (e.resolveSlots x.short r.slots ns).run w with
      | ok slots =>
        rw [hres] at h
        have h2 := resolve_moved hf hres
        rw [show (r.moved x words).slots = r.slots.map (InternalSlot.moved x words) from rfl, h2]
        cases h
        rfl
      | err er => rw [hres] at h; cases h
      | panic => rw [hres] at h; cases h
    | none =>
      rw [hi] at h
      exact cascade_moved hf (fun q hq => hall q (by simp [hq])) after h hn

theorem slots_moved (hf : w.SameFindings x words) {intent : Text} {o : HashOrd} {ns : Nat} :
    ∀ {ps : List ParserImpl} (_ : ∀ p ∈ ps, p.FindsThrough w x words intent) (after : List ParserImpl) {i : Nat}
      {out : List Slot}, (e.slotsCascade o x.short intent ns i ps).run w = .ok out → out ≠ [] ∨ after = [] →
      (e.slotsCascade o (x.long words) intent ns i (ps ++ after)).run w = .ok (out.map (Slot.moved x words))
  | [], _, after, i, out, h, hn => by
    simp only [Engine.slotsCascade, Prog.run_ret, Outcome.ok.injEq] at h
    subst h
    rcases hn with hn | rfl
    · exact absurd rfl hn
    · rfl
  | p :: ps, hall, after, i, out, h, hn => by
    have h0 := h
    unfold Engine.slotsCascade at h0
    rw [Prog.run_bind_ok] at h0
    obtain ⟨r, hr, -⟩ := h0
    rw [ParserList.slots_head hr] at h
    rw [List.cons_append, ParserList.slots_head (hall p (by simp) _ _ hr), List.isEmpty_map]
    split at h
    · rename_i hc
      rw [if_pos hc]
      exact slots_moved hf (fun q hq => hall q (by simp [hq])) after h hn
    · rename_i hc
      rw [if_neg hc]
      exact resolve_moved hf h

end InsertedEngine

/-- `parse`: when the parsers `before`, which read through the words, recognise the query between them (or are all the engine
has), the engine gives the same answer to the longer query, whatever the other parsers. -/
theorem c117_parse (e : Engine) (w : World) (x : Spot) (words : Text) (hf : w.SameFindings x words)
    (whitelist blacklist : Option (List Text)) (before after : List ParserImpl)
    (hread : ∀ p ∈ before, ∀ filter, e.IsFilterFor whitelist blacklist filter → p.ReadsThrough w x words filter)
    (o : HashOrd) (ns : Nat) (out : ParseResult)
    (h : ((e.withParsers before).parseWithAlternatives o x.short whitelist blacklist 0 ns).run w = .ok out)
    (hsome : out.intent.name ≠ none ∨ after = []) :
    ((e.withParsers (before ++ after)).parseWithAlternatives o (x.long words) whitelist blacklist 0 ns).run w
      = .ok (out.moved x words) := by
  unfold Engine.parseWithAlternatives at h ⊢
  rw [Prog.run_bind_ok] at h ⊢
  obtain ⟨eff, heff, h⟩ := h
  refine ⟨eff, heff, ?_⟩
  rw [Prog.run_ofOutcome] at heff
  rw [Prog.run_bind_ok] at h ⊢
  obtain ⟨main, hmain, h⟩ := h
  rw [if_pos rfl, Prog.run_ret, Outcome.ok.injEq] at h
  subst h
  rw [ParserList.cascade_withParsers] at hmain
  refine ⟨_, ?_, rfl⟩
  rw [ParserList.cascade_withParsers]
  refine InsertedEngine.cascade_moved hf ?_ after hmain hsome
  intro p hp
  exact hread p hp eff (getIntentsWhitelist_filter heff)

/-- `get_slots`. -/
theorem c117_get_slots (e : Engine) (w : World) (x : Spot) (words : Text) (hf : w.SameFindings x words) (intent : Text)
    (before after : List ParserImpl) (hread : ∀ p ∈ before, p.FindsThrough w x words intent) (o : HashOrd) (ns : Nat)
    (out : List Slot)
    (h : ((e.withParsers before).getSlotsWithAlternatives o x.short intent ns).run w = .ok out)
    (hsome : out ≠ [] ∨ after = []) :
    ((e.withParsers (before ++ after)).getSlotsWithAlternatives o (x.long words) intent ns).run w
      = .ok (out.map (Slot.moved x words)) := by
  unfold Engine.getSlotsWithAlternatives at h ⊢
  rw [ParserList.slots_withParsers] at h ⊢
  exact InsertedEngine.slots_moved hf hread after h hsome

/-- Lookup parsers read through stop words (C112). -/
theorem c117_lookup (env : RuleEnv) (hrd : env.rd = Rounding.exact) (hsplit : env.fns.SplitsAtBlanks) (p : Lookup) (w : World)
    (x : Spot) (words : Text) (hf : w.SameFindings x words) :
    (∀ filter, p.AreStopWords env filter words → (p.impl env).ReadsThrough w x words filter) ∧
    (∀ intent, p.AreStopWords env (some [intent]) words → (p.impl env).FindsThrough w x words intent) :=
  ⟨fun filter hw o out h => c112_parse env hrd hsplit p w x words (InsertedEngine.sameMatches hf) filter hw o o out h,
    fun intent hw o out h => c112_get_slots env hrd hsplit p w x words (InsertedEngine.sameMatches hf) intent hw o o out h⟩

/-- Deterministic parsers read through stop words (C116). -/
theorem c117_deterministic (env : RuleEnv) (htok : ∀ t, Tokenized t (env.fns.tokenize t)) (hap : env.fns.TokensApart)
    (cr : CharRules) (hblank : cr.white ' ' = true) (p : Det) (hb : p.Built env.names) (htr : p.Trained cr) (w : World)
    (x : Spot) (words : Text) (hf : w.SameFindings x words) (hs : p.SmallQuery env w x.short)
    (hs' : p.SmallQuery env w (x.long words)) (hty : p.NoTypedPlaceholders env w x.short) :
    (∀ filter, p.AreStopWords env filter words → (p.impl env).ReadsThrough w x words filter) ∧
    (∀ intent, p.AreStopWords env (some [intent]) words → (p.impl env).FindsThrough w x words intent) :=
  ⟨fun filter hw o out h => c116_parse env htok hap cr hblank p hb htr w x words (InsertedEngine.sameMatches hf) hs hs' hty
      filter hw o out h,
    fun intent hw o out h => c116_get_slots env htok hap cr hblank p hb htr w x words (InsertedEngine.sameMatches hf) hs hs'
      hty intent hw o out h⟩

/-- The usual list of parsers, a deterministic and a lookup parser in front of others: if these two recognise the query, the
answer to the longer query is the same. -/
theorem c117_rules (e : Engine) (env : RuleEnv) (hrd : env.rd = Rounding.exact) (htok : ∀ t, Tokenized t (env.fns.tokenize t))
    (hap : env.fns.TokensApart) (hsplit : env.fns.SplitsAtBlanks) (cr : CharRules) (hblank : cr.white ' ' = true)
    (p : Det) (hb : p.Built env.names) (htr : p.Trained cr) (q : Lookup) (others : List ParserImpl) (w : World) (x : Spot)
    (words : Text) (hf : w.SameFindings x words) (hs : p.SmallQuery env w x.short) (hs' : p.SmallQuery env w (x.long words))
    (hty : p.NoTypedPlaceholders env w x.short) (whitelist blacklist : Option (List Text))
    (hw : ∀ filter, e.IsFilterFor whitelist blacklist filter → p.AreStopWords env filter words ∧ q.AreStopWords env filter words)
    (o : HashOrd) (ns : Nat) (out : ParseResult)
    (h : ((e.withParsers [p.impl env, q.impl env]).parseWithAlternatives o x.short whitelist blacklist 0 ns).run w = .ok out)
    (hsome : out.intent.name ≠ none) :
    ((e.withParsers (p.impl env :: q.impl env :: others)).parseWithAlternatives o (x.long words) whitelist blacklist 0 ns).run w
      = .ok (out.moved x words) := by
  refine c117_parse e w x words hf whitelist blacklist [p.impl env, q.impl env] others ?_ o ns out h (.inl hsome)
  intro r hr filter hfil
  obtain ⟨h1, h2⟩ := hw filter hfil
  rw [List.mem_cons, List.mem_singleton] at hr
  rcases hr with rfl | rfl
  · exact (c117_deterministic env htok hap cr hblank p hb htr w x words hf hs hs' hty).1 filter h1
  · exact (c117_lookup env hrd hsplit q w x words hf).1 filter h2

/-! Non-vacuity. -/

theorem ruleWorld_sameFindings : ruleWorld.SameFindings (.between "make".toList "two tea".toList) "the".toList := by
  constructor
  · intro kinds n bs h
    have hb : bs = if kinds.contains 0 then [⟨"two".toList, ⟨5, 8⟩, .builtin 2, [], 0⟩] else [] := by
      simp only [ruleWorld, Outcome.ok.injEq] at h
      rw [← h]
      split
      · decide +kernel
      · rfl
    subst hb
    refine ⟨by split <;> simp [Spot.Beside], ?_⟩
    simp only [ruleWorld, Outcome.ok.injEq]
    split
    · decide +kernel
    · rfl
  · intro names n cs h
    have hb : cs = if names.contains "drink".toList then [⟨"tea".toList, "tea".toList, [], ⟨9, 12⟩, "drink".toList⟩] else [] := by
      simp only [ruleWorld, Outcome.ok.injEq] at h
      rw [← h]
      split
      · decide +kernel
      · rfl
    subst hb
    refine ⟨by split <;> simp [Spot.Beside], ?_⟩
    simp only [ruleWorld, Outcome.ok.injEq]
    split
    · decide +kernel
    · rfl

/-- An engine for the examples; its parsers are given in the theorems. -/
def spottedEngine : Engine where
  dataset := ⟨[("drink".toList, true)], [("brew".toList, [("count".toList, "snips/number".toList), ("kind".toList, "drink".toList)]),
    ("idiom".toList, []), ("halt".toList, [])]⟩
  parsers := []
  names := demoKinds

/-- A parser that always recognises `halt`. -/
def haltParser : ParserImpl := ⟨fun _ _ _ => .ret ⟨⟨some "halt".toList, 1⟩, []⟩, fun _ _ => .ret [], fun _ _ _ => .ret []⟩

/-- The hypotheses are met: `make the two tea` is answered as `make two tea`, whatever the third parser. -/
example :
    ((spottedEngine.withParsers [spottedDet.impl demoEnv, demoLookup.impl demoEnv, haltParser]).parseWithAlternatives
      HashOrd.insertion "make the two tea".toList none none 0 0).run ruleWorld =
      .ok ⟨"make the two tea".toList, ⟨some "brew".toList, 1⟩, [⟨"two".toList, .builtin 2, [], ⟨9, 12⟩, "snips/number".toList,
          "count".toList⟩, ⟨"tea".toList, .custom "tea".toList, [], ⟨13, 16⟩, "drink".toList, "kind".toList⟩], []⟩ := by
  refine c117_rules spottedEngine demoEnv rfl ruleFns_tokenized demoEnv_tokens_apart demoEnv_splits asciiRules (by decide)
    spottedDet ⟨rfl, by decide⟩ spottedDet_trained demoLookup [haltParser] ruleWorld (.between "make".toList "two tea".toList)
    "the".toList ruleWorld_sameFindings (spottedDet_small _ (.inl rfl)) (spottedDet_small _ (.inr rfl)) spottedDet_no_typed
    none none ?_ HashOrd.insertion 0 ⟨"make two tea".toList, ⟨some "brew".toList, 1⟩, [⟨"two".toList, .builtin 2, [], ⟨5, 8⟩,
      "snips/number".toList, "count".toList⟩, ⟨"tea".toList, .custom "tea".toList, [], ⟨9, 12⟩, "drink".toList, "kind".toList⟩], []⟩
    (by decide +kernel) (by simp)
  intro filter _
  constructor
  · intro i _ _ t ht
    have : demoEnv.fns.tokenize "the".toList = [⟨"the".toList, ⟨0, 3⟩, ⟨0, 3⟩⟩] := by decide +kernel
    rw [this, List.mem_singleton] at ht
    subst ht
    refine ⟨fun own h => absurd h (by simp [spottedDet, demoDet, StopWords.new, Map.get_nil]), fun _ => ?_⟩
    show _ ∈ ["the".toList]
    decide +kernel
  · intro s _ i _ _ t ht
    have : demoEnv.fns.tokenizeLight "the".toList = ["the".toList] := by decide +kernel
    rw [this, List.mem_singleton] at ht
    subst ht
    refine ⟨fun own h => absurd h (by simp [demoLookup, StopWords.new, Map.get_nil]), fun _ => ?_⟩
    show _ ∈ ["the".toList]
    decide +kernel

/-- The parsers that do not read through the words must not decide: if the first parser recognises nothing in the query, a
later one may answer the longer query in another way. -/
theorem c117_undecided :
    ∃ (e : Engine) (last : ParserImpl) (w : World) (x : Spot) (o : HashOrd), w.SameFindings x "the".toList ∧
      ((e.withParsers [demoLookup.impl demoEnv]).parseWithAlternatives o x.short none none 0 0).run w =
        .ok ⟨x.short, ⟨none, 1⟩, [], []⟩ ∧
      ((e.withParsers [demoLookup.impl demoEnv, last]).parseWithAlternatives o x.short none none 0 0).run w =
        .ok ⟨x.short, ⟨none, 0⟩, [], []⟩ ∧
      ((e.withParsers [demoLookup.impl demoEnv, last]).parseWithAlternatives o (x.long "the".toList) none none 0 0).run w =
        .ok ⟨x.long "the".toList, ⟨some "halt".toList, 1⟩, [], []⟩ :=
  ⟨spottedEngine, ⟨fun _ t _ => .ret (if t.length < 14 then ⟨⟨none, 0⟩, []⟩ else ⟨⟨some "halt".toList, 1⟩, []⟩),
      fun _ _ => .ret [], fun _ _ _ => .ret []⟩,
    ⟨fun _ _ _ => .ok [], fun _ _ _ => .ok []⟩, .front "bring some".toList, HashOrd.insertion,
    ⟨fun _ _ _ h => by cases h; exact ⟨by simp, rfl⟩, fun _ _ _ h => by cases h; exact ⟨by simp, rfl⟩⟩,
    by decide +kernel, by decide +kernel, by decide +kernel⟩

end Snips
