import Verif.Spec.Patterns
import Verif.Proofs.DetRun
import Verif.Props.C14_RuleSlots
import Verif.Props.C35_Decision
import Verif.Props.C39_LogReg
import Verif.Proofs.Injection
import Verif.Spec.RuleDemo

/-! # C62: the deterministic parser reads a sentence as its patterns say -/

namespace Snips

theorem captures_find {r : Regex} {text : Text} {caps : List (Option Rng)} :
    r.Captures text caps ↔ r.isMatch text = true ∧
      (r.capturesIter text).find? (fun c => !c.isEmpty) = some caps := by
  unfold Regex.Captures
  rw [List.find?_eq_some_iff_append]
  constructor
  · rintro ⟨h, hne, void, rest, he, hv⟩
    refine ⟨h, by simpa using hne, void, rest, he, ?_⟩
    intro c hc
    simp [hv c hc]
  · rintro ⟨h, hne, void, rest, he, hv⟩
    refine ⟨h, by simpa using hne, void, rest, he, ?_⟩
    intro c hc
    simpa using hv c hc

/-- The named captures with their numbers. -/
def numberedCaptures (caps : List (Option Rng)) (names : List (Option Text)) : List (Nat × Rng × Text) :=
  (((caps.zip names).zipIdx).drop 1).filterMap fun x =>
    match x with
    | ((some m, some n), i) => some (i, m, n)
    | _ => none

theorem numberedCaptures_map (caps : List (Option Rng)) (names : List (Option Text)) :
    (numberedCaptures caps names).map (fun g => g.2) = namedCaptures caps names := by
  unfold numberedCaptures namedCaptures
  rw [List.map_filterMap]
  have h1 : (caps.zip names).drop 1 = (((caps.zip names).zipIdx).drop 1).map Prod.fst := by
    rw [List.map_drop, List.zipIdx_map_fst]
  rw [h1, List.filterMap_map]
  apply List.filterMap_congr
  rintro ⟨⟨a, b⟩, i⟩ _
  cases a <;> cases b <;> rfl

theorem numberedCaptures_spec (r : Regex) (caps : List (Option Rng)) :
    r.NamedGroups caps (numberedCaptures caps r.captureNames) := by
  constructor
  · unfold numberedCaptures
    rw [List.pairwise_filterMap]
    have : ((caps.zip r.captureNames).zipIdx).Pairwise (fun a b => a.2 < b.2) := by
      rw [List.pairwise_iff_getElem]
      intro i j hi hj hij
      simp
      exact hij
    refine (this.sublist (List.drop_sublist 1 _)).imp ?_
    rintro ⟨⟨a, b⟩, i⟩ ⟨⟨c, d⟩, j⟩ hij g hg g' hg'
    cases a <;> cases b <;> cases c <;> cases d <;> simp at hg hg'
    rw [← hg, ← hg']
    exact hij
  · intro i bytes name
    unfold numberedCaptures
    rw [List.mem_filterMap]
    constructor
    · rintro ⟨⟨⟨a, b⟩, j⟩, hm, h⟩
      cases a <;> cases b <;> simp at h
      obtain ⟨rfl, rfl, rfl⟩ := h
      obtain ⟨k, hk⟩ := List.getElem?_of_mem hm
      rw [List.getElem?_drop, List.getElem?_zipIdx] at hk
      simp only [Option.map_eq_some_iff, Prod.mk.injEq] at hk
      obtain ⟨x, hx, rfl, rfl⟩ := hk
      rw [List.getElem?_zip_eq_some] at hx
      exact ⟨by omega, by simpa using hx.1, by simpa using hx.2⟩
    · rintro ⟨h1, h2, h3⟩
      refine ⟨((some bytes, some name), i), ?_, rfl⟩
      apply List.mem_of_getElem? (i := i - 1)
      rw [List.getElem?_drop, List.getElem?_zipIdx, show 1 + (i - 1) = i by omega]
      have : (caps.zip r.captureNames)[i]? = some (some bytes, some name) := List.getElem?_zip_eq_some.2 ⟨h2, h3⟩
      rw [this]
      simp

theorem namedGroups_unique {r : Regex} {caps : List (Option Rng)} {g g' : List (Nat × Rng × Text)}
    (h : r.NamedGroups caps g) (h' : r.NamedGroups caps g') : g = g' := by
  have hn : ∀ {l : List (Nat × Rng × Text)}, l.Pairwise (fun a b => a.1 < b.1) → l.Nodup := fun hl =>
    hl.imp fun hab he => by subst he; omega
  have hp : g.Perm g' := (List.perm_ext_iff_of_nodup (hn h.1) (hn h'.1)).2 fun x => by
    obtain ⟨i, b, n⟩ := x
    rw [h.2, h'.2]
  refine hp.eq_of_pairwise (le := fun a b : Nat × Rng × Text => a.1 < b.1) ?_ h.1 h'.1
  intro a b _ _ hab hba
  omega

theorem beforeUnderscore_iff {name key : Text} : BeforeUnderscore name key ↔ groupPrefix name = key := by
  unfold BeforeUnderscore groupPrefix
  induction name generalizing key with
  | nil =>
    constructor
    · rintro ⟨_, h | ⟨rest, h⟩⟩
      · exact h
      · simp at h
    · intro h
      exact ⟨by rw [← h]; simp, Or.inl h⟩
  | cons c t ih =>
    by_cases hc : c = '_'
    · subst hc
      rw [List.takeWhile_cons]
      simp only [ne_eq, not_true_eq_false, decide_false, Bool.false_eq_true, if_false]
      constructor
      · rintro ⟨hk, h | ⟨rest, h⟩⟩
        · exact absurd (by rw [← h]; simp) hk
        · cases key with
          | nil => rfl
          | cons d k =>
            simp only [List.cons_append, List.cons.injEq] at h
            exact absurd (by rw [← h.1]; simp) hk
      · rintro rfl
        exact ⟨by simp, Or.inr ⟨t, rfl⟩⟩
    · rw [List.takeWhile_cons]
      simp only [hc, ne_eq, not_false_eq_true, decide_true, if_true]
      constructor
      · rintro ⟨hk, h⟩
        cases key with
        | nil =>
          rcases h with h | ⟨rest, h⟩
          · cases h
          · simp at h; exact absurd h.1 hc
        | cons d k =>
          have hd : c = d := by
            rcases h with h | ⟨rest, h⟩
            · simp at h; exact h.1
            · simp at h; exact h.1
          subst hd
          have hk' : '_' ∉ k := fun hk' => hk (List.mem_cons_of_mem _ hk')
          have h' : t = k ∨ ∃ rest, t = k ++ '_' :: rest := by
            rcases h with h | ⟨rest, h⟩
            · simp at h; exact Or.inl h
            · simp at h; exact Or.inr ⟨rest, h⟩
          have e := ih.1 ⟨hk', h'⟩
          simp only [ne_eq] at e
          rw [e]
      · rintro rfl
        obtain ⟨hk, h⟩ := ih.2 rfl
        refine ⟨?_, ?_⟩
        · simp only [List.mem_cons, not_or]
          exact ⟨fun e => hc e.symm, hk⟩
        · rcases h with h | ⟨rest, h⟩
          · exact Or.inl (by rw [← h])
          · refine Or.inr ⟨rest, ?_⟩
            rw [List.cons_append, ← h]

theorem keptSlots_dedup (fns : TextFns) (all : List InternalSlot) : KeptSlots fns all (dedupSlots fns all) := by
  refine ⟨?_, dedupSlots_order fns all, ?_⟩
  · unfold dedupSlots
    exact (sortByKey_perm _ _).subperm.trans (dedupItems_subperm _ _ _)
  · intro s hs
    unfold dedupSlots
    rcases dedupItems_complete (fun a b : InternalSlot => rangesOverlap a.charRange b.charRange)
      (fun s => -(((fns.tokenize s.value).length + s.value.length : Nat) : Int)) all s hs with h | ⟨k, hk, hov, hkey⟩
    · exact Or.inl ((mem_sortByKey _).2 h)
    · refine Or.inr ⟨k, (mem_sortByKey _).2 hk, hov, ?_⟩
      unfold slotSize
      rcases hkey with hkey | ⟨hkey, _⟩ <;> omega

theorem slotOf_ok {o : HashOrd} {p : Det} {input formatted intent : Text} {mapping : Option (Map Rng Rng)} {i : Nat}
    {c : Rng × Text} {s : InternalSlot} :
    p.slotOf o input formatted intent mapping c = .ok s ↔
      p.GroupSlot input intent (fun b => originalRange o mapping (convertToCharRange formatted b)) (i, c) s := by
  unfold Det.slotOf Det.GroupSlot
  simp only [Outcome.bind_eq, Outcome.bind_ok, unwrap_ok]
  constructor
  · rintro ⟨n, hn, d, hd, e, he, h⟩
    cases h
    exact ⟨⟨_, beforeUnderscore_iff.2 rfl, hn⟩, ⟨d, hd, he⟩, rfl, rfl⟩
  · rintro ⟨⟨key, hk, hn⟩, ⟨d, hd, he⟩, hr, hv⟩
    rw [beforeUnderscore_iff] at hk
    subst hk
    refine ⟨_, hn, d, hd, _, he, ?_⟩
    cases s
    simp only at hr hv
    subst hr
    subst hv
    rfl

theorem matchingResult_none {fns : TextFns} {o : HashOrd} {p : Det} {input formatted : Text} {regex : Regex}
    {intent : Text} {mapping : Option (Map Rng Rng)} :
    p.matchingResult fns o input formatted regex intent mapping = .ok none ↔
      ∀ caps, ¬ regex.Captures formatted caps := by
  unfold Det.matchingResult
  constructor
  · intro h caps hc
    obtain ⟨h1, h2⟩ := captures_find.1 hc
    rw [if_pos h1, h2] at h
    simp only [Outcome.bind_eq, Outcome.bind_ok] at h
    obtain ⟨_, _, h⟩ := h
    cases h
  · intro h
    split
    · rename_i hm
      split
      · rename_i caps hc
        exact absurd (captures_find.2 ⟨hm, hc⟩) (h caps)
      · rfl
    · rfl

theorem matchingResult_reads {fns : TextFns} {o : HashOrd} {p : Det} {input formatted : Text} {regex : Regex}
    {intent : Text} {mapping : Option (Map Rng Rng)} {slots : List InternalSlot}
    (h : p.matchingResult fns o input formatted regex intent mapping = .ok (some (mkRes (intent, slots)))) :
    p.Reads fns input intent regex formatted (fun b => originalRange o mapping (convertToCharRange formatted b))
      slots := by
  have hm : regex.isMatch formatted = true := by
    unfold Det.matchingResult at h
    split at h
    · assumption
    · cases h
  obtain ⟨caps, raw, hc, hraw, hr⟩ := matchingResult_some h
  have : slots = dedupSlots fns raw := congrArg InternalResult.slots hr
  subst this
  refine ⟨caps, numberedCaptures caps regex.captureNames, raw, captures_find.2 ⟨hm, hc⟩,
    numberedCaptures_spec regex caps, ?_, keptSlots_dedup fns raw⟩
  rw [mapOutcome_ok_iff, ← numberedCaptures_map, List.forall₂_map_left_iff] at hraw
  exact hraw.imp fun a s h => slotOf_ok.1 h

theorem reads_matchingResult {fns : TextFns} {o : HashOrd} {p : Det} {input formatted : Text} {regex : Regex}
    {intent : Text} {mapping : Option (Map Rng Rng)} {slots : List InternalSlot}
    (h : p.Reads fns input intent regex formatted (fun b => originalRange o mapping (convertToCharRange formatted b))
      slots) :
    ∃ slots', p.matchingResult fns o input formatted regex intent mapping = .ok (some (mkRes (intent, slots'))) := by
  obtain ⟨caps, groups, all, hc, hg, hall, _⟩ := h
  have := namedGroups_unique hg (numberedCaptures_spec regex caps)
  subst this
  obtain ⟨hm, hf⟩ := captures_find.1 hc
  refine ⟨dedupSlots fns all, ?_⟩
  unfold Det.matchingResult
  rw [if_pos hm, hf]
  simp only [Outcome.bind_eq, Outcome.bind_ok]
  refine ⟨all, ?_, rfl⟩
  rw [mapOutcome_ok_iff, ← numberedCaptures_map, List.forall₂_map_left_iff]
  exact hall.imp fun a s h => slotOf_ok.2 h

theorem tryRegex_none {fns : TextFns} {o : HashOrd} {p : Det} {input cleaned cf : Text} {m : Map Rng Rng}
    {intent : Text} {regex : Regex} :
    p.tryRegex fns o input cleaned cf m intent regex = .ok none ↔
      (∀ caps, ¬ regex.Captures cleaned caps) ∧ ∀ caps, ¬ regex.Captures cf caps := by
  rw [← matchingResult_none (fns := fns) (o := o) (p := p) (input := input) (intent := intent) (mapping := none),
    ← matchingResult_none (fns := fns) (o := o) (p := p) (input := input) (intent := intent) (mapping := some m)]
  unfold Det.tryRegex
  simp only [Outcome.bind_eq, Outcome.bind_ok]
  constructor
  · rintro ⟨raw, hraw, h⟩
    cases raw with
    | some r => cases h
    | none => exact ⟨hraw, h⟩
  · rintro ⟨h1, h2⟩
    exact ⟨none, h1, h2⟩

theorem findMapOutcome_first {α β : Type} {f : α → Outcome (Option β)} {l : List α} {b : β} :
    findMapOutcome f l = .ok (some b) ↔ ∃ before a after, l = before ++ a :: after ∧ (∀ q ∈ before, f q = .ok none) ∧
      f a = .ok (some b) := by
  induction l with
  | nil => simp [findMapOutcome]
  | cons x l ih =>
    unfold findMapOutcome
    constructor
    · intro h
      cases hf : f x with
      | ok r =>
        rw [hf] at h
        cases r with
        | some b' => cases h; exact ⟨[], x, l, rfl, by simp, hf⟩
        | none =>
          obtain ⟨before, a, after, rfl, hb, ha⟩ := ih.1 h
          exact ⟨x :: before, a, after, rfl, by
            intro q hq
            rcases List.mem_cons.1 hq with rfl | hq
            · exact hf
            · exact hb q hq, ha⟩
      | err e => rw [hf] at h; cases h
      | panic => rw [hf] at h; cases h
    · rintro ⟨before, a, after, he, hb, ha⟩
      cases before with
      | nil =>
        cases he
        rw [ha]
      | cons y before =>
        cases he
        rw [hb x (by simp)]
        exact ih.2 ⟨before, a, after, rfl, fun q hq => hb q (by simp [hq]), ha⟩

theorem ofOption_some_iff {α : Type} {e : Err} {x : Option α} {a : α} :
    Outcome.ofOption e x = .ok a ↔ x = some a := by
  cases x <;> simp [Outcome.ofOption]

theorem recognises_iff {env : RuleEnv} {p : Det} (hb : p.Built env.names) {o : HashOrd} {w : World}
    {input intent : Text} {slots : List InternalSlot} :
    p.MatchesAlone env o w input intent slots ↔
      ∃ raw formatted table patterns before r after,
        p.Sees env w input intent raw formatted table ∧ p.regexes.get intent = some patterns ∧
        patterns = before ++ r :: after ∧
        (∀ q ∈ before, (∀ caps, ¬ q.Captures raw caps) ∧ ∀ caps, ¬ q.Captures formatted caps) ∧
        p.tryRegex env.fns o input raw formatted table intent r = .ok (some (mkRes (intent, slots))) := by
  have hnodup : p.scopes.keys.Nodup := by rw [hb.scopes, detScopes_keys]; exact hb.nodup
  rw [matchesAlone_iff hb]
  have hmap : ∀ (bs : List BuiltinEntity), (bs.map BuiltinEntity.kindMatch).map (KindMatch.toMatched env.names) =
      bs.map (fun e => (⟨e.range, env.names.identifier e.kind⟩ : MatchedEntity)) := fun bs => by
    rw [List.map_map]; rfl
  constructor
  · rintro ⟨s, hs, rfl, hrun⟩
    unfold Det.matchIntent at hrun
    rw [Prog.run_builtinCached_ok] at hrun
    obtain ⟨bs, hbs, hrun⟩ := hrun
    rw [Prog.run_custom_ok] at hrun
    obtain ⟨cs, hcs, hrun⟩ := hrun
    rw [Prog.run_ofOutcome, hmap] at hrun
    unfold Det.matchWith at hrun
    simp only [Outcome.bind_eq, Outcome.bind_ok, ofOption_some_iff] at hrun
    obtain ⟨⟨table, new⟩, hrep, raw, hraw, formatted, hf, patterns, hp, hrun⟩ := hrun
    obtain ⟨before, r, after, he, hbefore, hr⟩ := findMapOutcome_first.1 hrun
    exact ⟨raw, formatted, _, patterns, before, r, after,
      ⟨s.2.1, s.2.2, bs, cs, new, Map.get_of_mem hnodup hs, hbs, hcs, hrep, hraw, hf⟩, hp, he,
      fun q hq => tryRegex_none.1 (hbefore q hq), hr⟩
  · rintro ⟨raw, formatted, table, patterns, before, r, after, ⟨kinds, entities, bs, cs, new, hsc, hbs, hcs, hrep, hraw, hf⟩,
      hp, he, hbefore, hr⟩
    refine ⟨(intent, kinds, entities), Map.get_some_mem hsc, rfl, ?_⟩
    unfold Det.matchIntent
    rw [Prog.run_builtinCached_ok]
    refine ⟨bs, hbs, ?_⟩
    rw [Prog.run_custom_ok]
    refine ⟨cs, hcs, ?_⟩
    rw [Prog.run_ofOutcome, hmap]
    unfold Det.matchWith
    simp only [Outcome.bind_eq, Outcome.bind_ok, ofOption_some_iff]
    exact ⟨(table, new), hrep, raw, hraw, formatted, hf, patterns, hp, findMapOutcome_first.2 ⟨before, r, after, he,
      fun q hq => tryRegex_none.2 (hbefore q hq), hr⟩⟩

/-- Asked about an intent, the parser answers with the slots of the first pattern that matches. -/
theorem c62_sound (env : RuleEnv) (p : Det) (hb : p.Built env.names) (o : HashOrd) (w : World) (input intent : Text)
    (slots : List InternalSlot) (h : p.MatchesAlone env o w input intent slots) :
    p.Recognises env o w input intent slots := by
  obtain ⟨raw, formatted, table, patterns, before, r, after, hs, hp, he, hbefore, hr⟩ := (recognises_iff hb).1 h
  refine ⟨raw, formatted, table, patterns, before, r, after, hs, hp, he, hbefore, ?_⟩
  rcases tryRegex_some hr with h | ⟨h1, h2⟩
  · exact Or.inl (matchingResult_reads h)
  · exact Or.inr ⟨matchingResult_none.1 h1, matchingResult_reads h2⟩

/-- If a pattern of the intent matches, the parser asked about it answers with this intent. -/
theorem c62_complete (env : RuleEnv) (p : Det) (hb : p.Built env.names) (o : HashOrd) (w : World)
    (input intent : Text) (slots : List InternalSlot) (h : p.Recognises env o w input intent slots) :
    ∃ slots', p.MatchesAlone env o w input intent slots' := by
  obtain ⟨raw, formatted, table, patterns, before, r, after, hs, hp, he, hbefore, hr⟩ := h
  have : ∃ slots', p.tryRegex env.fns o input raw formatted table intent r = .ok (some (mkRes (intent, slots'))) := by
    unfold Det.tryRegex
    rcases hr with h | ⟨h1, h2⟩
    · obtain ⟨s', hs'⟩ := reads_matchingResult (o := o) (mapping := none) h
      exact ⟨s', by simp only [Outcome.bind_eq, Outcome.bind_ok]; exact ⟨_, hs', rfl⟩⟩
    · obtain ⟨s', hs'⟩ := reads_matchingResult (o := o) (mapping := some table) h2
      exact ⟨s', by simp only [Outcome.bind_eq, Outcome.bind_ok]; exact ⟨none, matchingResult_none.2 h1, hs'⟩⟩
  obtain ⟨slots', hs'⟩ := this
  exact ⟨slots', (recognises_iff hb).2 ⟨raw, formatted, table, patterns, before, r, after, hs, hp, he, hbefore, hs'⟩⟩

/-- Whatever the filter, an intent is returned with slots its patterns read in the sentence. -/
theorem c62_parse (env : RuleEnv) (p : Det) (hb : p.Built env.names) (o : HashOrd) (w : World)
    (input : Text) (filter : Option (List Text)) (out : InternalResult)
    (h : (p.parse env o input filter).run w = .ok out) (intent : Text) (hi : out.intent.name = some intent) :
    p.Recognises env o w input intent out.slots := by
  obtain ⟨ms, _, h1, hv⟩ := c35_deterministic_rounded env p hb o w input _ out h
  exact c62_sound env p hb o w input intent _ ((h1 intent _).1 (hv.slots intent hi)).2

/-- The entities looked for on behalf of an intent are those declared for its slots, each once. -/
theorem c62_scope (env : RuleEnv) (p : Det) (hb : p.Built env.names) (intent : Text) (kinds : List Kind)
    (entities : List Text) (h : p.scopes.get intent = some (kinds, entities)) :
    ∃ declared, p.slotEntities.get intent = some declared ∧ kinds.Nodup ∧ entities.Nodup ∧
      (∀ k, k ∈ kinds ↔ ∃ d ∈ declared, env.names.fromIdentifier d.2 = some k) ∧
      ∀ e, e ∈ entities ↔ (∃ d ∈ declared, d.2 = e) ∧ env.names.fromIdentifier e = none := by
  have hm := Map.get_some_mem h
  rw [hb.scopes] at hm
  unfold detScopes at hm
  obtain ⟨im, him, he⟩ := List.mem_map.1 hm
  simp only [Prod.mk.injEq] at he
  obtain ⟨rfl, rfl, rfl⟩ := he
  refine ⟨im.2, Map.get_of_mem hb.nodup him, unique_nodup _, unique_nodup _, fun k => ?_, fun e => ?_⟩
  · rw [mem_unique, List.mem_filterMap]
  · rw [mem_unique, List.mem_filterMap]
    constructor
    · rintro ⟨d, hd, h⟩
      split at h
      · cases h
      · rename_i hn
        cases h
        exact ⟨⟨d, hd, rfl⟩, by simpa using hn⟩
    · rintro ⟨⟨d, hd, rfl⟩, hn⟩
      exact ⟨d, hd, by simp [hn]⟩

/-- The hypotheses of `c62_sound`, `c62_parse` and `c62_complete` hold for `brew` and `make the two tea`. -/
example : demoDet.Recognises demoEnv HashOrd.insertion ruleWorld "make the two tea".toList "brew".toList
    [⟨"two".toList, ⟨9, 12⟩, "snips/number".toList, "count".toList⟩] :=
  c62_sound demoEnv demoDet demoDet_built HashOrd.insertion ruleWorld _ _ _ (by unfold Det.MatchesAlone; decide +kernel)

example : demoDet.Recognises demoEnv HashOrd.insertion ruleWorld "make the two tea".toList "brew".toList
    [⟨"two".toList, ⟨9, 12⟩, "snips/number".toList, "count".toList⟩] :=
  c62_parse demoEnv demoDet demoDet_built HashOrd.insertion ruleWorld _ (some ["brew".toList])
    ⟨⟨some "brew".toList, 1⟩, [⟨"two".toList, ⟨9, 12⟩, "snips/number".toList, "count".toList⟩]⟩
    (by decide +kernel) _ rfl

/-- The scope of `brew` is one builtin kind and one custom entity. -/
example : demoDet.scopes.get "brew".toList = some ([0], ["drink".toList]) := by decide +kernel

end Snips
