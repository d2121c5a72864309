import Verif.Props.C77_Narrowing
import Verif.Props.C09_GetSlots

/-! # C78: the slots of the answer are those `get_slots` gives for the intent of the answer -/

namespace Snips

/-! ### Parsers -/

/-- Deterministic parser: the slots of the intent that is found are those the parser gives when it is asked for the slots
of that intent, whatever the filter. -/
theorem c78_deterministic (env : RuleEnv) (p : Det) (hb : p.Built env.names) (o : HashOrd) (w : World) (input : Text)
    (f : Option (List Text)) (out : InternalResult) (i : Text) (h : (p.parse env o input f).run w = .ok out)
    (hi : out.intent.name = some i) : (p.getSlots env o input i).run w = .ok out.slots := by
  obtain ⟨ms, _, h1, h2⟩ := c35_deterministic_rounded env p hb o w input f out h
  have hmem := h2.slots i hi
  obtain ⟨_, halone⟩ := (h1 i out.slots).1 hmem
  obtain ⟨s, hs, hsi, hrun⟩ := (matchesAlone_iff hb).1 halone
  have hreg := matchIntent_ok_regexes hrun
  rw [hsi] at hreg
  unfold Det.getSlots
  have halone' : (p.parse env o input (some [i])).run w = .ok ⟨⟨some i, 1⟩, out.slots⟩ := halone
  rw [if_pos (by simpa using hreg), Prog.run_bind, halone']
  rfl

/-- Probabilistic parser: likewise. -/
theorem c78_probabilistic (env : ProbEnv) (p : Prob) (o o' : HashOrd) (w : World) (input : Text) (f : Option (List Text))
    (out : InternalResult) (i : Text) (h : (p.parse env o input f).run w = .ok out) (hi : out.intent.name = some i) :
    (p.getSlots env o' input i).run w = .ok out.slots := by
  obtain ⟨filler, h1, h2⟩ := (c54_answer env p o w input f out h).2.2 i hi
  rw [(c09_probabilistic env p o' w input i).1 filler h1]
  exact h2

/-- Lookup parser, exact arithmetic, provided that all intents have the same stop words and that the intent found is in
every group that the filter does not forbid altogether.  Missing from the full statement: both conditions, see
`c78_lookup_counterexample`. -/
theorem c78_lookup_partial (env : RuleEnv) (hrd : env.rd = Rounding.exact) (p : Lookup) (hs : p.stopWords.specific = [])
    (o : HashOrd) (w : World) (input : Text) (f : Option (List Text)) (out : InternalResult) (i : Text)
    (h : (p.parse env o input f).run w = .ok out) (hi : out.intent.name = some i) (hp : Permits f i)
    (hg : ∀ s ∈ p.scopes, (∃ j ∈ s.intentGroup, Permits f j) → i ∈ s.intentGroup) :
    (p.getSlots env o input i).run w = .ok out.slots := by
  have hname : i ∈ p.intentsNames := by
    obtain ⟨ms, _, h1, _, h3⟩ := c35_lookup_rounded env p o w input f out h
    obtain ⟨⟨_, _, _, _, _, _, _, _, _, n, _, _, hn, _⟩, _⟩ := h1 i out.slots (h3.slots i hi)
    exact List.mem_of_getElem? hn
  obtain ⟨out', hrun, _, hsl, _⟩ := c77_lookup_partial env hrd p hs o w input f (some [i])
    (by
      intro j hj
      have := hj [i] rfl
      rw [List.mem_singleton] at this
      exact this ▸ hp)
    (fun s hs' hex => ⟨i, hg s hs' hex, by intro l hl; cases hl; simp⟩) out i h hi (by intro l hl; cases hl; simp)
  unfold Lookup.getSlots
  rw [if_pos (by simpa using hname), Prog.run_bind, hrun]
  simp only [Outcome.bind, Prog.run_ret, hsl]


/-! ### Engine -/

theorem resolveSlots_nil {e : Engine} {input : Text} {ns : Nat} {w : World} {slots : List Slot}
    (h : (e.resolveSlots input [] ns).run w = .ok slots) : slots = [] := by
  change Outcome.ok [] = Outcome.ok slots at h
  cases h
  rfl

/-- An engine: suppose that the parsers `qs` find nothing, and have no slot to offer for the intent `i`, which is found
with some slot by the parser `m` after them, which is not a lookup parser.  Then `get_slots` of `i` gives
the slots of the answer.  Missing from the full statement: that the parsers before the one that answers have no
slot to offer, see `c78_engine_counterexample`; that there is some slot, see `c78_empty_counterexample`; and
lookup parsers. -/
theorem c78_engine_partial (dataset : DatasetMetadata) (names : KindNames) (qs : List ParserModel) (m : ParserModel)
    (hm : m.NotLookup) (rest : List ParserModel) (o : HashOrd) (w : World) (input : Text)
    (wl bl : Option (List Text)) (res : ParseResult) (i : Text)
    (h : ((Engine.ofParsers dataset names (qs ++ m :: rest)).parse o input wl bl).run w = .ok res)
    (hi : res.intent.name = some i) (hne : res.slots ≠ []) (hq : FindNothing dataset names qs o w input wl bl)
    (hlast : ¬FindNothing dataset names (qs ++ [m]) o w input wl bl)
    (hq' : ∀ j < qs.length, (Engine.ofParsers dataset names (qs ++ m :: rest)).parserSlots (o.sub 1) w input i j = some (.ok [])) :
    ((Engine.ofParsers dataset names (qs ++ m :: rest)).getSlots (o.sub 1) input i).run w = .ok res.slots := by
  obtain ⟨eff, heff⟩ := parse_ok_whitelist h
  have h0 := parse_after m [] (fun _ => heff) hq
  rw [parse_after m rest (fun _ => heff) hq] at h
  cases hr : (m.impl.parse ((o.sub 1).sub qs.length) input eff).run w with
  | err e => rw [hr] at h; cases h
  | panic => rw [hr] at h; cases h
  | ok r =>
    rw [hr] at h h0
    simp only [Outcome.bind] at h h0
    cases hn : r.intent.name with
    | none =>
      rw [hn] at h0
      exact absurd ⟨⟨input, ⟨none, r.intent.score⟩, [], []⟩, h0, rfl⟩ hlast
    | some n =>
      rw [hn] at h
      simp only at h
      cases hsl : ((Engine.ofParsers dataset names []).resolveSlots input r.slots 0).run w with
      | err e => rw [hsl] at h; cases h
      | panic => rw [hsl] at h; cases h
      | ok slots =>
        rw [hsl] at h
        simp only [Outcome.ok.injEq] at h
        subst h
        change r.intent.name = some i at hi
        change slots ≠ [] at hne
        have hs : (m.impl.getSlots ((o.sub 1).sub qs.length) input i).run w = .ok r.slots := by
          cases m with
          | lookup env p => exact hm.elim
          | deterministic env p => exact c78_deterministic env p hm _ w input eff r i hr hi
          | probabilistic env p => exact c78_probabilistic env p ((o.sub 1).sub qs.length) ((o.sub 1).sub qs.length) w input eff r i hr hi
        have hrne : r.slots ≠ [] := by
          intro hc
          rw [hc] at hsl
          exact hne (resolveSlots_nil hsl)
        have hk : (Engine.ofParsers dataset names (qs ++ m :: rest)).parserSlots (o.sub 1) w input i qs.length
            = some (.ok r.slots) := by
          unfold Engine.parserSlots
          simp [Engine.ofParsers, hs]
        unfold Engine.getSlots
        rw [(c09_first_nonempty _ (o.sub 1) w input i 0 qs.length hq').1 r.slots hk hrne,
          ofParsers_resolve dataset names _ [], hsl]

/-! ### Witnesses -/

/-- The full claim is false of lookup parsers: `parse` finds `brew` with a slot, and `get_slots` of `brew` has none. -/
theorem c78_lookup_counterexample :
    ∃ (p : Lookup) (input : Text) (out : InternalResult),
      (p.parse demoEnv HashOrd.insertion input none).run ruleWorld = .ok out ∧
      out.intent.name = some "brew".toList ∧ out.slots ≠ [] ∧
      (p.getSlots demoEnv HashOrd.insertion input "brew".toList).run ruleWorld = .ok [] :=
  ⟨politeLookup, "please make tea".toList,
    ⟨⟨some "brew".toList, 1⟩, [⟨"tea".toList, ⟨12, 15⟩, "drink".toList, "kind".toList⟩]⟩,
    by decide +kernel, rfl, by simp, by decide +kernel⟩

/-- A deterministic parser that hesitates between two intents with a number. -/
def numberDet : Det where
  regexes := [("brew".toList, [literalRegex "g0_1".toList "%SNIPS/NUMBER%".toList]),
    ("order".toList, [literalRegex "g0_1".toList "%SNIPS/NUMBER%".toList])]
  groupNames := [("g0".toList, "count".toList)]
  slotEntities := [("brew".toList, [("count".toList, "snips/number".toList)]),
    ("order".toList, [("count".toList, "snips/number".toList)])]
  stopWords := StopWords.new false [] []
  scopes := detScopes demoKinds [("brew".toList, [("count".toList, "snips/number".toList)]),
    ("order".toList, [("count".toList, "snips/number".toList)])]

/-- A deterministic parser that finds the drink of a `brew`. -/
def drinkDet : Det where
  regexes := [("brew".toList, [literalRegex "g0_1".toList "%DRINK%".toList])]
  groupNames := [("g0".toList, "kind".toList)]
  slotEntities := [("brew".toList, [("kind".toList, "drink".toList)])]
  stopWords := StopWords.new false [] []
  scopes := detScopes demoKinds [("brew".toList, [("kind".toList, "drink".toList)])]

/-- The full claim is false of engines: the first parser hesitates between two intents, and the second one answers `brew`
with the slot `kind`; but `get_slots` of `brew` asks the first parser about `brew` alone, and gives the
slot `count`. -/
theorem c78_engine_counterexample :
    ∃ (e : Engine) (res : ParseResult) (slots : List Slot),
      e = Engine.ofParsers ⟨[("drink".toList, false)], [("brew".toList, []), ("order".toList, [])]⟩ demoKinds
        [.deterministic demoEnv numberDet, .deterministic demoEnv drinkDet] ∧
      (e.parse HashOrd.insertion "two tea".toList none none).run ruleWorld = .ok res ∧
      (e.getSlots HashOrd.insertion "two tea".toList "brew".toList).run ruleWorld = .ok slots ∧
      res.intent.name = some "brew".toList ∧ res.slots.map Slot.slotName = ["kind".toList] ∧
      slots.map Slot.slotName = ["count".toList] :=
  ⟨_, ⟨"two tea".toList, ⟨some "brew".toList, 1⟩,
      [⟨"tea".toList, .custom "tea".toList, [], ⟨4, 7⟩, "drink".toList, "kind".toList⟩], []⟩,
    [⟨"two".toList, .builtin 2, [], ⟨0, 3⟩, "snips/number".toList, "count".toList⟩], rfl,
    by decide +kernel, by decide +kernel, rfl, rfl, rfl⟩

/-- And it is false of answers without slots: the first parser finds `brew` with no slot; `get_slots` goes on to the second
parser. -/
theorem c78_empty_counterexample :
    ∃ (e : Engine) (res : ParseResult) (slots : List Slot),
      e = Engine.ofParsers ⟨[("drink".toList, false)], [("brew".toList, [])]⟩ demoKinds
        [.deterministic demoEnv teaDet, .deterministic demoEnv drinkDet] ∧
      (e.parse HashOrd.insertion "two tea".toList none none).run ruleWorld = .ok res ∧
      (e.getSlots HashOrd.insertion "two tea".toList "brew".toList).run ruleWorld = .ok slots ∧
      res.intent.name = some "brew".toList ∧ res.slots = [] ∧ slots.map Slot.slotName = ["kind".toList] :=
  ⟨_, ⟨"two tea".toList, ⟨some "brew".toList, 1⟩, [], []⟩,
    [⟨"tea".toList, .custom "tea".toList, [], ⟨4, 7⟩, "drink".toList, "kind".toList⟩], rfl,
    by decide +kernel, by decide +kernel, rfl, rfl, rfl⟩

/-- The hypotheses of `c78_engine_partial`: a parser that finds nothing, then one that finds `brew` with a number. -/
example :
    let dataset : DatasetMetadata := ⟨[("drink".toList, false)], [("brew".toList, []), ("idiom".toList, []), ("halt".toList, [])]⟩
    let e := Engine.ofParsers dataset demoKinds [.lookup demoEnv politeLookup, .deterministic demoEnv demoDet,
      .deterministic demoEnv drinkDet]
    let slots : List Slot := [⟨"two".toList, .builtin 2, [], ⟨9, 12⟩, "snips/number".toList, "count".toList⟩]
    FindNothing dataset demoKinds [.lookup demoEnv politeLookup] HashOrd.insertion ruleWorld "make the two tea".toList none
      (some ["idiom".toList]) ∧
    e.parserSlots (HashOrd.insertion.sub 1) ruleWorld "make the two tea".toList "brew".toList 0 = some (.ok []) ∧
    (e.parse HashOrd.insertion "make the two tea".toList none (some ["idiom".toList])).run ruleWorld
      = .ok ⟨"make the two tea".toList, ⟨some "brew".toList, 1⟩, slots, []⟩ ∧
    (e.getSlots HashOrd.insertion "make the two tea".toList "brew".toList).run ruleWorld = .ok slots :=
  ⟨⟨⟨"make the two tea".toList, ⟨none, 1⟩, [], []⟩, by decide +kernel, rfl⟩, by decide +kernel, by decide +kernel,
    by decide +kernel⟩

/-- The hypotheses of `c78_lookup_partial`. -/
example :
    demoLookup.stopWords.specific = [] ∧
    (∀ s ∈ demoLookup.scopes, (∃ j ∈ s.intentGroup, Permits (some ["brew".toList]) j) → "brew".toList ∈ s.intentGroup) ∧
    (demoLookup.parse demoEnv HashOrd.insertion "make the two tea".toList (some ["brew".toList])).run ruleWorld
      = .ok ⟨⟨some "brew".toList, 1⟩, [⟨"two".toList, ⟨9, 12⟩, "snips/number".toList, "count".toList⟩,
        ⟨"tea".toList, ⟨13, 16⟩, "drink".toList, "kind".toList⟩]⟩ := by
  refine ⟨rfl, ?_, by decide +kernel⟩
  rintro s hs ⟨j, hj, hp⟩
  have := hp _ rfl
  rw [List.mem_singleton] at this
  exact this ▸ hj

end Snips
