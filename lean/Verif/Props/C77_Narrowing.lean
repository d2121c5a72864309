import Verif.Proofs.NarrowLookup
import Verif.Props.C03_Cascade
import Verif.Props.C06_Single

/-! # C77: forbidding intents other than the answer -/

namespace Snips

/-! ### Parsers -/

/-- Deterministic parser, any rounding: if the parser finds an intent, and a stricter filter still allows that intent,
then the parser finds it under the stricter filter too, with the same slots and no less confidence. -/
theorem c77_deterministic (env : RuleEnv) (p : Det) (hb : p.Built env.names) (o : HashOrd) (w : World) (input : Text)
    (f f' : Option (List Text)) (hf : Narrower f f') (out : InternalResult) (i : Text)
    (h : (p.parse env o input f).run w = .ok out) (hi : out.intent.name = some i) (hp : Permits f' i) :
    ∃ out', (p.parse env o input f').run w = .ok out' ∧ out'.intent.name = some i ∧ out'.slots = out.slots ∧
      out.intent.score ≤ out'.intent.score := by
  obtain ⟨ms, ms', hsub, _, rfl, hrun, hm⟩ := det_narrow hb hf h
  exact ⟨_, hrun, pick_sublist env.rd hsub hi fun sl hsl => hm i sl hsl hp⟩

/-- Probabilistic parser: if the answer is allowed by a stricter filter, or is that there is no intent, it is also the
answer under the stricter filter. -/
theorem c77_probabilistic (env : ProbEnv) (p : Prob) (o : HashOrd) (w : World) (input : Text) (f f' : Option (List Text))
    (hf : Narrower f f') (out : InternalResult) (h : (p.parse env o input f).run w = .ok out)
    (hp : ∀ i, out.intent.name = some i → Permits f' i) : (p.parse env o input f').run w = .ok out :=
  prob_narrow hf h hp

/-- Lookup parser, exact arithmetic, provided that all intents have the same stop words, and that no group of intents
is forbidden altogether.  Missing from the full statement: both conditions, see `c77_lookup_counterexample`. -/
theorem c77_lookup_partial (env : RuleEnv) (hrd : env.rd = Rounding.exact) (p : Lookup) (hs : p.stopWords.specific = [])
    (o : HashOrd) (w : World) (input : Text) (f f' : Option (List Text)) (hf : Narrower f f')
    (hg : ∀ s ∈ p.scopes, (∃ i ∈ s.intentGroup, Permits f i) → ∃ i ∈ s.intentGroup, Permits f' i)
    (out : InternalResult) (i : Text) (h : (p.parse env o input f).run w = .ok out) (hi : out.intent.name = some i)
    (hp : Permits f' i) :
    ∃ out', (p.parse env o input f').run w = .ok out' ∧ out'.intent.name = some i ∧ out'.slots = out.slots ∧
      out.intent.score ≤ out'.intent.score := by
  obtain ⟨ms, ms', hsub, rfl, hrun, hm⟩ := lookup_narrow hs hf hg h
  refine ⟨_, hrun, ?_⟩
  obtain ⟨l, hperm, hsl⟩ := hsub
  have := pick_sublist env.rd hsl hi fun sl hsl' => hperm.mem_iff.2 (hm i sl hsl' hp)
  rw [hrd] at this ⊢
  rw [pick_perm hperm.symm]
  exact this

/-! ### Engine -/

theorem Engine.cascade_append {e : Engine} {o : HashOrd} {input : Text} {f : Option (List Text)} {ns : Nat} {w : World} :
    ∀ (qs rs : List ParserImpl) (i : Nat) (sc : ℚ), (e.cascade o input f ns i (qs ++ rs) sc).run w
      = ((e.cascade o input f ns i qs sc).run w).bind fun res =>
          if res.intent.name = none then (e.cascade o input f ns (i + qs.length) rs res.intent.score).run w else .ok res
  | [], rs, i, sc => by
    simp only [List.nil_append, List.length_nil, Nat.add_zero]
    conv_rhs => rw [Engine.cascade]
    rw [Prog.run_ret]
    simp only [Outcome.bind, if_true]
  | q :: qs, rs, i, sc => by
    simp only [List.cons_append, Engine.cascade, Prog.run_bind']
    cases (q.parse (o.sub i) input f).run w with
    | err e => rfl
    | panic => rfl
    | ok r =>
      simp only [Outcome.bind]
      cases hn : r.intent.name with
      | none =>
        simp only
        rw [Engine.cascade_append qs rs (i + 1) r.intent.score, List.length_cons, Nat.add_assoc, Nat.add_comm 1]
        rfl
      | some n =>
        simp only
        simp only [Prog.run_bind']
        cases (e.resolveSlots input r.slots ns).run w with
        | err e => rfl
        | panic => rfl
        | ok slots =>
          simp only [Outcome.bind]
          rw [Prog.run_ret]
          simp [hn]

/-- The parsers of a list find no intent in the input, under the lists. -/
def FindNothing (dataset : DatasetMetadata) (names : KindNames) (ps : List ParserModel) (o : HashOrd) (w : World)
    (input : Text) (wl bl : Option (List Text)) : Prop :=
  ∃ res, ((Engine.ofParsers dataset names ps).parse o input wl bl).run w = .ok res ∧ res.intent.name = none

theorem ofParsers_cascade (dataset : DatasetMetadata) (names : KindNames) (ps qs : List ParserModel) (o : HashOrd)
    (input : Text) (f : Option (List Text)) (ns i : Nat) (l : List ParserImpl) (sc : ℚ) :
    (Engine.ofParsers dataset names ps).cascade o input f ns i l sc
      = (Engine.ofParsers dataset names qs).cascade o input f ns i l sc :=
  cascade_congr (Engine.ofParsers dataset names ps) (Engine.ofParsers dataset names qs) rfl rfl o input f ns l l i sc
    (List.forall₂_same.2 fun _ _ _ => rfl)

theorem ofParsers_resolve (dataset : DatasetMetadata) (names : KindNames) (ps qs : List ParserModel) (input : Text)
    (slots : List InternalSlot) (ns : Nat) : (Engine.ofParsers dataset names ps).resolveSlots input slots ns
      = (Engine.ofParsers dataset names qs).resolveSlots input slots ns := by
  have he : ∀ b c l, (Engine.ofParsers dataset names ps).resolveEach ns b c l
      = (Engine.ofParsers dataset names qs).resolveEach ns b c l := by
    intro b c l
    induction l with
    | nil => rfl
    | cons s l ihl => simp only [Engine.resolveEach, ihl]; rfl
  simp only [Engine.resolveSlots, he]
  rfl

/-- The scores of "no intent" handed from parser to parser do not matter to the parsers. -/
theorem cascade_score {e : Engine} {o : HashOrd} {input : Text} {f : Option (List Text)} {ns i : Nat} {p : ParserImpl}
    {ps : List ParserImpl} (sc sc' : ℚ) : e.cascade o input f ns i (p :: ps) sc = e.cascade o input f ns i (p :: ps) sc' := rfl

/-- What an engine answers when the parsers before a given one find nothing. -/
theorem parse_after {dataset : DatasetMetadata} {names : KindNames} {qs : List ParserModel} {o : HashOrd} {w : World}
    {input : Text} {wl bl eff : Option (List Text)} (m : ParserModel) (rest : List ParserModel)
    (he : ∀ ps, (Engine.ofParsers dataset names ps).getIntentsWhitelist (o.sub 0) wl bl = .ok eff)
    (hq : FindNothing dataset names qs o w input wl bl) :
    ((Engine.ofParsers dataset names (qs ++ m :: rest)).parse o input wl bl).run w
      = ((m.impl.parse ((o.sub 1).sub qs.length) input eff).run w).bind fun r =>
          match r.intent.name with
          | some _ => (((Engine.ofParsers dataset names []).resolveSlots input r.slots 0).run w).bind fun slots =>
              .ok ⟨input, r.intent, slots, []⟩
          | none => ((Engine.ofParsers dataset names []).cascade (o.sub 1) input eff 0 (qs.length + 1)
              (rest.map ParserModel.impl) r.intent.score).run w := by
  obtain ⟨res, hres, hn⟩ := hq
  unfold Engine.parse at hres ⊢
  rw [parse_eq_cascade _ o input wl bl eff 0 w (he _)] at hres ⊢
  have hps : (Engine.ofParsers dataset names (qs ++ m :: rest)).parsers
      = qs.map ParserModel.impl ++ m.impl :: rest.map ParserModel.impl := by simp [Engine.ofParsers]
  rw [hps, ofParsers_cascade dataset names _ [], Engine.cascade_append]
  rw [ofParsers_cascade dataset names _ []] at hres
  change ((Engine.ofParsers dataset names []).cascade (o.sub 1) input eff 0 0 (qs.map ParserModel.impl) 0).run w = .ok res at hres
  rw [hres]
  simp only [Outcome.bind, hn, if_true, Engine.cascade, Prog.run_bind', Nat.zero_add, List.length_map]
  cases (m.impl.parse ((o.sub 1).sub qs.length) input eff).run w with
  | err e => rfl
  | panic => rfl
  | ok r =>
    simp only
    cases r.intent.name with
    | none => rfl
    | some n =>
      simp only
      show (Prog.run w (Prog.bind _ _)) = _
      rw [Prog.run_bind]
      cases ((Engine.ofParsers dataset names []).resolveSlots input r.slots 0).run w <;> rfl

/-- The parsers for which stricter filters are harmless: deterministic parsers and probabilistic ones. -/
def ParserModel.NotLookup : ParserModel → Prop
  | .lookup _ _ => False
  | .deterministic env p => p.Built env.names
  | .probabilistic _ _ => True

theorem whitelist_any {dataset : DatasetMetadata} {names : KindNames} {o : HashOrd} {wl bl : Option (List Text)}
    (ps qs : List ParserModel) : (Engine.ofParsers dataset names ps).getIntentsWhitelist o wl bl
      = (Engine.ofParsers dataset names qs).getIntentsWhitelist o wl bl := rfl

theorem filterKnown_of_ok {e : Engine} {o : HashOrd} {wl bl eff : Option (List Text)}
    (h : e.getIntentsWhitelist o wl bl = .ok eff) : e.FilterKnown wl bl := by
  by_contra hk
  obtain ⟨i, _, _, h3⟩ := getIntentsWhitelist_unknown e o wl bl hk
  rw [h3] at h
  cases h

theorem parse_ok_whitelist {e : Engine} {o : HashOrd} {w : World} {input : Text} {wl bl : Option (List Text)} {res : ParseResult}
    (h : (e.parse o input wl bl).run w = .ok res) : ∃ eff, e.getIntentsWhitelist (o.sub 0) wl bl = .ok eff := by
  unfold Engine.parse Engine.parseWithAlternatives at h
  rw [Prog.run_bind_ok] at h
  obtain ⟨eff, heff, _⟩ := h
  rw [Prog.run_ofOutcome] at heff
  exact ⟨eff, heff⟩

/-- An engine: suppose that under some lists the parsers `qs` find nothing and the parser `m` after them, which is not a
lookup parser, finds the intent `i`, so that this is the answer; and that under stricter lists which still allow `i` the
parsers `qs` still find nothing.  Then the answer under the stricter lists is also `i`, with the same slots and no less
confidence, whatever parsers come after.  Missing from the full statement: that the parsers before the one that
answers still find nothing, see `c77_engine_counterexample`; and lookup parsers. -/
theorem c77_engine_partial (dataset : DatasetMetadata) (names : KindNames) (qs : List ParserModel) (m : ParserModel)
    (hm : m.NotLookup) (rest : List ParserModel) (o : HashOrd) (w : World) (input : Text)
    (wl bl wl' bl' : Option (List Text)) (hg : (wl = none ∧ bl = none) ∨ ¬(wl' = none ∧ bl' = none))
    (hnarrow : ∀ j, Allowed wl' bl' j → Allowed wl bl j) (res : ParseResult) (i : Text)
    (h : ((Engine.ofParsers dataset names (qs ++ m :: rest)).parse o input wl bl).run w = .ok res)
    (hi : res.intent.name = some i) (hq : FindNothing dataset names qs o w input wl bl)
    (hlast : ¬FindNothing dataset names (qs ++ [m]) o w input wl bl)
    (hallowed : i ∈ dataset.slotNameMappings.map Prod.fst ∧ Allowed wl' bl' i)
    (hq' : FindNothing dataset names qs o w input wl' bl') :
    ∃ res', ((Engine.ofParsers dataset names (qs ++ m :: rest)).parse o input wl' bl').run w = .ok res' ∧
      res'.intent.name = some i ∧ res'.slots = res.slots ∧ res.intent.score ≤ res'.intent.score := by
  obtain ⟨eff, heff⟩ := parse_ok_whitelist h
  obtain ⟨_, hq'', _⟩ := id hq'
  obtain ⟨eff', heff'⟩ := parse_ok_whitelist hq''
  have hF := getIntentsWhitelist_known _ (o.sub 0) wl bl (filterKnown_of_ok heff)
  have hF' := getIntentsWhitelist_known _ (o.sub 0) wl' bl' (filterKnown_of_ok heff')
  obtain ⟨x, hx, hF⟩ := hF
  obtain ⟨x', hx', hF'⟩ := hF'
  rw [heff] at hx
  rw [heff'] at hx'
  cases hx
  cases hx'
  have hN : Narrower eff eff' := by
    intro j hj
    unfold Engine.IsFilterFor at hF hF'
    cases eff with
    | none => intro l hl; cases hl
    | some l =>
      cases eff' with
      | none => exact absurd hF' (hg.resolve_left hF.1)
      | some l' =>
        intro l0 hl0
        cases hl0
        obtain ⟨h1, h2⟩ := (hF'.2 j).1 (hj l' rfl)
        exact (hF.2 j).2 ⟨h1, hnarrow j h2⟩
  have hP : Permits eff' i := (IsFilterFor.permits hF' hallowed.1).2 hallowed.2
  rw [parse_after m rest (fun _ => heff') hq']
  have h0 := parse_after m [] (fun _ => heff) hq
  rw [parse_after m rest (fun _ => heff) hq] at h
  cases hr : (m.impl.parse ((o.sub 1).sub qs.length) input eff).run w with
  | err e => rw [hr] at h; cases h
  | panic => rw [hr] at h; cases h
  | ok r =>
    rw [hr] at h h0
    simp only [Outcome.bind] at h h0
    cases hn : r.intent.name with
    | none =>
      rw [hn] at h0
      exact absurd ⟨⟨input, ⟨none, r.intent.score⟩, [], []⟩, h0, rfl⟩ hlast
    | some n =>
      rw [hn] at h
      simp only at h
      cases hsl : ((Engine.ofParsers dataset names []).resolveSlots input r.slots 0).run w with
      | err e => rw [hsl] at h; cases h
      | panic => rw [hsl] at h; cases h
      | ok slots =>
        rw [hsl] at h
        simp only [Outcome.ok.injEq] at h
        subst h
        change r.intent.name = some i at hi
        obtain ⟨r', hr', hi', hs', hc'⟩ : ∃ r', (m.impl.parse ((o.sub 1).sub qs.length) input eff').run w = .ok r' ∧
            r'.intent.name = some i ∧ r'.slots = r.slots ∧ r.intent.score ≤ r'.intent.score := by
          cases m with
          | lookup env p => exact hm.elim
          | deterministic env p => exact c77_deterministic env p hm _ w input eff eff' hN r i hr hi hP
          | probabilistic env p =>
            refine ⟨r, c77_probabilistic env p _ w input eff eff' hN r hr ?_, hi, rfl, le_refl _⟩
            intro j hj
            rw [hi, Option.some.injEq] at hj
            exact hj ▸ hP
        refine ⟨⟨input, r'.intent, slots, []⟩, ?_, hi', rfl, hc'⟩
        rw [hr']
        simp only [Outcome.bind, hi', hs', hsl]

/-! ### Witnesses -/

/-- Two intents in one group; `please` is a stop word for `halt` but not for `brew`. -/
def politeLookup : Lookup where
  slotsNames := ["kind".toList]
  intentsNames := ["brew".toList, "halt".toList]
  map := [(demoEnv.fns.hashStr "make %drink%".toList, (0, [0])), (demoEnv.fns.hashStr "stop".toList, (1, []))]
  stopWords := StopWords.new true ["please".toList] [("brew".toList, ["please".toList])]
  scopes := [⟨["brew".toList, "halt".toList], ["snips/number".toList], ["drink".toList]⟩]

/-- The full claim is false of lookup parsers: the sentence is cleaned of the stop words of all intents allowed in a group,
and then looked up for all of them, so that forbidding `halt` changes what is found for `brew`. -/
theorem c77_lookup_counterexample :
    ∃ (p : Lookup) (input : Text) (out out' : InternalResult),
      (p.parse demoEnv HashOrd.insertion input none).run ruleWorld = .ok out ∧
      (p.parse demoEnv HashOrd.insertion input (some ["brew".toList])).run ruleWorld = .ok out' ∧
      out.intent.name = some "brew".toList ∧ out'.intent.name = none :=
  ⟨politeLookup, "please make tea".toList,
    ⟨⟨some "brew".toList, 1⟩, [⟨"tea".toList, ⟨12, 15⟩, "drink".toList, "kind".toList⟩]⟩, ⟨⟨none, 1⟩, []⟩,
    by decide +kernel, by decide +kernel, rfl, rfl⟩

/-- A deterministic parser which recognises `brew` in any text with `tea`. -/
def teaDet : Det where
  regexes := [("brew".toList, [plainRegex "tea".toList])]
  groupNames := []
  slotEntities := [("brew".toList, [])]
  stopWords := StopWords.new false [] []
  scopes := detScopes demoKinds [("brew".toList, [])]

/-- The full claim is false of engines: the first parser hesitates between two intents, so that the second one answers
`brew`; if one of the two intents is forbidden, then the first parser no longer hesitates, and the answer is the other. -/
theorem c77_engine_counterexample :
    ∃ (e : Engine) (res res' : ParseResult),
      e = Engine.ofParsers ⟨[], [("idiom".toList, []), ("halt".toList, []), ("brew".toList, [])]⟩ demoKinds
        [.deterministic demoEnv tiedDet, .deterministic demoEnv teaDet] ∧
      (e.parse HashOrd.insertion "tea".toList none none).run ruleWorld = .ok res ∧
      (e.parse HashOrd.insertion "tea".toList none (some ["halt".toList])).run ruleWorld = .ok res' ∧
      res.intent.name = some "brew".toList ∧ res'.intent.name = some "idiom".toList :=
  ⟨_, ⟨"tea".toList, ⟨some "brew".toList, 1⟩, [], []⟩, ⟨"tea".toList, ⟨some "idiom".toList, 1⟩, [], []⟩, rfl,
    by decide +kernel, by decide +kernel, rfl, rfl⟩

/-- The hypotheses of `c77_engine_partial`: a parser that finds nothing, then one which finds `idiom`, although it also
recognises `brew`; without `brew` the answer is the same, with more confidence. -/
example :
    let dataset : DatasetMetadata := ⟨[("drink".toList, false)], [("brew".toList, []), ("idiom".toList, []), ("halt".toList, [])]⟩
    let ps : List ParserModel := [.lookup demoEnv politeLookup, .deterministic demoEnv demoDet, .deterministic demoEnv teaDet]
    (ParserModel.deterministic demoEnv demoDet).NotLookup ∧
    FindNothing dataset demoKinds (ps.take 1) HashOrd.insertion ruleWorld "make the two tea".toList none none ∧
    FindNothing dataset demoKinds (ps.take 1) HashOrd.insertion ruleWorld "make the two tea".toList none (some ["brew".toList]) ∧
    ((Engine.ofParsers dataset demoKinds ps).parse HashOrd.insertion "make the two tea".toList none none).run ruleWorld
      = .ok ⟨"make the two tea".toList, ⟨some "idiom".toList, 2 / 3⟩, [], []⟩ ∧
    ((Engine.ofParsers dataset demoKinds ps).parse HashOrd.insertion "make the two tea".toList none
      (some ["brew".toList])).run ruleWorld = .ok ⟨"make the two tea".toList, ⟨some "idiom".toList, 1⟩, [], []⟩ :=
  ⟨demoDet_built, ⟨⟨"make the two tea".toList, ⟨none, 1⟩, [], []⟩, by decide +kernel, rfl⟩,
    ⟨⟨"make the two tea".toList, ⟨none, 1⟩, [], []⟩, by decide +kernel, rfl⟩, by decide +kernel, by decide +kernel⟩

/-- The hypotheses of `c77_lookup_partial`: forbidding `brew`, whose group also has `idiom`. -/
example :
    let p : Lookup := { demoLookup with scopes := [⟨["brew".toList, "idiom".toList], ["snips/number".toList], ["drink".toList]⟩] }
    p.stopWords.specific = [] ∧
    (p.parse demoEnv HashOrd.insertion "make the two tea".toList none).run ruleWorld
      = .ok ⟨⟨some "idiom".toList, 3 / 4⟩, []⟩ ∧
    (p.parse demoEnv HashOrd.insertion "make the two tea".toList (some ["idiom".toList])).run ruleWorld
      = .ok ⟨⟨some "idiom".toList, 1⟩, []⟩ :=
  ⟨rfl, by decide +kernel, by decide +kernel⟩

end Snips
