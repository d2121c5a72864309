import Verif.Proofs.Extension
import Verif.Props.C36_Rankings
import Verif.Props.C63_Reproducible
import Verif.Props.C77_Narrowing
import Verif.Spec.RuleDemo

/-! # C111: intents whose patterns do not match a sentence do not change how it is understood -/

namespace Snips

open Extension

/-! ### The deterministic parser -/

/-- `parse`, exact arithmetic: a parser that was extended by intents which do not match the query gives the same answer. -/
theorem c111_parse (env : RuleEnv) (hrd : env.rd = Rounding.exact) (p p' : Det) (hb : p.Built env.names)
    (hb' : p'.Built env.names) (he : p.Extends p') (o : HashOrd) (w : World) (input : Text) (filter : Option (List Text))
    (hnew : Det.NewUnmatched env o w input p p') (out : InternalResult)
    (h : (p.parse env o input filter).run w = .ok out) : (p'.parse env o input filter).run w = .ok out := by
  unfold Det.parse at h ⊢
  rw [Prog.run_bind, Outcome.bind_ok] at h
  obtain ⟨top, htop, h⟩ := h
  obtain ⟨ms, ms', hp, _, rfl, _, hrun⟩ := det_top_ext (n' := 1) hb hb' he (fun i hi hi' _ => hnew i hi hi') htop
  rw [Prog.run_bind, hrun]
  rw [hrd, Prog.run_ret, Outcome.ok.injEq] at h
  rw [← h, pick_perm hp, hrd]
  rfl

/-- `get_slots`: the slots found for an intent do not depend on which other intents there are, whether they match or not. -/
theorem c111_get_slots (env : RuleEnv) (hrd : env.rd = Rounding.exact) (p p' : Det) (hb : p.Built env.names)
    (hb' : p'.Built env.names) (he : p.Extends p') (o : HashOrd) (w : World) (input intent : Text)
    (hi : intent ∈ p.slotEntities.keys) (slots : List InternalSlot)
    (h : (p.getSlots env o input intent).run w = .ok slots) : (p'.getSlots env o input intent).run w = .ok slots := by
  unfold Det.getSlots at h ⊢
  by_cases hc : p.regexes.keys.contains intent = true
  · have hc' : p'.regexes.keys.contains intent = true := by
      rw [List.contains_iff_mem] at hc ⊢
      obtain ⟨rs, hrs⟩ := Map.get_isSome_iff.2 hc
      exact Map.get_isSome_iff.1 ⟨rs, he.patterns _ _ hrs⟩
    rw [if_pos hc, Prog.run_bind, Outcome.bind_ok] at h
    rw [if_pos hc', Prog.run_bind, Outcome.bind_ok]
    obtain ⟨out, hout, h⟩ := h
    refine ⟨out, ?_, h⟩
    unfold Det.parse at hout ⊢
    rw [Prog.run_bind, Outcome.bind_ok] at hout
    obtain ⟨top, htop, hout⟩ := hout
    obtain ⟨ms, ms', hp, _, rfl, _, hrun⟩ := det_top_ext (n' := 1) hb hb' he (fun i _ hi' hf => by
      have : i = intent := by simpa [Permits] using hf
      exact absurd (this ▸ hi) hi') htop
    rw [Prog.run_bind, hrun]
    rw [hrd, Prog.run_ret, Outcome.ok.injEq] at hout
    rw [← hout, pick_perm hp, hrd]
    rfl
  · rw [if_neg hc] at h
    simp [Prog.run] at h

/-- `get_intents`: the ranking has the same results, and the new intents with confidence 0. -/
theorem c111_get_intents (env : RuleEnv) (hrd : env.rd = Rounding.exact) (p p' : Det) (hb : p.Built env.names)
    (hb' : p'.Built env.names) (he : p.Extends p') (o : HashOrd) (w : World) (input : Text)
    (hnew : Det.NewUnmatched env o w input p p') (out : List IntentResult)
    (h : (p.getIntents env o input).run w = .ok out) :
    ∃ out', (p'.getIntents env o input).run w = .ok out' ∧
      ∀ r, r ∈ out' ↔ r ∈ out ∨ ∃ i ∈ p'.regexes.keys, i ∉ p.regexes.keys ∧ r = ⟨some i, 0⟩ := by
  have hkeys : ∀ i ∈ p.regexes.keys, i ∈ p'.regexes.keys := by
    intro i hi
    obtain ⟨rs, hrs⟩ := Map.get_isSome_iff.2 hi
    exact Map.get_isSome_iff.1 ⟨rs, he.patterns _ _ hrs⟩
  unfold Det.getIntents at h ⊢
  rw [Prog.run_bind, Outcome.bind_ok] at h
  obtain ⟨top, htop, h⟩ := h
  rw [Prog.run_ret, Outcome.ok.injEq] at h
  obtain ⟨ms, ms', hp, hn, rfl, hsub, hrun⟩ := det_top_ext (n' := p'.regexes.keys.length) hb hb' he
    (fun i hi hi' _ => hnew i hi hi') htop
  refine ⟨_, by rw [Prog.run_bind, hrun]; rfl, ?_⟩
  have hlen : ∀ ks : List Text, (∀ m ∈ ms, m.1 ∈ ks) → ms.length ≤ ks.length := by
    intro ks hks
    have : (ms.map Prod.fst).Subperm ks :=
      hn.subperm (fun x hx => by obtain ⟨m, hm, rfl⟩ := List.mem_map.1 hx; exact hks m hm)
    simpa using this.length_le
  have hr1 := (rank_all (ms := ms) env.rd (hlen _ hsub)).map InternalResult.intent
  have hr2 := (rank_all (ms := ms') env.rd (n := p'.regexes.keys.length)
    (hp.length_eq ▸ hlen _ (fun m hm => hkeys _ (hsub m hm)))).map InternalResult.intent
  have htops : ((rankByWeight env.rd (ms.map mkRes) p.regexes.keys.length).map InternalResult.intent).Perm
      ((rankByWeight env.rd (ms'.map mkRes) p'.regexes.keys.length).map InternalResult.intent) := by
    refine hr1.trans (List.Perm.trans ?_ hr2.symm)
    simp only [hrd, conf_perm (hp.map mkRes)]
    exact (hp.map _).map _
  have hnames : ∀ r ∈ (rankByWeight env.rd (ms.map mkRes) p.regexes.keys.length).map InternalResult.intent,
      ∀ i, r.name = some i → i ∈ p.regexes.keys := by
    intro r hr i hi
    have := hr1.mem_iff.1 hr
    simp only [List.map_map, List.mem_map, Function.comp] at this
    obtain ⟨m, hm, rfl⟩ := this
    simp only [Option.some.injEq] at hi
    exact hi ▸ hsub m hm
  subst h
  generalize (rankByWeight env.rd (ms.map mkRes) p.regexes.keys.length).map InternalResult.intent = t at htops hnames
  generalize (rankByWeight env.rd (ms'.map mkRes) p'.regexes.keys.length).map InternalResult.intent = t' at htops
  intro r
  unfold completeRanking
  simp only [List.mem_append, List.mem_map, List.mem_filter, List.mem_singleton, (o.perm 2 _).mem_iff,
    ← htops.mem_iff, Bool.not_eq_true', List.contains_eq_mem, decide_eq_false_iff_not, List.mem_filterMap]
  constructor
  · rintro ((hr | ⟨i, ⟨hi, hni⟩, rfl⟩) | rfl)
    · exact Or.inl (Or.inl (Or.inl hr))
    · by_cases hk : i ∈ p.regexes.keys
      · exact Or.inl (Or.inl (Or.inr ⟨i, ⟨hk, hni⟩, rfl⟩))
      · exact Or.inr ⟨i, hi, hk, rfl⟩
    · exact Or.inl (Or.inr rfl)
  · rintro (((hr | ⟨i, ⟨hi, hni⟩, rfl⟩) | rfl) | ⟨i, hi, hk, rfl⟩)
    · exact Or.inl (Or.inl hr)
    · exact Or.inl (Or.inr ⟨i, ⟨hkeys i hi, hni⟩, rfl⟩)
    · exact Or.inr rfl
    · refine Or.inl (Or.inr ⟨i, ⟨hi, ?_⟩, rfl⟩)
      rintro ⟨r, hr, hri⟩
      exact hk (hnames r hr i hri)

/-! ### The engine -/

namespace Extension

theorem resolve_entities (e e' : Engine) (hd : e.dataset.entities = e'.dataset.entities) (hn : e.names = e'.names)
    (input : Text) (slots : List InternalSlot) (ns : Nat) : e.resolveSlots input slots ns = e'.resolveSlots input slots ns := by
  have he : ∀ b c l, e.resolveEach ns b c l = e'.resolveEach ns b c l := by
    intro b c l
    induction l with
    | nil => rfl
    | cons s l ih => simp only [Engine.resolveEach, ih, Engine.resolveOne, hd, hn]
  simp only [Engine.resolveSlots, hn, he]

theorem cascade_ext (e e' : Engine) (hd : e.dataset.entities = e'.dataset.entities) (hn : e.names = e'.names)
    {o : HashOrd} {w : World} {input : Text} {f : Option (List Text)} {ns : Nat} :
    ∀ {ps ps' : List ParserImpl}, List.Forall₂ (fun p p' => ∀ o r, (p.parse o input f).run w = .ok r →
      (p'.parse o input f).run w = .ok r) ps ps' → ∀ {i : Nat} {sc : ℚ} {res : ParseResult},
    (e.cascade o input f ns i ps sc).run w = .ok res → (e'.cascade o input f ns i ps' sc).run w = .ok res := by
  intro ps ps' h
  induction h with
  | nil => intro i sc res h; exact h
  | cons h1 _ ih =>
    intro i sc res h
    unfold Engine.cascade at h ⊢
    rw [Prog.run_bind_ok] at h ⊢
    obtain ⟨r, hr, h⟩ := h
    refine ⟨r, h1 _ r hr, ?_⟩
    cases hn' : r.intent.name with
    | some n =>
      simp only [hn'] at h ⊢
      rw [← resolve_entities e e' hd hn]
      exact h
    | none =>
      simp only [hn'] at h ⊢
      exact ih h

theorem slotsCascade_ext (e e' : Engine) (hd : e.dataset.entities = e'.dataset.entities) (hn : e.names = e'.names)
    {o : HashOrd} {w : World} {input intent : Text} {ns : Nat} :
    ∀ {ps ps' : List ParserImpl}, List.Forall₂ (fun p p' => ∀ o r, (p.getSlots o input intent).run w = .ok r →
      (p'.getSlots o input intent).run w = .ok r) ps ps' → ∀ {i : Nat} {res : List Slot},
    (e.slotsCascade o input intent ns i ps).run w = .ok res →
    (e'.slotsCascade o input intent ns i ps').run w = .ok res := by
  intro ps ps' h
  induction h with
  | nil => intro i res h; exact h
  | cons h1 _ ih =>
    intro i res h
    unfold Engine.slotsCascade at h ⊢
    rw [Prog.run_bind_ok] at h ⊢
    obtain ⟨r, hr, h⟩ := h
    refine ⟨r, h1 _ r hr, ?_⟩
    split
    · rename_i hc
      rw [if_pos hc] at h
      exact ih h
    · rename_i hc
      rw [if_neg hc, resolve_entities e e' hd hn] at h
      exact h

end Extension

/-- A pipeline in which deterministic parsers have been extended by intents that do not match the query. -/
def ParserModel.ExtendedBy (w : World) (input : Text) : ParserModel → ParserModel → Prop
  | .deterministic env p, .deterministic env' p' => env' = env ∧ env.rd = Rounding.exact ∧ p.Built env.names ∧
      p'.Built env.names ∧ p.Extends p' ∧ ∀ o, Det.NewUnmatched env o w input p p'
  | m, m' => m' = m

/-- `parse`, for a dataset with more intents over the same entities, and a filter that names intents of the old one. -/
theorem c111_engine_parse (dataset dataset' : DatasetMetadata) (names : KindNames) (ps ps' : List ParserModel)
    (hent : dataset'.entities = dataset.entities)
    (hint : ∀ i ∈ dataset.slotNameMappings.keys, i ∈ dataset'.slotNameMappings.keys) (w : World) (input : Text)
    (hps : List.Forall₂ (ParserModel.ExtendedBy w input) ps ps') (o : HashOrd) (whitelist : Option (List Text))
    (ns : Nat) (out : ParseResult)
    (h : ((Engine.ofParsers dataset names ps).parseWithAlternatives o input whitelist none 0 ns).run w = .ok out) :
    ((Engine.ofParsers dataset' names ps').parseWithAlternatives o input whitelist none 0 ns).run w = .ok out := by
  unfold Engine.parseWithAlternatives at h ⊢
  rw [Prog.run_bind_ok] at h ⊢
  obtain ⟨eff, heff, h⟩ := h
  refine ⟨eff, ?_, ?_⟩
  · rw [Prog.run_ofOutcome] at heff ⊢
    unfold Engine.getIntentsWhitelist at heff ⊢
    simp only at heff ⊢
    split at heff
    · cases heff
    · rename_i hfind
      rw [List.find?_eq_none] at hfind
      have : (whitelist.getD [] ++ (none : Option (List Text)).getD []).find?
          (fun intent => !dataset'.slotNameMappings.keys.contains intent) = none := by
        rw [List.find?_eq_none]
        intro x hx
        have hx' := hfind x hx
        simp only [Bool.not_eq_true', Bool.not_eq_false, List.contains_iff_mem] at hx' ⊢
        exact hint x hx'
      show (match (whitelist.getD [] ++ (none : Option (List Text)).getD []).find?
          (fun intent => !dataset'.slotNameMappings.keys.contains intent) with
        | some unknown => Outcome.err (.unknownFilterIntent unknown)
        | none => _) = _
      rw [this]
      exact heff
  · rw [Prog.run_bind_ok] at h ⊢
    obtain ⟨main, hmain, h⟩ := h
    refine ⟨main, cascade_ext (Engine.ofParsers dataset names ps) (Engine.ofParsers dataset' names ps') hent.symm rfl ?_ hmain, h⟩
    show List.Forall₂ _ (ps.map ParserModel.impl) (ps'.map ParserModel.impl)
    rw [List.forall₂_map_left_iff, List.forall₂_map_right_iff]
    refine hps.imp fun m m' hm => ?_
    intro o r hr
    cases m with
    | deterministic env p =>
      cases m' with
      | deterministic env' p' =>
        obtain ⟨rfl, hrd, hb, hb', he, hnew⟩ := hm
        exact c111_parse _ hrd p p' hb hb' he o w input eff (hnew o) r hr
      | lookup env' p' => cases hm
      | probabilistic env' p' => cases hm
    | lookup env p =>
      change m' = _ at hm
      subst hm; exact hr
    | probabilistic env p =>
      change m' = _ at hm
      subst hm; exact hr

/-- `get_slots`, for an intent that all the pattern parsers had. -/
theorem c111_engine_get_slots (dataset dataset' : DatasetMetadata) (names : KindNames) (ps ps' : List ParserModel)
    (hent : dataset'.entities = dataset.entities) (w : World) (input intent : Text)
    (hps : List.Forall₂ (ParserModel.ExtendedBy w input) ps ps')
    (hi : ∀ env p, ParserModel.deterministic env p ∈ ps → intent ∈ p.slotEntities.keys) (o : HashOrd) (ns : Nat)
    (slots : List Slot)
    (h : ((Engine.ofParsers dataset names ps).getSlotsWithAlternatives o input intent ns).run w = .ok slots) :
    ((Engine.ofParsers dataset' names ps').getSlotsWithAlternatives o input intent ns).run w = .ok slots := by
  refine slotsCascade_ext (Engine.ofParsers dataset names ps) (Engine.ofParsers dataset' names ps') hent.symm rfl ?_ h
  show List.Forall₂ _ (ps.map ParserModel.impl) (ps'.map ParserModel.impl)
  rw [List.forall₂_map_left_iff, List.forall₂_map_right_iff]
  clear h
  induction hps with
  | nil => exact List.Forall₂.nil
  | @cons m m' l l' hm _ ih =>
    refine List.Forall₂.cons ?_ (ih fun env p hp => hi env p (by simp [hp]))
    intro o r hr
    cases m with
    | deterministic env p =>
      cases m' with
      | deterministic env' p' =>
        obtain ⟨rfl, hrd, hb, hb', he, hnew⟩ := hm
        exact c111_get_slots env' hrd p p' hb hb' he o w input intent (hi env' p (by simp)) r hr
      | lookup env' p' => cases hm
      | probabilistic env' p' => cases hm
    | lookup env p =>
      change m' = _ at hm
      subst hm; exact hr
    | probabilistic env p =>
      change m' = _ at hm
      subst hm; exact hr

/-! ### Look-up tables -/

/-- `brew` alone; `please` is not a stop word for it. -/
def brewLookup : Lookup where
  slotsNames := ["kind".toList]
  intentsNames := ["brew".toList]
  map := [(demoEnv.fns.hashStr "make %drink%".toList, (0, [0]))]
  stopWords := StopWords.new true ["please".toList] [("brew".toList, ["please".toList])]
  scopes := [⟨["brew".toList], ["snips/number".toList], ["drink".toList]⟩]

/-- The same is false of look-up tables: a new intent in a group of intents, itself not recognised in the query, can make
the query be recognised as another intent, because its stop words apply to the whole group. -/
theorem c111_lookup_counterexample :
    ∃ (p p' : Lookup) (input : Text), p.Extends p' ∧ Lookup.NewUnmatched demoEnv HashOrd.insertion ruleWorld input p p' ∧
      (p.parse demoEnv HashOrd.insertion input none).run ruleWorld = .ok ⟨⟨none, 1⟩, []⟩ ∧
      ∃ out, (p'.parse demoEnv HashOrd.insertion input none).run ruleWorld = .ok out ∧
        out.intent.name = some "brew".toList := by
  refine ⟨brewLookup, politeLookup, "please make tea".toList, ⟨?_, ?_, ?_, ?_, ?_⟩, ?_, by decide +kernel,
    ⟨⟨some "brew".toList, 1⟩, [⟨"tea".toList, ⟨12, 15⟩, "drink".toList, "kind".toList⟩]⟩, by decide +kernel, rfl⟩
  · exact ⟨[], rfl⟩
  · exact ⟨["halt".toList], rfl⟩
  · intro k e h
    unfold brewLookup at h
    simp only [Map.get_cons, Map.get_nil] at h
    split at h
    · rename_i hk
      unfold politeLookup
      simp only [Map.get_cons, if_pos hk]
      exact h
    · cases h
  · intro i hi
    simp only [brewLookup, List.mem_singleton] at hi
    subst hi
    decide +kernel
  · exact List.Forall₂.cons ⟨⟨["halt".toList], rfl⟩, rfl, rfl⟩ List.Forall₂.nil
  · intro i hi hi'
    simp only [politeLookup, brewLookup, List.mem_cons, List.not_mem_nil, or_false] at hi hi'
    rcases hi with rfl | rfl
    · exact absurd rfl hi'
    · decide +kernel

/-! ### Example -/

/-- The parser of the examples before `idiom` and `halt` were added. -/
def brewDet : Det where
  regexes := [("brew".toList, [literalRegex "g0_1".toList "%SNIPS/NUMBER%".toList])]
  groupNames := [("g0".toList, "count".toList)]
  slotEntities := [("brew".toList, [("count".toList, "snips/number".toList), ("kind".toList, "drink".toList)])]
  stopWords := StopWords.new true ["the".toList] []
  scopes := detScopes demoKinds [("brew".toList,
      [("count".toList, "snips/number".toList), ("kind".toList, "drink".toList)])]

theorem brewDet_extends : brewDet.Extends demoDet := by
  have one : ∀ {ν : Type} {k0 : Text} {v0 : ν} {rest : Map Text ν} {k : Text} {v : ν},
      Map.get [(k0, v0)] k = some v → Map.get ((k0, v0) :: rest) k = some v := by
    intro ν k0 v0 rest k v h
    rw [Map.get_cons, Map.get_nil] at h
    rw [Map.get_cons]
    split at h
    · rename_i hk; rw [if_pos hk]; exact h
    · cases h
  exact ⟨fun _ _ h => one h, fun _ _ h => one h, fun _ _ h => one h, fun _ _ _ => rfl⟩

/-- `make two cups` matches only `brew`, with one slot. -/
example : brewDet.Built demoEnv.names ∧ demoDet.Built demoEnv.names ∧ brewDet.Extends demoDet ∧
    Det.NewUnmatched demoEnv HashOrd.insertion ruleWorld "make two cups".toList brewDet demoDet ∧
    ∃ out, (brewDet.parse demoEnv HashOrd.insertion "make two cups".toList none).run ruleWorld = .ok out ∧
      out.intent.name = some "brew".toList ∧ out.slots.length = 1 := by
  refine ⟨⟨rfl, by decide⟩, demoDet_built, brewDet_extends, ?_, ?_⟩
  · intro i hi hi'
    simp only [Map.keys, demoDet, brewDet, List.map_cons, List.map_nil, List.mem_cons, List.not_mem_nil, or_false] at hi hi'
    rcases hi with rfl | rfl | rfl
    · exact absurd rfl hi'
    · decide +kernel
    · decide +kernel
  · refine ⟨⟨⟨some "brew".toList, 1⟩, [⟨"two".toList, ⟨5, 8⟩, "snips/number".toList, "count".toList⟩]⟩, ?_, rfl, rfl⟩
    decide +kernel

end Snips
