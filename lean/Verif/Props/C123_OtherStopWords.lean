import Verif.Proofs.OtherStopWords
import Verif.Props.C120_ReadBlanks

/-! C123: stop words that do not occur in a query do not change what is read in it. -/

namespace Snips

open OtherStopWords

/-- With other stop words, that skip the same words of the query, the lookup parser answers the query as before: to
each of its three calls, failures included. -/
theorem c123_lookup (env : RuleEnv) (p : Lookup) (s : StopWords) (w : World) (input : Text)
    (h : p.SameSkipped env w input s) (o : HashOrd) :
    (∀ filter, (({ p with stopWords := s } : Lookup).parse env o input filter).run w = (p.parse env o input filter).run w) ∧
    (({ p with stopWords := s } : Lookup).getIntents env o input).run w = (p.getIntents env o input).run w ∧
    ∀ intent, (({ p with stopWords := s } : Lookup).getSlots env o input intent).run w
      = (p.getSlots env o input intent).run w := by
  have hparse : ∀ filter, (({ p with stopWords := s } : Lookup).parse env o input filter).run w
      = (p.parse env o input filter).run w := fun filter =>
    run_bind_congr (lookup_top env p s w input h o 1 filter) fun _ _ => rfl
  refine ⟨hparse, run_bind_congr (lookup_top env p s w input h o _ none) fun _ _ => rfl, fun intent => ?_⟩
  unfold Lookup.getSlots
  split
  · exact run_bind_congr (hparse _) fun _ _ => rfl
  · rfl

/-- The same for the deterministic parser. -/
theorem c123_deterministic (env : RuleEnv) (p : Det) (s : StopWords) (w : World) (input : Text)
    (h : p.SameSkipped env w input s) (o : HashOrd) :
    (∀ filter, (({ p with stopWords := s } : Det).parse env o input filter).run w = (p.parse env o input filter).run w) ∧
    (({ p with stopWords := s } : Det).getIntents env o input).run w = (p.getIntents env o input).run w ∧
    ∀ intent, (({ p with stopWords := s } : Det).getSlots env o input intent).run w
      = (p.getSlots env o input intent).run w := by
  have hparse : ∀ filter, (({ p with stopWords := s } : Det).parse env o input filter).run w
      = (p.parse env o input filter).run w := fun filter =>
    run_bind_congr (det_top env p s w input h o 1 filter) fun _ _ => rfl
  refine ⟨hparse, run_bind_congr (det_top env p s w input h o _ none) fun _ _ => rfl, fun intent => ?_⟩
  unfold Det.getSlots
  split
  · exact run_bind_congr (hparse _) fun _ _ => rfl
  · rfl

/-- The same for the probabilistic parser, whose classifier skips the stop words of the resources. -/
theorem c123_probabilistic (env : ProbEnv) (p : Prob) (words : List Text) (w : World) (input : Text)
    (h : p.classifier.SameSkipped env.feat w input words) (o : HashOrd) :
    (∀ filter, (p.parse { env with feat := { env.feat with stopWords := words } } o input filter).run w
      = (p.parse env o input filter).run w) ∧
    (p.getIntents { env with feat := { env.feat with stopWords := words } } o input).run w
      = (p.getIntents env o input).run w ∧
    ∀ intent, (p.getSlots { env with feat := { env.feat with stopWords := words } } o input intent).run w
      = (p.getSlots env o input intent).run w := by
  refine ⟨fun filter => ?_, classifier_intents env.ops env.feat p.classifier w input words h o none, fun _ => rfl⟩
  refine run_bind_congr ?_ fun _ _ => rfl
  exact run_bind_congr (classifier_intents env.ops env.feat p.classifier w input words h o filter) fun _ _ => rfl

/-- An engine each of whose parsers has other stop words, that skip the same words of the query, answers the query as
before: to each call, with its alternatives, failures included. -/
theorem c123_engine (dataset : DatasetMetadata) (names : KindNames) (ps ps' : List ParserModel) (w : World) (input : Text)
    (h : List.Forall₂ (ParserModel.SameForQuery w input) ps ps') (o : HashOrd) :
    (∀ whitelist blacklist ni ns,
      ((Engine.ofParsers dataset names ps').parseWithAlternatives o input whitelist blacklist ni ns).run w
        = ((Engine.ofParsers dataset names ps).parseWithAlternatives o input whitelist blacklist ni ns).run w) ∧
    ((Engine.ofParsers dataset names ps').getIntents o input).run w
      = ((Engine.ofParsers dataset names ps).getIntents o input).run w ∧
    ∀ intent ns, ((Engine.ofParsers dataset names ps').getSlotsWithAlternatives o input intent ns).run w
      = ((Engine.ofParsers dataset names ps).getSlotsWithAlternatives o input intent ns).run w := by
  have ha : List.Forall₂ (AnswersAlike w input) (ps.map ParserModel.impl) (ps'.map ParserModel.impl) := by
    rw [List.forall₂_map_left_iff, List.forall₂_map_right_iff]
    refine h.imp fun a b hab => ?_
    cases hab with
    | lookup env p s hs =>
      exact ⟨fun o f => ((c123_lookup env p s w input hs o).1 f).symm, fun o => (c123_lookup env p s w input hs o).2.1.symm,
        fun o i => ((c123_lookup env p s w input hs o).2.2 i).symm⟩
    | deterministic env p s hs =>
      exact ⟨fun o f => ((c123_deterministic env p s w input hs o).1 f).symm,
        fun o => (c123_deterministic env p s w input hs o).2.1.symm,
        fun o i => ((c123_deterministic env p s w input hs o).2.2 i).symm⟩
    | probabilistic env p words hs =>
      exact ⟨fun o f => ((c123_probabilistic env p words w input hs o).1 f).symm,
        fun o => (c123_probabilistic env p words w input hs o).2.1.symm,
        fun o i => ((c123_probabilistic env p words w input hs o).2.2 i).symm⟩
  exact ⟨fun wl bl ni ns => parse_eq (Engine.ofParsers dataset names ps) (Engine.ofParsers dataset names ps') rfl rfl ha o wl bl ni ns,
    getIntents_eq (Engine.ofParsers dataset names ps) (Engine.ofParsers dataset names ps') ha o,
    fun i ns => getSlots_eq (Engine.ofParsers dataset names ps) (Engine.ofParsers dataset names ps') rfl rfl ha o i ns⟩

/-- The stop words of a rule-based parser come from a list and from whitelists: two lists that have the same of the given
words skip the same ones, whatever the whitelists. -/
theorem c123_resource (ignore : Bool) (list list' : List Text) (whitelist : Map Text (List Text)) (words : List Text)
    (h : ∀ word ∈ words, word ∈ list ↔ word ∈ list') :
    (StopWords.new ignore list whitelist).AgreeOn (StopWords.new ignore list' whitelist) words := by
  intro intent word hw
  rw [skipped_iff, skipped_iff, c52_ignored_iff, c52_ignored_iff, h word hw]

/-- Two whitelists that have the same of the given words, for every intent, skip the same ones. -/
theorem c123_whitelist (ignore : Bool) (list : List Text) (whitelist whitelist' : Map Text (List Text)) (words : List Text)
    (h : ∀ intent, ∀ word ∈ words, WhitelistedFor whitelist intent word ↔ WhitelistedFor whitelist' intent word) :
    (StopWords.new ignore list whitelist).AgreeOn (StopWords.new ignore list whitelist') words := by
  intro intent word hw
  rw [skipped_iff, skipped_iff, c52_ignored_iff, c52_ignored_iff, h intent word hw]

/-! Non-vacuity: `please` and `stop` become stop words, and `make two tea` is read as before; `stop` is not. -/

/-- `the`, `please` and `stop` are skipped. -/
def politeWords : List Text := ["the".toList, "please".toList, "stop".toList]

theorem demoLookup_sameSkipped :
    demoLookup.SameSkipped demoEnv ruleWorld "make two tea".toList (StopWords.new true politeWords []) := by
  rintro text ⟨scope, hs, found, chosen, hf, hsub, rfl⟩
  refine c123_resource true ["the".toList] politeWords [] _ ?_
  rw [← c34_mem] at hsub
  have hall : ∀ scope ∈ demoLookup.scopes, ∃ found,
      (Lookup.allEntities demoEnv "make two tea".toList scope).run ruleWorld = .ok found ∧
      ∀ chosen ∈ getItemsCombinations found,
        ∀ word ∈ (demoEnv.fns.tokenizeLight (replaceWithPlaceholders demoEnv.fns "make two tea".toList chosen)).map
          demoEnv.fns.normalize, word ∈ ["the".toList] ↔ word ∈ politeWords := by
    intro scope hs
    simp only [demoLookup, List.mem_cons, List.not_mem_nil, or_false] at hs
    rcases hs with rfl | rfl <;> exact ⟨_, rfl, by decide +kernel⟩
  obtain ⟨found', hf', h⟩ := hall scope hs
  rw [hf] at hf'
  cases hf'
  exact h chosen hsub

theorem demoDet_sameSkipped :
    demoDet.SameSkipped demoEnv ruleWorld "make two tea".toList (StopWords.new true politeWords []) := by
  rintro text hr
  refine c123_resource true ["the".toList] politeWords [] _ ?_
  rcases hr with rfl | ⟨scope, hs, bs, cs, hb, hc, rfl⟩
  · decide +kernel
  · have hall : ∀ scope ∈ demoDet.scopes, ∃ bs cs, ruleWorld.builtin "make two tea".toList (some scope.2.1) 0 = .ok bs ∧
        ruleWorld.custom "make two tea".toList (some scope.2.2) 0 = .ok cs ∧
        ∀ word ∈ (demoEnv.fns.tokenize (replaceEntities "make two tea".toList
          (bs.map (fun b => ⟨b.range, demoEnv.names.identifier b.kind⟩) ++ cs.map fun c => ⟨c.range, c.identifier⟩)
          (entityPlaceholder demoEnv.fns)).2).map fun t => demoEnv.fns.normalize t.value,
          word ∈ ["the".toList] ↔ word ∈ politeWords := by
      intro scope hs
      simp only [demoDet, detScopes, List.map_cons, List.map_nil, List.mem_cons, List.not_mem_nil, or_false] at hs
      rcases hs with rfl | rfl | rfl <;> exact ⟨_, _, rfl, rfl, by decide +kernel⟩
    obtain ⟨bs', cs', hb', hc', h⟩ := hall scope hs
    rw [hb] at hb'
    rw [hc] at hc'
    cases hb'
    cases hc'
    exact h

/-- A classifier that skips stop words. -/
def pickyProb : Prob :=
  { brewProb with classifier := { brewProb.classifier with featurizer := brewProb.classifier.featurizer.map fun f =>
      { f with cooc := f.cooc.map fun v => { v with filterStopWords := true } } } }

theorem pickyProb_sameSkipped :
    pickyProb.classifier.SameSkipped brewProbEnv.feat drinkWorld "make two tea".toList politeWords := by
  rintro f v hf hv text ⟨bs, cs, hb, hc, rfl⟩
  cases hf
  cases hv
  cases hb
  cases hc
  decide +kernel

/-- An engine with the two rule-based parsers, with and without the further stop words. -/
example (o : HashOrd) (whitelist blacklist : Option (List Text)) (ni ns : Nat) :
    ((Engine.ofParsers ⟨[], []⟩ demoKinds
      [.deterministic demoEnv { demoDet with stopWords := StopWords.new true politeWords [] },
        .lookup demoEnv { demoLookup with stopWords := StopWords.new true politeWords [] }]).parseWithAlternatives o
        "make two tea".toList whitelist blacklist ni ns).run ruleWorld
      = ((Engine.ofParsers ⟨[], []⟩ demoKinds [.deterministic demoEnv demoDet, .lookup demoEnv demoLookup]).parseWithAlternatives
        o "make two tea".toList whitelist blacklist ni ns).run ruleWorld :=
  (c123_engine _ _ _ _ _ _ (.cons (.deterministic _ _ _ demoDet_sameSkipped) (.cons (.lookup _ _ _ demoLookup_sameSkipped)
    .nil)) o).1 whitelist blacklist ni ns

/-- The lookup parser reads `make two tea` with both lists. -/
example : (({ demoLookup with stopWords := StopWords.new true politeWords [] } : Lookup).parse demoEnv HashOrd.insertion
      "make two tea".toList (some ["idiom".toList])).run ruleWorld = .ok ⟨⟨some "idiom".toList, 1⟩, []⟩ := by
  rw [(c123_lookup demoEnv demoLookup _ ruleWorld _ demoLookup_sameSkipped HashOrd.insertion).1]
  decide +kernel

/-- The probabilistic parser too, with the same confidence. -/
example : (pickyProb.parse { brewProbEnv with feat := { brewProbEnv.feat with stopWords := politeWords } } HashOrd.insertion
      "make two tea".toList none).run drinkWorld
    = .ok ⟨⟨some "brew".toList, 4 / 5⟩, [⟨"two".toList, ⟨5, 8⟩, "snips/number".toList, "count".toList⟩]⟩ := by
  rw [(c123_probabilistic brewProbEnv pickyProb politeWords drinkWorld _ pickyProb_sameSkipped HashOrd.insertion).1]
  decide +kernel

/-- A stop word that occurs in the query matters: `stop` is not recognised any more. -/
example : (demoLookup.parse demoEnv HashOrd.insertion "stop".toList none).run ruleWorld = .ok ⟨⟨some "halt".toList, 1⟩, []⟩ ∧
    (({ demoLookup with stopWords := StopWords.new true politeWords [] } : Lookup).parse demoEnv HashOrd.insertion
      "stop".toList none).run ruleWorld = .ok ⟨⟨none, 1⟩, []⟩ := by
  constructor <;> decide +kernel

end Snips
