import Verif.Proofs.OtherResources
import Verif.Props.C50_Clusters
import Verif.Props.C123_OtherStopWords

/-! C124: what the resources say about words that do not occur in a query does not change what is read in it. -/

namespace Snips

open OtherStopWords OtherResources

/-- If the features of a slot filler can be built with some resources, they can be built with other resources that say the
same about the words of a text, and then the features of the text are the same. -/
theorem c124_features (fns : TextFns) (names : KindNames) (r r' : Resources) (configs : List FactoryConfig)
    (toks : List Token) (h : r.SameFor fns r' (toks.map Token.value)) (os : List Offsetter)
    (hos : buildProcessor fns names r configs = .ok os) :
    ∃ os', buildProcessor fns names r' configs = .ok os' ∧ computeFeatures fns os' toks = computeFeatures fns os toks := by
  obtain ⟨os', hos'⟩ := processor_there h hos
  exact ⟨os', hos', processor_same h hos hos'⟩

/-- The slots found in a query are the same with other resources that say the same about the words of the query. -/
theorem c124_slots (names : KindNames) (codec : TagCodec) (input : Text) (f f' : SlotFiller)
    (h : SlotFiller.SameForQuery names input f f') : f'.getSlots codec input = f.getSlots codec input :=
  slots_same h codec

/-- The features that the classifier computes from the words and clusters of a query are the same with another stemmer and
other clusters that say the same about the query. -/
theorem c124_tfidf {F : Type} (ops : FloatOps F) (env : FeatEnv) (o : HashOrd) (v v' : Tfidf F) (input : Text)
    (h : Tfidf.SameForQuery env input v v') : v'.transform ops env o input = v.transform ops env o input :=
  tfidf_same ops env o h

/-- A probabilistic parser with other resources, that say the same about the query, answers the query as before: to each of
its three calls, failures included, whatever the entity parsers answer. -/
theorem c124_probabilistic (env : ProbEnv) (p p' : Prob) (input : Text) (h : Prob.SameForQuery env input p p')
    (o : HashOrd) :
    (∀ filter, p'.parse env o input filter = p.parse env o input filter) ∧
    p'.getIntents env o input = p.getIntents env o input ∧
    ∀ intent, p'.getSlots env o input intent = p.getSlots env o input intent := by
  refine ⟨fun filter => ?_, classifier_same h o none, fun intent => slotsOf_same h _ intent⟩
  simp only [Prob.parse, Classifier.getIntent, classifier_same h o filter, slotsOf_same h]

/-- The same for the whole engine, to each call, with its alternatives. -/
theorem c124_engine (dataset : DatasetMetadata) (names : KindNames) (ps ps' : List ParserModel) (w : World) (input : Text)
    (h : List.Forall₂ (ParserModel.SameResourcesForQuery input) ps ps') (o : HashOrd) :
    (∀ whitelist blacklist ni ns,
      ((Engine.ofParsers dataset names ps').parseWithAlternatives o input whitelist blacklist ni ns).run w
        = ((Engine.ofParsers dataset names ps).parseWithAlternatives o input whitelist blacklist ni ns).run w) ∧
    ((Engine.ofParsers dataset names ps').getIntents o input).run w
      = ((Engine.ofParsers dataset names ps).getIntents o input).run w ∧
    ∀ intent ns, ((Engine.ofParsers dataset names ps').getSlotsWithAlternatives o input intent ns).run w
      = ((Engine.ofParsers dataset names ps).getSlotsWithAlternatives o input intent ns).run w := by
  have ha : List.Forall₂ (AnswersAlike w input) (ps.map ParserModel.impl) (ps'.map ParserModel.impl) := by
    rw [List.forall₂_map_left_iff, List.forall₂_map_right_iff]
    refine h.imp fun a b hab => ?_
    cases hab with
    | same => exact ⟨fun _ _ => rfl, fun _ => rfl, fun _ _ => rfl⟩
    | probabilistic env p p' hp =>
      exact ⟨fun o f => congrArg (Prog.run w) ((c124_probabilistic env p p' input hp o).1 f).symm,
        fun o => congrArg (Prog.run w) (c124_probabilistic env p p' input hp o).2.1.symm,
        fun o i => congrArg (Prog.run w) ((c124_probabilistic env p p' input hp o).2.2 i).symm⟩
  exact ⟨fun wl bl ni ns => parse_eq (Engine.ofParsers dataset names ps) (Engine.ofParsers dataset names ps') rfl rfl ha o wl bl ni ns,
    getIntents_eq (Engine.ofParsers dataset names ps) (Engine.ofParsers dataset names ps') ha o,
    fun i ns => getSlots_eq (Engine.ofParsers dataset names ps) (Engine.ofParsers dataset names ps') rfl rfl ha o i ns⟩

/-- Lines put into a gazetteer file, none of which has the hash of the given word, do not change whether the word is in the
gazetteer. -/
theorem c124_gazetteer (hash : Text → Int) (before added after : List Text) (g g' : Gazetteer)
    (hg : Gazetteer.fromReader hash ((before ++ after).map .ok) = .ok g)
    (hg' : Gazetteer.fromReader hash ((before ++ added ++ after).map .ok) = .ok g') (word : Text)
    (h : ∀ line ∈ added, hash line ≠ hash word) : g'.contains hash word = g.contains hash word := by
  obtain ⟨x, hx, -, h1⟩ := c51_gazetteer hash (before ++ after)
  obtain ⟨x', hx', -, h2⟩ := c51_gazetteer hash (before ++ added ++ after)
  rw [hg] at hx
  rw [hg'] at hx'
  cases hx
  cases hx'
  rw [Bool.eq_iff_iff, h1, h2]
  constructor
  · rintro ⟨l, hl, hne, he⟩
    simp only [List.mem_append] at hl
    rcases hl with (hl | hl) | hl
    · exact ⟨l, by simp [hl], hne, he⟩
    · exact absurd he (h l hl)
    · exact ⟨l, by simp [hl], hne, he⟩
  · rintro ⟨l, hl, hne, he⟩
    simp only [List.mem_append] at hl
    exact ⟨l, by simp only [List.mem_append]; tauto, hne, he⟩

/-- Records put into a stem file, none of whose words has the hash of the given word, do not change the stem of the word. -/
theorem c124_stemmer (fns : TextFns) (before added after : List (Text × List Text)) (s s' : Stemmer)
    (hs : Stemmer.fromReader fns.hashStr ((before ++ after).map fun e => .ok (e.1 :: e.2)) = .ok s)
    (hs' : Stemmer.fromReader fns.hashStr ((before ++ added ++ after).map fun e => .ok (e.1 :: e.2)) = .ok s') (word : Text)
    (h : ∀ e ∈ added, ∀ other ∈ e.2, fns.hashStr other ≠ fns.hashStr (fns.normalize word)) :
    s'.stem fns word = s.stem fns word := by
  have hfile : ∀ entries : List (Text × List Text), StemFile (entries.map fun e => .ok (e.1 :: e.2)) entries := by
    intro entries
    rw [StemFile, List.forall₂_map_left_iff]
    exact List.forall₂_same.2 fun _ _ => rfl
  obtain ⟨x, hx, h1⟩ := c51_stemmer fns (hfile (before ++ after))
  obtain ⟨x', hx', h2⟩ := c51_stemmer fns (hfile (before ++ added ++ after))
  rw [hs] at hx
  rw [hs'] at hx'
  cases hx
  cases hx'
  have hl : ∀ l ∈ stemLines added, fns.hashStr l.1 ≠ fns.hashStr (fns.normalize word) := by
    intro l hl
    simp only [stemLines, List.mem_flatMap, List.mem_map] at hl
    obtain ⟨e, he, w, hw, rfl⟩ := hl
    exact h e he w hw
  have happ : ∀ a b, stemLines (a ++ b) = stemLines a ++ stemLines b := fun a b => by simp [stemLines]
  simp only [happ] at h1 h2
  rcases lastAt_added (fun l : Text × Text => fns.hashStr l.1) (stemLines before) (stemLines added) (stemLines after)
      (fns.hashStr (fns.normalize word)) hl with ⟨pre, pre', a, ha, ha'⟩ | ⟨hn, hn'⟩
  · rw [(h1 word).1 pre a ha, (h2 word).1 pre' a ha']
  · rw [(h1 word).2 hn, (h2 word).2 hn']

/-- Records put into a file of word clusters, none of whose words has the hash of the given word, do not change the cluster
of the word; provided that the names of the clusters are written as the code writes them. -/
theorem c124_clusters (hash : Text → Int) (o : HashOrd) (before added after : List (Text × Text)) (c c' : WordClusterer)
    (hplain : ∀ e ∈ before ++ added ++ after, PlainName e.2)
    (hc : WordClusterer.fromReader hash o ((before ++ after).map fun e => .ok [e.1, e.2]) = .ok c)
    (hc' : WordClusterer.fromReader hash o ((before ++ added ++ after).map fun e => .ok [e.1, e.2]) = .ok c') (word : Text)
    (h : ∀ e ∈ added, hash e.1 ≠ hash word) : c'.getCluster hash word = c.getCluster hash word := by
  have hfile : ∀ entries : List (Text × Text), ClusterFile (entries.map fun e => .ok [e.1, e.2]) entries := by
    intro entries
    rw [ClusterFile, List.forall₂_map_left_iff]
    exact List.forall₂_same.2 fun _ _ => ⟨[], rfl⟩
  obtain ⟨x, hx, h1⟩ := c50_lookup_partial hash o (hfile (before ++ after)) fun e he => hplain e (by
    simp only [List.mem_append] at he ⊢
    tauto)
  obtain ⟨x', hx', h2⟩ := c50_lookup_partial hash o (hfile (before ++ added ++ after)) hplain
  rw [hc] at hx
  rw [hc'] at hx'
  cases hx
  cases hx'
  rcases lastAt_added (fun e : Text × Text => hash e.1) before added after (hash word) h with ⟨pre, pre', a, ha, ha'⟩ | ⟨hn, hn'⟩
  · rw [(h1 word).1 pre a ha, (h2 word).1 pre' a ha']
  · rw [(h1 word).2 hn, (h2 word).2 hn']

/-- Without this proviso they may: a record about `yy` changes the cluster of `x` from `7` to `007`. -/
theorem c124_clusters_counterexample :
    ∃ (hash : Text → Int) (o : HashOrd) (added : Text × Text) (c c' : WordClusterer),
      WordClusterer.fromReader hash o [.ok ["x".toList, "007".toList]] = .ok c ∧
      WordClusterer.fromReader hash o [.ok [added.1, added.2], .ok ["x".toList, "007".toList]] = .ok c' ∧
      hash added.1 ≠ hash "x".toList ∧
      c.getCluster hash "x".toList = some "7".toList ∧ c'.getCluster hash "x".toList = some "007".toList := by
  refine ⟨fun t => t.length, HashOrd.insertion, ("yy".toList, "c".toList), _, _, rfl, rfl, ?_, ?_, ?_⟩ <;> decide +kernel

/-! Non-vacuity: the tagger of a slot filler takes rare words for drinks; `kettles` becomes a common word, and `make two
coffee` is read as before; when `coffee` becomes one, it is not. -/

/-- Resources with the given gazetteer. -/
def commonWords (words : List Int) : Resources := ⟨[("common".toList, ⟨words⟩)], none, [], []⟩

theorem commonWords_other {name : Text} (hn : name ≠ "common".toList) (words : List Int) :
    (commonWords words).gazetteers.get name = none := by
  have h : name ≠ ['c', 'o', 'm', 'm', 'o', 'n'] := hn
  simp [commonWords, Map.get, h]

def rareConfigs : List FactoryConfig :=
  [⟨"ngram".toList, [0], [("n".toList, .int 1), ("common_words_gazetteer_name".toList, .str "common".toList),
    ("use_stemming".toList, .bool false)]⟩]

/-- The features built with the given gazetteer. -/
def rareOffsetters (words : List Int) : List Offsetter := [⟨.ngram 1 (some (Gazetteer.contains byteFns.hashStr ⟨words⟩)) none, [0]⟩]

theorem rareOffsetters_built (words : List Int) :
    buildProcessor byteFns demoKinds (commonWords words) rareConfigs = .ok (rareOffsetters words) := rfl

def rareFiller (words : List Int) : SlotFiller where
  fns := byteFns
  scheme := .bio
  tagger := some ⟨fun fs => .ok (fs.map fun l => if l.any (fun e => e.2 = "rare_word".toList)
    then "B-drink".toList else "O".toList), .ok [], fun _ _ => .ok 0⟩
  processor := some (rareOffsetters words)
  mapping := [("drink".toList, "drink".toList)]

/-- `make` and `two`, and further `kettles`; the demonstration hash is the length of the word. -/
theorem rareFiller_same : SlotFiller.SameForQuery demoKinds "make two coffee".toList (rareFiller [4, 3]) (rareFiller [4, 3, 7]) := by
  refine ⟨rfl, rfl, rfl, rfl, .inr ⟨_, _, rareConfigs, _, _, rfl, rfl, rareOffsetters_built _, rareOffsetters_built _, ?_⟩⟩
  refine ⟨rfl, fun s s' hs => (by cases hs), fun name => ?_, fun name g g' hg hg' => ?_, fun _ => rfl,
    fun name c c' hc => (by cases hc)⟩
  · by_cases hn : name = "common".toList
    · subst hn; rfl
    · rw [commonWords_other hn, commonWords_other hn]
  · by_cases hn : name = "common".toList
    · subst hn
      cases hg
      cases hg'
      intro t ht
      refine ⟨?_, fun s hs => by cases hs⟩
      revert t
      decide +kernel
    · rw [commonWords_other hn] at hg
      cases hg

/-- A probabilistic parser with this slot filler. -/
def rareProb (words : List Int) : Prob := { brewProb with slotFillers := [("brew".toList, rareFiller words)] }

theorem rareProb_same : Prob.SameForQuery brewProbEnv "make two coffee".toList (rareProb [4, 3]) (rareProb [4, 3, 7]) where
  intentList := rfl
  logreg := rfl
  featurizer := .inr ⟨_, _, rfl, rfl, rfl, rfl, rfl, fun s s' hs => (by cases hs), rfl, fun c c' hc => (by cases hc)⟩
  slotFillers := .cons ⟨rfl, rareFiller_same⟩ .nil

example (o : HashOrd) (w : World) (whitelist blacklist : Option (List Text)) (ni ns : Nat) :
    ((Engine.ofParsers ⟨[], []⟩ demoKinds [.deterministic demoEnv demoDet, .probabilistic brewProbEnv (rareProb [4, 3, 7])]).parseWithAlternatives
        o "make two coffee".toList whitelist blacklist ni ns).run w
      = ((Engine.ofParsers ⟨[], []⟩ demoKinds [.deterministic demoEnv demoDet, .probabilistic brewProbEnv (rareProb [4, 3])]).parseWithAlternatives
        o "make two coffee".toList whitelist blacklist ni ns).run w :=
  (c124_engine _ _ _ _ _ _ (.cons (.same _) (.cons (.probabilistic _ _ _ rareProb_same) .nil)) o).1 whitelist blacklist ni ns

/-- The drink is found with both gazetteers. -/
example : ((rareFiller [4, 3, 7]).getSlots brewProbEnv.codec "make two coffee".toList).run drinkWorld
    = .ok [⟨"coffee".toList, ⟨9, 15⟩, "drink".toList, "drink".toList⟩] := by
  rw [c124_slots demoKinds _ _ _ _ rareFiller_same]
  decide +kernel

/-- A word of the query that becomes a common word matters. -/
example : ((rareFiller [4, 3, 6]).getSlots brewProbEnv.codec "make two coffee".toList).run drinkWorld = .ok [] := by
  decide +kernel

/-- A vectorizer whose stemmer knows one more word. -/
example (o : HashOrd) : (⟨byteFns, [0], [("make".toList, 0)], [1], none, some fun t => if t = "kettles".toList then "kettle".toList else t⟩
      : Tfidf ℚ).transform brewProbEnv.ops brewProbEnv.feat o "make two coffee".toList
    = (⟨byteFns, [0], [("make".toList, 0)], [1], none, some id⟩ : Tfidf ℚ).transform brewProbEnv.ops brewProbEnv.feat o
      "make two coffee".toList := by
  refine c124_tfidf _ _ o _ _ _ ⟨rfl, rfl, fun s s' hs hs' => ?_, rfl, fun c c' hc => (by cases hc)⟩
  cases hs
  cases hs'
  decide +kernel

example : (⟨[4, 3, 7]⟩ : Gazetteer).contains byteFns.hashStr "two".toList = (⟨[4, 3]⟩ : Gazetteer).contains byteFns.hashStr "two".toList :=
  c124_gazetteer byteFns.hashStr ["make".toList, "two".toList] ["kettles".toList] [] _ _ rfl rfl _
    (by decide +kernel)

example : ∃ s s' : Stemmer, s'.stem byteFns "two".toList = s.stem byteFns "two".toList ∧ s.stem byteFns "two".toList = "2".toList :=
  ⟨_, _, c124_stemmer byteFns [("2".toList, ["two".toList])] [("kettle".toList, ["kettles".toList])] [] _ _ rfl rfl _
    (by decide +kernel), by decide +kernel⟩

example : ∃ c c' : WordClusterer, c'.getCluster byteFns.hashStr "two".toList = c.getCluster byteFns.hashStr "two".toList ∧
    c.getCluster byteFns.hashStr "two".toList = some "7".toList := by
  refine ⟨_, _, c124_clusters byteFns.hashStr HashOrd.insertion [("two".toList, "7".toList)] [("kettles".toList, "9".toList)] []
    _ _ ?_ rfl rfl _ (by decide +kernel), by decide +kernel⟩
  intro e he n hn
  simp only [List.cons_append, List.nil_append, List.mem_cons, List.not_mem_nil, or_false, List.append_nil] at he
  rcases he with rfl | rfl
  all_goals
    rw [← parseU16_some] at hn
    cases hn
    rfl

end Snips
