import Verif.Spec.OtherResources
import Verif.Proofs.OtherStopWords
import Verif.Spec.Resources
import Mathlib.Data.List.Forall2

/-! Lemmas for C124. -/

namespace Snips
namespace OtherResources

open OtherStopWords

/-- Two features with the same name and the same values on the tokens. -/
def Alike (fns : TextFns) (toks : List Token) (f f' : Feature) : Prop :=
  f'.name = f.name ∧ ∀ i, f'.compute fns toks i = f.compute fns toks i

theorem Alike.refl (fns : TextFns) (toks : List Token) (f : Feature) : Alike fns toks f f := ⟨rfl, fun _ => rfl⟩

theorem alike_refl_list (fns : TextFns) (toks : List Token) (l : List Feature) : List.Forall₂ (Alike fns toks) l l :=
  List.forall₂_same.2 fun f _ => Alike.refl fns toks f

theorem featureLoop_eq (fns : TextFns) (toks : List Token) {o o' : Offsetter} (h : Alike fns toks o.feature o'.feature)
    (ho : o'.offsets = o.offsets) : ∀ (is : List Nat) (fs : List (List (Text × Text))),
    featureLoop fns toks o' is fs = featureLoop fns toks o is fs
  | [], _ => rfl
  | i :: is, fs => by
    have hn : o'.offsetsWithName = o.offsetsWithName := by simp only [Offsetter.offsetsWithName, h.1, ho]
    simp only [featureLoop, h.2 i, hn]
    congr 1
    funext v
    cases v <;> exact featureLoop_eq fns toks h ho is _

theorem offsettersLoop_eq (fns : TextFns) (toks : List Token) {os os' : List Offsetter}
    (h : List.Forall₂ (fun o o' => Alike fns toks o.feature o'.feature ∧ o'.offsets = o.offsets) os os') :
    ∀ fs, offsettersLoop fns toks os' fs = offsettersLoop fns toks os fs := by
  induction h with
  | nil => intro fs; rfl
  | cons h1 _ ih =>
    intro fs
    simp only [offsettersLoop, featureLoop_eq fns toks h1.1 h1.2]
    congr 1
    funext v
    exact ih v

variable {fns : TextFns} {r r' : Resources} {toks : List Token}

theorem pickStemmer_same (h : r.SameFor fns r' (toks.map Token.value)) {use : Bool} {s s' : Option (Text → Text)}
    (hs : pickStemmer fns r use = .ok s) (hs' : pickStemmer fns r' use = .ok s') :
    ∀ tok ∈ toks, normStem fns s' tok.value = normStem fns s tok.value := by
  intro tok htok
  cases use with
  | false =>
    cases hs
    cases hs'
    rfl
  | true =>
    have h1 := h.stems
    simp only [pickStemmer, if_true] at hs hs'
    cases hr : r.stemmer with
    | none => simp [hr, Outcome.ofOption, Outcome.bind_eq, Outcome.bind] at hs
    | some st =>
      cases hr' : r'.stemmer with
      | none => simp [hr', Outcome.ofOption, Outcome.bind_eq, Outcome.bind] at hs'
      | some st' =>
        rw [hr] at hs
        rw [hr'] at hs'
        cases hs
        cases hs'
        exact h1 st st' hr hr' tok.value (List.mem_map_of_mem htok)

/-- The words of an n-gram. -/
theorem ngramWord_same (h : r.SameFor fns r' (toks.map Token.value)) {use : Bool} {s s' : Option (Text → Text)}
    (hs : pickStemmer fns r use = .ok s) (hs' : pickStemmer fns r' use = .ok s') {name : Option Text}
    {g g' : Option (Text → Bool)} (hg : pickGazetteer fns r name = .ok g) (hg' : pickGazetteer fns r' name = .ok g') :
    ∀ tok ∈ toks, ngramWord fns g' s' tok.value = ngramWord fns g s tok.value := by
  intro tok htok
  have hst := pickStemmer_same h hs hs' tok htok
  cases name with
  | none =>
    cases hg
    cases hg'
    simp only [ngramWord, hst]
  | some name =>
    simp only [pickGazetteer] at hg hg'
    cases hr : r.gazetteers.get name with
    | none => simp [hr, Outcome.ofOption, Outcome.bind_eq, Outcome.bind] at hg
    | some gz =>
      cases hr' : r'.gazetteers.get name with
      | none => simp [hr', Outcome.ofOption, Outcome.bind_eq, Outcome.bind] at hg'
      | some gz' =>
        rw [hr] at hg
        rw [hr'] at hg'
        cases hg
        cases hg'
        have hc : gz'.contains fns.hashStr (normStem fns s tok.value) = gz.contains fns.hashStr (normStem fns s tok.value) := by
          obtain ⟨h1, h2⟩ := h.gazetteers name gz gz' hr hr' tok.value (List.mem_map_of_mem htok)
          cases use with
          | false => cases hs; exact h1
          | true =>
            simp only [pickStemmer, if_true] at hs
            cases hrs : r.stemmer with
            | none => simp [hrs, Outcome.ofOption, Outcome.bind_eq, Outcome.bind] at hs
            | some st =>
              rw [hrs] at hs
              cases hs
              exact h2 st hrs
        simp only [ngramWord, hst, hc]

theorem transform_same {s s' : Option (Text → Text)} : ∀ (toks : List Token) (ci bi : Nat),
    (∀ tok ∈ toks, normStem fns s' tok.value = normStem fns s tok.value) →
    transformTokensFrom fns s' ci bi toks = transformTokensFrom fns s ci bi toks
  | [], _, _, _ => rfl
  | t :: toks, ci, bi, h => by
    simp only [transformTokensFrom, h t (by simp)]
    rw [transform_same toks _ _ fun x hx => h x (by simp [hx])]

theorem buildNgram_same (h : r.SameFor fns r' (toks.map Token.value)) {args : Map Text Json} {l l' : List Feature}
    (hl : buildNgram fns r args = .ok l) (hl' : buildNgram fns r' args = .ok l') : List.Forall₂ (Alike fns toks) l l' := by
  simp only [buildNgram, Outcome.bind_eq, Outcome.bind_ok] at hl hl'
  obtain ⟨n, hn, name, hname, g, hg, use, huse, s, hs, hl⟩ := hl
  obtain ⟨n', hn', name', hname', g', hg', use', huse', s', hs', hl'⟩ := hl'
  rw [hn] at hn'
  cases hn'
  rw [hname] at hname'
  cases hname'
  rw [huse] at huse'
  cases huse'
  cases hl
  cases hl'
  refine .cons ⟨rfl, fun i => ?_⟩ .nil
  simp only [Feature.compute]
  have : ((toks.drop i).take n).map (fun t => ngramWord fns g' s' t.value)
      = ((toks.drop i).take n).map (fun t => ngramWord fns g s t.value) :=
    List.map_congr_left fun t ht => ngramWord_same h hs hs' hg hg' t (List.mem_of_mem_drop (List.mem_of_mem_take ht))
  rw [this]

theorem buildEntityMatch_same (h : r.SameFor fns r' (toks.map Token.value)) {args : Map Text Json} {l l' : List Feature}
    (hl : buildEntityMatch fns r args = .ok l) (hl' : buildEntityMatch fns r' args = .ok l') :
    List.Forall₂ (Alike fns toks) l l' := by
  simp only [buildEntityMatch, Outcome.bind_eq, Outcome.bind_ok] at hl hl'
  obtain ⟨es, hes, code, hcode, sch, hsch, use, huse, s, hs, hl⟩ := hl
  obtain ⟨es', hes', code', hcode', sch', hsch', use', huse', s', hs', hl'⟩ := hl'
  rw [hes] at hes'
  cases hes'
  rw [hcode] at hcode'
  cases hcode'
  rw [hsch] at hsch'
  cases hsch'
  rw [huse] at huse'
  cases huse'
  cases hl
  cases hl'
  rw [List.forall₂_map_left_iff, List.forall₂_map_right_iff]
  refine List.forall₂_same.2 fun e _ => ⟨rfl, fun i => ?_⟩
  simp only [Feature.compute, transformTokens, transform_same toks 0 0 (pickStemmer_same h hs hs')]

theorem buildWordCluster_same (h : r.SameFor fns r' (toks.map Token.value)) {args : Map Text Json} {l l' : List Feature}
    (hl : buildWordCluster fns r args = .ok l) (hl' : buildWordCluster fns r' args = .ok l') :
    List.Forall₂ (Alike fns toks) l l' := by
  simp only [buildWordCluster, pickClusterer, Outcome.bind_eq, Outcome.bind_ok] at hl hl'
  obtain ⟨name, hname, c, ⟨k, hk, hc⟩, hl⟩ := hl
  obtain ⟨name', hname', c', ⟨k', hk', hc'⟩, hl'⟩ := hl'
  rw [hname] at hname'
  cases hname'
  cases hc
  cases hc'
  cases hl
  cases hl'
  cases hr : r.wordClusterers.get name with
  | none => simp [hr, Outcome.ofOption] at hk
  | some x =>
    cases hr' : r'.wordClusterers.get name with
    | none => simp [hr', Outcome.ofOption] at hk'
    | some x' =>
      rw [hr] at hk
      rw [hr'] at hk'
      cases hk
      cases hk'
      refine .cons ⟨rfl, fun i => ?_⟩ .nil
      simp only [Feature.compute]
      cases hi : toks[i]? with
      | none => rfl
      | some tok =>
        simp only [Outcome.unwrap, Outcome.bind_eq, Outcome.bind]
        rw [h.clusters name _ _ hr hr' tok.value (List.mem_map_of_mem (List.mem_of_getElem? hi))]

theorem buildFeatures_same (h : r.SameFor fns r' (toks.map Token.value)) {names : KindNames} {name : Text}
    {args : Map Text Json} {l l' : List Feature} (hl : buildFeatures fns names r name args = .ok l)
    (hl' : buildFeatures fns names r' name args = .ok l') : List.Forall₂ (Alike fns toks) l l' := by
  have hsame : ∀ {x : Outcome (List Feature)}, x = .ok l → x = .ok l' → List.Forall₂ (Alike fns toks) l l' := by
    intro x h1 h2
    rw [h1] at h2
    cases h2
    exact alike_refl_list fns toks l
  unfold buildFeatures at hl hl'
  by_cases h1 : name = "is_digit".toList
  · rw [if_pos h1] at hl hl'; exact hsame hl hl'
  rw [if_neg h1] at hl hl'
  by_cases h2 : name = "length".toList
  · rw [if_pos h2] at hl hl'; exact hsame hl hl'
  rw [if_neg h2] at hl hl'
  by_cases h3 : name = "is_first".toList
  · rw [if_pos h3] at hl hl'; exact hsame hl hl'
  rw [if_neg h3] at hl hl'
  by_cases h4 : name = "is_last".toList
  · rw [if_pos h4] at hl hl'; exact hsame hl hl'
  rw [if_neg h4] at hl hl'
  by_cases h5 : name = "ngram".toList
  · rw [if_pos h5] at hl hl'; exact buildNgram_same h hl hl'
  rw [if_neg h5] at hl hl'
  by_cases h6 : name = "shape_ngram".toList
  · rw [if_pos h6] at hl hl'; exact hsame hl hl'
  rw [if_neg h6] at hl hl'
  by_cases h7 : name = "prefix".toList
  · rw [if_pos h7] at hl hl'; exact hsame hl hl'
  rw [if_neg h7] at hl hl'
  by_cases h8 : name = "suffix".toList
  · rw [if_pos h8] at hl hl'; exact hsame hl hl'
  rw [if_neg h8] at hl hl'
  by_cases h9 : name = "entity_match".toList
  · rw [if_pos h9] at hl hl'; exact buildEntityMatch_same h hl hl'
  rw [if_neg h9] at hl hl'
  by_cases h10 : name = "builtin_entity_match".toList
  · rw [if_pos h10] at hl hl'; exact hsame hl hl'
  rw [if_neg h10] at hl hl'
  by_cases h11 : name = "word_cluster".toList
  · rw [if_pos h11] at hl hl'; exact buildWordCluster_same h hl hl'
  rw [if_neg h11] at hl
  cases hl

theorem mapOutcome_cons {α β : Type} {f : α → Outcome β} {a : α} {as : List α} {l : List β}
    (h : mapOutcome f (a :: as) = .ok l) : ∃ b bs, f a = .ok b ∧ mapOutcome f as = .ok bs ∧ l = b :: bs := by
  rw [mapOutcome] at h
  cases h1 : f a with
  | ok b =>
    cases h2 : mapOutcome f as with
    | ok bs => simp only [h1, h2] at h; cases h; exact ⟨b, bs, rfl, rfl, rfl⟩
    | err e => simp only [h1, h2] at h; cases h
    | panic => simp only [h1, h2] at h; cases h
  | err e => simp only [h1] at h; cases h
  | panic => simp only [h1] at h; cases h

theorem getFeatures_same (h : r.SameFor fns r' (toks.map Token.value)) {names : KindNames} :
    ∀ {configs : List FactoryConfig} {l l' : List (List Offsetter)}, mapOutcome (getFeatures fns names r) configs = .ok l →
      mapOutcome (getFeatures fns names r') configs = .ok l' →
      List.Forall₂ (fun o o' => Alike fns toks o.feature o'.feature ∧ o'.offsets = o.offsets) l.flatten l'.flatten
  | [], l, l', hl, hl' => by
    cases hl
    cases hl'
    exact .nil
  | c :: configs, l, l', hl, hl' => by
    obtain ⟨x, rest, hx, hrest, rfl⟩ := mapOutcome_cons hl
    obtain ⟨x', rest', hx', hrest', rfl⟩ := mapOutcome_cons hl'
    simp only [getFeatures, Outcome.bind_eq, Outcome.bind_ok] at hx hx'
    obtain ⟨fs, hfs, hx⟩ := hx
    obtain ⟨fs', hfs', hx'⟩ := hx'
    cases hx
    cases hx'
    rw [List.flatten_cons, List.flatten_cons]
    refine List.rel_append ?_ (getFeatures_same h hrest hrest')
    rw [List.forall₂_map_left_iff, List.forall₂_map_right_iff]
    exact (buildFeatures_same h hfs hfs').imp fun _ _ hab => ⟨hab, rfl⟩

theorem processor_same (h : r.SameFor fns r' (toks.map Token.value)) {names : KindNames} {configs : List FactoryConfig}
    {os os' : List Offsetter} (ho : buildProcessor fns names r configs = .ok os)
    (ho' : buildProcessor fns names r' configs = .ok os') : computeFeatures fns os' toks = computeFeatures fns os toks := by
  simp only [buildProcessor, Outcome.bind_eq, Outcome.bind_ok] at ho ho'
  obtain ⟨l, hl, ho⟩ := ho
  obtain ⟨l', hl', ho'⟩ := ho'
  cases ho
  cases ho'
  exact offsettersLoop_eq fns toks (getFeatures_same h hl hl') _

/-! ### The same resources can be built with -/

theorem pickStemmer_there (fns : TextFns) (h : r'.stemmer.isSome = r.stemmer.isSome) {use : Bool} {s : Option (Text → Text)}
    (hs : pickStemmer fns r use = .ok s) : ∃ s', pickStemmer fns r' use = .ok s' := by
  cases use with
  | false => exact ⟨_, rfl⟩
  | true =>
    cases hr : r.stemmer with
    | none => simp [pickStemmer, hr, Outcome.ofOption, Outcome.bind_eq, Outcome.bind] at hs
    | some st =>
      cases hr' : r'.stemmer with
      | none => simp [hr, hr'] at h
      | some st' =>
        simp only [pickStemmer, if_true, hr']
        exact ⟨_, rfl⟩

theorem pickGazetteer_there (fns : TextFns) (h : ∀ name, (r'.gazetteers.get name).isSome = (r.gazetteers.get name).isSome)
    {name : Option Text} {g : Option (Text → Bool)} (hg : pickGazetteer fns r name = .ok g) :
    ∃ g', pickGazetteer fns r' name = .ok g' := by
  cases name with
  | none => exact ⟨_, rfl⟩
  | some name =>
    cases hr : r.gazetteers.get name with
    | none => simp [pickGazetteer, hr, Outcome.ofOption, Outcome.bind_eq, Outcome.bind] at hg
    | some st =>
      have h1 := h name
      cases hr' : r'.gazetteers.get name with
      | none => simp [hr, hr'] at h1
      | some st' =>
        simp only [pickGazetteer, hr']
        exact ⟨_, rfl⟩

theorem pickClusterer_there (fns : TextFns)
    (h : ∀ name, (r'.wordClusterers.get name).isSome = (r.wordClusterers.get name).isSome)
    {name : Text} {g : Text → Option Text} (hg : pickClusterer fns r name = .ok g) :
    ∃ g', pickClusterer fns r' name = .ok g' := by
  cases hr : r.wordClusterers.get name with
  | none => simp [pickClusterer, hr, Outcome.ofOption, Outcome.bind_eq, Outcome.bind] at hg
  | some st =>
    have h1 := h name
    cases hr' : r'.wordClusterers.get name with
    | none => simp [hr, hr'] at h1
    | some st' =>
      simp only [pickClusterer, hr']
      exact ⟨_, rfl⟩

theorem buildFeatures_there {words : List Text} (h : r.SameFor fns r' words) {names : KindNames} {name : Text}
    {args : Map Text Json} {l : List Feature} (hl : buildFeatures fns names r name args = .ok l) :
    ∃ l', buildFeatures fns names r' name args = .ok l' := by
  unfold buildFeatures at hl ⊢
  by_cases h1 : name = "is_digit".toList
  · rw [if_pos h1] at hl ⊢
    exact ⟨l, hl⟩
  rw [if_neg h1] at hl ⊢
  by_cases h2 : name = "length".toList
  · rw [if_pos h2] at hl ⊢
    exact ⟨l, hl⟩
  rw [if_neg h2] at hl ⊢
  by_cases h3 : name = "is_first".toList
  · rw [if_pos h3] at hl ⊢
    exact ⟨l, hl⟩
  rw [if_neg h3] at hl ⊢
  by_cases h4 : name = "is_last".toList
  · rw [if_pos h4] at hl ⊢
    exact ⟨l, hl⟩
  rw [if_neg h4] at hl ⊢
  by_cases h5 : name = "ngram".toList
  · rw [if_pos h5] at hl ⊢
    simp only [buildNgram, Outcome.bind_eq, Outcome.bind_ok] at hl ⊢
    obtain ⟨n, hn, name, hname, g, hg, use, huse, s, hs, hl⟩ := hl
    obtain ⟨g', hg'⟩ := pickGazetteer_there fns h.gazetteersThere hg
    obtain ⟨s', hs'⟩ := pickStemmer_there fns h.stemmerThere hs
    exact ⟨_, n, hn, name, hname, g', hg', use, huse, s', hs', rfl⟩
  rw [if_neg h5] at hl ⊢
  by_cases h6 : name = "shape_ngram".toList
  · rw [if_pos h6] at hl ⊢
    exact ⟨l, hl⟩
  rw [if_neg h6] at hl ⊢
  by_cases h7 : name = "prefix".toList
  · rw [if_pos h7] at hl ⊢
    exact ⟨l, hl⟩
  rw [if_neg h7] at hl ⊢
  by_cases h8 : name = "suffix".toList
  · rw [if_pos h8] at hl ⊢
    exact ⟨l, hl⟩
  rw [if_neg h8] at hl ⊢
  by_cases h9 : name = "entity_match".toList
  · rw [if_pos h9] at hl ⊢
    simp only [buildEntityMatch, Outcome.bind_eq, Outcome.bind_ok] at hl ⊢
    obtain ⟨es, hes, code, hcode, sch, hsch, use, huse, s, hs, hl⟩ := hl
    obtain ⟨s', hs'⟩ := pickStemmer_there fns h.stemmerThere hs
    exact ⟨_, es, hes, code, hcode, sch, hsch, use, huse, s', hs', rfl⟩
  rw [if_neg h9] at hl ⊢
  by_cases h10 : name = "builtin_entity_match".toList
  · rw [if_pos h10] at hl ⊢
    exact ⟨l, hl⟩
  rw [if_neg h10] at hl ⊢
  by_cases h11 : name = "word_cluster".toList
  · rw [if_pos h11] at hl ⊢
    simp only [buildWordCluster, Outcome.bind_eq, Outcome.bind_ok] at hl ⊢
    obtain ⟨name, hname, c, hc, hl⟩ := hl
    obtain ⟨c', hc'⟩ := pickClusterer_there fns h.clustersThere hc
    exact ⟨_, name, hname, c', hc', rfl⟩
  rw [if_neg h11] at hl
  cases hl

theorem getFeatures_there {words : List Text} (h : r.SameFor fns r' words) {names : KindNames} :
    ∀ {configs : List FactoryConfig} {l : List (List Offsetter)}, mapOutcome (getFeatures fns names r) configs = .ok l →
      ∃ l', mapOutcome (getFeatures fns names r') configs = .ok l'
  | [], _, _ => ⟨_, rfl⟩
  | c :: configs, l, hl => by
    obtain ⟨x, rest, hx, hrest, rfl⟩ := mapOutcome_cons hl
    simp only [getFeatures, Outcome.bind_eq, Outcome.bind_ok] at hx
    obtain ⟨fs, hfs, hx⟩ := hx
    obtain ⟨fs', hfs'⟩ := buildFeatures_there h hfs
    obtain ⟨l', hl'⟩ := getFeatures_there h hrest
    have hc : getFeatures fns names r' c = .ok (fs'.map fun feature => ⟨feature, c.offsets⟩) := by
      simp only [getFeatures, hfs', Outcome.bind_eq, Outcome.bind]
    exact ⟨_, by rw [mapOutcome, hc, hl']⟩

theorem processor_there {words : List Text} (h : r.SameFor fns r' words) {names : KindNames} {configs : List FactoryConfig}
    {os : List Offsetter} (ho : buildProcessor fns names r configs = .ok os) :
    ∃ os', buildProcessor fns names r' configs = .ok os' := by
  simp only [buildProcessor, Outcome.bind_eq, Outcome.bind_ok] at ho ⊢
  obtain ⟨l, hl, ho⟩ := ho
  obtain ⟨l', hl'⟩ := getFeatures_there h hl
  exact ⟨_, l', hl', rfl⟩

/-! ### Vectorizer -/

theorem clusters_same (fns : TextFns) (env : FeatEnv) (toks : List Text) {c c' : Text → Option Text}
    (hc : ∀ g ∈ env.allNgrams toks toks.length, c' (fns.lower g) = c (fns.lower g)) :
    getWordClusters fns env toks c' = getWordClusters fns env toks c := by
  simp only [getWordClusters]
  congr 1
  exact List.filterMap_congr hc

theorem tfidf_same {F : Type} (ops : FloatOps F) (env : FeatEnv) (o : HashOrd) {v v' : Tfidf F} {input : Text}
    (h : Tfidf.SameForQuery env input v v') : v'.transform ops env o input = v.transform ops env o input := by
  obtain ⟨fns, scope, voc, idf, cl, st⟩ := v
  obtain ⟨fns', scope', voc', idf', cl', st'⟩ := v'
  obtain ⟨hsame, hst, hs, hcl, hc⟩ := h
  simp only [Tfidf.mk.injEq, and_true] at hsame
  obtain ⟨rfl, rfl, rfl, rfl⟩ := hsame
  have h1 : normalizeStem fns' (fns'.tokenizeLight input) st' = normalizeStem fns' (fns'.tokenizeLight input) st := by
    cases st with
    | none =>
      cases st' with
      | none => rfl
      | some c' => cases hst
    | some c =>
      cases st' with
      | none => cases hst
      | some c' => exact List.map_congr_left fun t ht => hs c c' rfl rfl t ht
  cases cl with
  | none =>
    cases cl' with
    | none => simp only [Tfidf.transform, h1, tfidfVector]
    | some c' => cases hcl
  | some c =>
    cases cl' with
    | none => cases hcl
    | some c' =>
      have h2 := clusters_same fns' env (fns'.tokenizeLight input) (hc c c' rfl rfl)
      simp only [Tfidf.transform, h1, h2, tfidfVector]

/-! ### Probabilistic parser -/

theorem slots_same {names : KindNames} {input : Text} {f f' : SlotFiller} (h : SlotFiller.SameForQuery names input f f')
    (codec : TagCodec) : f'.getSlots codec input = f.getSlots codec input := by
  obtain ⟨fns, scheme, tagger, proc, mapping⟩ := f
  obtain ⟨fns', scheme', tagger', proc', mapping'⟩ := f'
  obtain ⟨rfl, rfl, rfl, rfl, h⟩ := h
  rcases h with ⟨h1, h2⟩ | ⟨r, r', configs, os, os', h1, h2, hb, hb', hr⟩
  · cases h1
    cases h2
    rfl
  · cases h1
    cases h2
    have hp := processor_same hr hb hb'
    simp only at hp
    cases tagger' with
    | none => rfl
    | some t => simp only [SlotFiller.getSlots, hp]

theorem classifier_same {env : ProbEnv} {input : Text} {p p' : Prob} (h : Prob.SameForQuery env input p p') (o : HashOrd)
    (filter : Option (List Text)) :
    p'.classifier.getIntentsWithWhitelist env.ops env.feat o input filter
      = p.classifier.getIntentsWithWhitelist env.ops env.feat o input filter := by
  obtain ⟨⟨il, ft, lr⟩, sf⟩ := p
  obtain ⟨⟨il', ft', lr'⟩, sf'⟩ := p'
  obtain ⟨rfl, rfl, h, -⟩ := h
  rcases h with ⟨h1, h2⟩ | ⟨f, f', h1, h2, hc, ht⟩
  · cases h1
    cases h2
    rfl
  · cases h1
    cases h2
    have hf : f'.transform env.ops env.feat o input = f.transform env.ops env.feat o input := by
      simp only [Featurizer.transform, tfidf_same env.ops env.feat o ht, hc]
    cases lr' with
    | none => rfl
    | some m =>
      simp only [Classifier.getIntentsWithWhitelist, hf]
      rfl

theorem filler_same {names : KindNames} {input : Text} {m m' : Map Text SlotFiller}
    (h : List.Forall₂ (fun e e' => e'.1 = e.1 ∧ SlotFiller.SameForQuery names input e.2 e'.2) m m') (intent : Text) :
    (m.get intent = none ∧ m'.get intent = none) ∨ ∃ f f', m.get intent = some f ∧ m'.get intent = some f' ∧
      SlotFiller.SameForQuery names input f f' := by
  induction h with
  | nil => exact .inl ⟨rfl, rfl⟩
  | cons h1 _ ih =>
    rename_i e e' _ _ _
    obtain ⟨k, f⟩ := e
    obtain ⟨k', f'⟩ := e'
    obtain ⟨rfl, h1⟩ := h1
    by_cases hk : intent = k'
    · subst hk
      exact .inr ⟨f, f', by simp [Map.get], by simp [Map.get], h1⟩
    · have hne : ∀ (v : SlotFiller) (l : Map Text SlotFiller), Map.get ((k', v) :: l) intent = Map.get l intent := by
        intro v l
        simp only [Map.get, List.lookup]
        split
        · rename_i h
          exact absurd (by simpa using h) hk
        · rfl
      rw [hne, hne]
      exact ih

theorem slotsOf_same {env : ProbEnv} {input : Text} {p p' : Prob} (h : Prob.SameForQuery env input p p') (e : Err)
    (intent : Text) : p'.slotsOf env e input intent = p.slotsOf env e input intent := by
  unfold Prob.slotsOf
  rcases filler_same h.slotFillers intent with ⟨h1, h2⟩ | ⟨f, f', h1, h2, hs⟩
  · rw [h1, h2]
  · rw [h1, h2]
    exact slots_same hs env.codec

/-! ### Files -/

/-- The last line about a word is the same when lines about other words are put in. -/
theorem lastAt_added {α κ : Type} (key : α → κ) (before added after : List α) (k : κ) (h : ∀ a ∈ added, key a ≠ k) :
    (∃ pre pre' a, LastAt key (before ++ after) k pre a ∧ LastAt key (before ++ added ++ after) k pre' a) ∨
    ((∀ a ∈ before ++ after, key a ≠ k) ∧ ∀ a ∈ before ++ added ++ after, key a ≠ k) := by
  have last : ∀ l : List α, (∃ pre a, LastAt key l k pre a) ∨ ∀ a ∈ l, key a ≠ k := by
    intro l
    induction l with
    | nil => exact .inr (by simp)
    | cons b l ih =>
      rcases ih with ⟨pre, a, post, rfl, ha, hp⟩ | hn
      · exact .inl ⟨b :: pre, a, post, rfl, ha, hp⟩
      · by_cases hb : key b = k
        · exact .inl ⟨[], b, l, rfl, hb, hn⟩
        · right
          intro a ha
          rcases List.mem_cons.1 ha with rfl | ha
          · exact hb
          · exact hn a ha
  rcases last after with ⟨pre, a, post, rfl, ha, hp⟩ | hn
  · exact .inl ⟨before ++ pre, before ++ added ++ pre, a, ⟨post, by simp, ha, hp⟩, ⟨post, by simp, ha, hp⟩⟩
  · rcases last before with ⟨pre, a, post, rfl, ha, hp⟩ | hb
    · refine .inl ⟨pre, pre, a, ⟨post ++ after, by simp, ha, ?_⟩, ⟨post ++ added ++ after, by simp, ha, ?_⟩⟩
      · intro b hb
        rcases List.mem_append.1 hb with hb | hb
        · exact hp b hb
        · exact hn b hb
      · intro b hb
        simp only [List.mem_append] at hb
        rcases hb with (hb | hb) | hb
        · exact hp b hb
        · exact h b hb
        · exact hn b hb
    · right
      constructor
      · intro b hb'
        rcases List.mem_append.1 hb' with hb' | hb'
        · exact hb b hb'
        · exact hn b hb'
      · intro b hb'
        simp only [List.mem_append] at hb'
        rcases hb' with (hb' | hb') | hb'
        · exact hb b hb'
        · exact h b hb'
        · exact hn b hb'

end OtherResources
end Snips
