import Verif.Props.C65_Readers
import Verif.Spec.LoadSafety
import Verif.Proofs.Safety
import Verif.Proofs.Injection

/-! # C61: an engine whose files are all there is loaded -/

namespace Snips

open Load

theorem load_bind {α β : Type} {m : Load α} {f : α → Load β} {fs : Fs} {a : α} (h : (m fs).1 = .ok a)
    (hf : ∃ b, (f a fs).1 = .ok b) : ∃ b, ((m >>= f) fs).1 = .ok b := by
  obtain ⟨b, hb⟩ := hf
  exact ⟨b, Load.bind_ok_iff.2 ⟨a, h, hb⟩⟩

theorem load_mapM {α β : Type} {f : α → Load β} {fs : Fs} :
    ∀ l : List α, (∀ a ∈ l, ∃ b, ((f a) fs).1 = .ok b) → ∃ bs, ((Load.mapM f l) fs).1 = .ok bs
  | [], _ => ⟨[], rfl⟩
  | a :: l, h => by
    obtain ⟨b, hb⟩ := h a (by simp)
    obtain ⟨bs, hbs⟩ := load_mapM l fun x hx => h x (by simp [hx])
    unfold Load.mapM
    exact load_bind hb (load_bind hbs ⟨_, rfl⟩)

/-- Two resources with the same tables. -/
structure SameTables (r r' : Resources) : Prop where
  stemmer : r.stemmer = r'.stemmer
  gazetteers : ∀ name, r.gazetteers.get name = r'.gazetteers.get name
  clusterers : ∀ name, r.wordClusterers.get name = r'.wordClusterers.get name

theorem fileHas_unique {α : Type} {fs : Fs} {p : Path} {d : List Nat → Outcome α} {a b : α}
    (h : FileHas fs p d a) (h' : FileHas fs p d b) : a = b := by
  obtain ⟨x, hx, ha⟩ := h
  obtain ⟨y, hy, hb⟩ := h'
  unfold FileAt at hx hy
  rw [hx] at hy
  cases hy
  rw [ha] at hb
  cases hb
  rfl

theorem named_unique {α : Type} {n : Option Text} {R : Text → α → Prop} {x y : Option α}
    (hR : ∀ n a b, R n a → R n b → a = b) (h : Named n R x) (h' : Named n R y) : x = y := by
  rcases h with ⟨h1, h2⟩ | ⟨n1, a, h1, h2, h3⟩ <;> rcases h' with ⟨g1, g2⟩ | ⟨n2, b, g1, g2, g3⟩
  · rw [h2, g2]
  · rw [h1] at g1; cases g1
  · rw [h1] at g1; cases g1
  · rw [h1] at g1; cases g1
    rw [h2, g2, hR _ _ _ h3 g3]

theorem table_unique {α : Type} {l : List Text} {R : Text → α → Prop} {x y : Map Text α}
    (hR : ∀ n a b, R n a → R n b → a = b) (h : Table l R x) (h' : Table l R y) (name : Text) :
    x.get name = y.get name := by
  by_cases hn : name ∈ l
  · obtain ⟨a, ha, ra⟩ := (h name).1 hn
    obtain ⟨b, hb, rb⟩ := (h' name).1 hn
    rw [ha, hb, hR _ _ _ ra rb]
  · rw [(h name).2 hn, (h' name).2 hn]

theorem resources_unique {env : LoadEnv} {fns : TextFns} {o : HashOrd} {fs : Fs} {dir : Path} {r r' : Resources}
    (h : ResourcesAt env fns o fs dir r) (h' : ResourcesAt env fns o fs dir r') : SameTables r r' := by
  obtain ⟨m, hm, h1, h2, h3, _⟩ := h.described
  obtain ⟨m', hm', h1', h2', h3', _⟩ := h'.described
  have := fileHas_unique hm hm'
  subst this
  refine ⟨named_unique ?_ h1 h1', table_unique ?_ h2 h2', table_unique ?_ h3 h3'⟩ <;>
    exact fun _ _ _ h h' => fileHas_unique h h'

/-! ### Resources -/

theorem loads_gazetteers {fns : TextFns} {dir : Path} {fs : Fs} :
    ∀ (names : List Text) (m : Map Text Gazetteer),
      (∀ name ∈ names, ∃ g, FileHas fs (pathWithTxt (joinPath (dir ++ ["gazetteers".toList]) name))
        (fun b => Gazetteer.fromReader fns.hashStr (readLines b)) g) →
      ∃ out, ((loadGazetteersFrom fns dir names m) fs).1 = .ok out
  | [], m, _ => ⟨m, rfl⟩
  | x :: names, m, h => by
    obtain ⟨g, hg⟩ := h x (by simp)
    unfold loadGazetteersFrom
    exact load_bind (fileHas_iff.2 hg) (loads_gazetteers names _ fun n hn => h n (by simp [hn]))

theorem loads_clusterers {fns : TextFns} {o : HashOrd} {dir : Path} {fs : Fs} :
    ∀ (names : List Text) (m : Map Text WordClusterer),
      (∀ name ∈ names, ∃ g, FileHas fs (pathWithTxt (joinPath (dir ++ ["word_clusters".toList]) name))
        (fun b => WordClusterer.fromReader fns.hashStr o (csvRecords 9 false b)) g) →
      ∃ out, ((loadClusterersFrom fns o dir names m) fs).1 = .ok out
  | [], m, _ => ⟨m, rfl⟩
  | x :: names, m, h => by
    obtain ⟨g, hg⟩ := h x (by simp)
    unfold loadClusterersFrom
    exact load_bind (fileHas_iff.2 hg) (loads_clusterers names _ fun n hn => h n (by simp [hn]))

theorem collects : ∀ (lines : List (Outcome Text)) (acc : List Text), (∀ l ∈ lines, ∃ w, l = .ok w) →
    ∃ out, collectStopWords lines acc = .ok out
  | [], acc, _ => ⟨acc, rfl⟩
  | l :: lines, acc, h => by
    obtain ⟨w, rfl⟩ := h l (by simp)
    obtain ⟨out, ho⟩ := collects lines (if w = [] ∨ acc.contains w then acc else acc ++ [w])
      fun l hl => h l (by simp [hl])
    exact ⟨out, Outcome.bind_ok_iff'.2 ⟨w, rfl, ho⟩⟩

theorem loads_resources {env : LoadEnv} {fns : TextFns} {o : HashOrd} {dir bp cp : Path} {fs : Fs} {r : Resources}
    {x : Ext} (hr : ResourcesAt env fns o fs dir r) (hx : ExtAt env fns fs bp cp x) :
    ∃ p, ((loadSharedResources env fns o dir bp cp) fs).1 = .ok p := by
  obtain ⟨m, hm, h1, h2, h3, h4⟩ := hr.described
  obtain ⟨cm, name, fns', hcm, hl, _, hg⟩ := hx.custom
  have hst : ∃ s, ((loadStemmer fns dir m) fs).1 = .ok s := by
    unfold loadStemmer
    rcases h1 with ⟨h1, _⟩ | ⟨n, a, h1, _, h⟩
    · rw [h1]; exact ⟨_, rfl⟩
    · rw [h1]; exact load_bind (fileHas_iff.2 h) ⟨_, rfl⟩
  have hgz : ∃ g, ((loadGazetteers fns dir m) fs).1 = .ok g :=
    loads_gazetteers _ _ fun n hn => by obtain ⟨g, _, h⟩ := (h2 n).1 hn; exact ⟨g, h⟩
  have hcl : ∃ g, ((loadClusterers fns o dir m) fs).1 = .ok g :=
    loads_clusterers _ _ fun n hn => by obtain ⟨g, _, h⟩ := (h3 n).1 hn; exact ⟨g, h⟩
  have hsw : ∃ s, ((loadStopWords dir m) fs).1 = .ok s := by
    unfold loadStopWords
    rcases h4 with ⟨h4, _⟩ | ⟨n, b, h4, hb, hlines, _⟩
    · rw [h4]; exact ⟨_, rfl⟩
    · rw [h4]
      obtain ⟨out, ho⟩ := collects _ [] hlines
      exact ⟨out, file_ok_iff.2 ⟨b, hb, ho⟩⟩
  obtain ⟨st, hst⟩ := hst
  obtain ⟨gz, hgz⟩ := hgz
  obtain ⟨cl, hcl⟩ := hcl
  obtain ⟨sw, hsw⟩ := hsw
  have hc : ∃ c, ((loadCustomParser env cp) fs).1 = .ok c := by
    unfold loadCustomParser
    exact load_bind (fileHas_iff.2 hcm) (load_bind (lift_ok_iff.2 hl)
      (load_bind (directory_ok.2 hg) ⟨_, rfl⟩))
  obtain ⟨c, hc⟩ := hc
  unfold loadSharedResources
  exact load_bind (fileHas_iff.2 hm) (load_bind hst (load_bind hgz (load_bind hcl (load_bind hsw
    (load_bind (directory_ok.2 hx.builtin) (load_bind hc ⟨_, rfl⟩))))))

/-! ### Parsers -/

theorem loads_regression {intercept : List ℚ} {coeffs : List (List ℚ)} {l : LogReg ℚ}
    (h : RegressionOf intercept coeffs l) : ∃ l', LogReg.new intercept coeffs = .ok l' := by
  obtain ⟨⟨first, hf, hn⟩, _, h⟩ := h
  have hcol : ∀ j b, intercept[j]? = some b → ∃ c, coeffColumn coeffs first.length j = .ok c := by
    intro j b hb
    obtain ⟨w, _, hw, hx⟩ := h j b hb
    refine ⟨w, ?_⟩
    unfold coeffColumn
    rw [mapOutcome_ok_iff, List.forall₂_iff_get]
    refine ⟨by simp [hw, hn], fun i h1 h2 => ?_⟩
    rw [unwrap_ok]
    obtain ⟨row, hrow, hi⟩ := hx i w[i] (List.getElem?_eq_getElem h2)
    simp [hrow, hi]
  have : ∃ cols, mapOutcome (fun jb : Nat × ℚ => do
      let column ← coeffColumn coeffs first.length jb.1
      Outcome.ok (jb.2 :: column)) ((List.range intercept.length).zip intercept) = .ok cols := by
    apply mapOutcome_all_ok
    intro jb hjb
    obtain ⟨i, hi⟩ := List.getElem?_of_mem hjb
    rw [List.getElem?_zip_eq_some] at hi
    obtain ⟨hi1, hi2⟩ := hi
    have : jb.1 = i := by
      rw [List.getElem?_range (by
        have := (List.getElem?_eq_some_iff.1 hi1).1
        simpa using this)] at hi1
      simpa using hi1.symm
    obtain ⟨c, hc⟩ := hcol i jb.2 hi2
    exact ⟨_, Outcome.bind_ok_iff'.2 ⟨c, by rw [this]; exact hc, rfl⟩⟩
  obtain ⟨cols, hc⟩ := this
  exact ⟨_, Outcome.bind_ok_iff'.2 ⟨first, unwrap_ok.2 hf, Outcome.bind_ok_iff'.2 ⟨cols, hc, rfl⟩⟩⟩

theorem configured_same {fns : TextFns} {names : KindNames} {r r' : Resources} (hr : SameTables r r')
    {args : Map Text Json} {n : String} {fs : List Feature} (h : Configured fns names r args n fs) :
    Configured fns names r' args n fs := by
  have hst : ∀ s, StemmingArg fns r args s → StemmingArg fns r' args s := by
    intro s h
    unfold StemmingArg at h ⊢
    rw [← hr.stemmer]
    exact h
  have hcw : ∀ g, CommonWordsArg fns r args g → CommonWordsArg fns r' args g := by
    intro g h
    unfold CommonWordsArg at h ⊢
    simpa only [← hr.gazetteers] using h
  cases h with
  | isDigit => exact .isDigit
  | length => exact .length
  | isFirst => exact .isFirst
  | isLast => exact .isLast
  | ngram n g s hn hg hs => exact .ngram n g s hn (hcw g hg) (hst s hs)
  | shapeNgram n hn => exact .shapeNgram n hn
  | pfx n hn => exact .pfx n hn
  | sfx n hn => exact .sfx n hn
  | entityMatch e c sch s he hc hsch hs => exact .entityMatch e c sch s he hc hsch (hst s hs)
  | builtinEntityMatch l k c sch he hc hsch hk => exact .builtinEntityMatch l k c sch he hc hsch hk
  | wordCluster n c hn hc => exact .wordCluster n c hn (by rw [← hr.clusterers]; exact hc)

theorem loads_featurizer {env : LoadEnv} {fns : TextFns} {o : HashOrd} {r r' : Resources} {dir : Path} {fs : Fs}
    {f : Featurizer ℚ} (hr : SameTables r r') (h : FeaturizerAt env fns o r fs dir f) :
    ∃ f', ((loadFeaturizer env fns o r' dir) fs).1 = .ok f' := by
  obtain ⟨m, hm, ⟨t, ht, ⟨lang, hlang⟩, _, _, hsc, hcl, hst⟩, hco⟩ := h
  have hscope : ∀ {labels kinds}, ScopeOf env labels kinds → vectorizerScope env labels = .ok kinds := by
    intro labels kinds h
    unfold vectorizerScope
    rw [mapOutcome_ok_iff]
    exact List.Forall₂.imp (fun _ _ h => ofOption_ok_iff.2 h) h
  have h1 : ∃ c, vectorizerClusters fns r' t.wordClustersName = .ok c := by
    rcases hcl with ⟨h, _⟩ | ⟨n, a, h, _, c, hc, _⟩
    · rw [h]; exact ⟨_, rfl⟩
    · rw [h]
      rw [hr.clusterers] at hc
      exact ⟨_, Outcome.bind_ok_iff'.2 ⟨_, Outcome.bind_ok_iff'.2 ⟨c, ofOption_ok_iff.2 hc, rfl⟩, rfl⟩⟩
  have h2 : ∃ s, pickStemmer fns r' t.useStemming = .ok s := by
    rcases hst with ⟨h, _⟩ | ⟨h, s, hs, _⟩
    · rw [h]; exact ⟨_, rfl⟩
    · rw [h]
      rw [hr.stemmer] at hs
      unfold pickStemmer
      rw [if_pos rfl]
      exact ⟨_, Outcome.bind_ok_iff'.2 ⟨s, ofOption_ok_iff.2 hs, rfl⟩⟩
  obtain ⟨c, h1⟩ := h1
  obtain ⟨s, h2⟩ := h2
  have h3 : ∃ v, Tfidf.new env fns r' t = .ok v :=
    ⟨_, Outcome.bind_ok_iff'.2 ⟨_, hlang, Outcome.bind_ok_iff'.2 ⟨c, h1, Outcome.bind_ok_iff'.2
      ⟨_, hscope hsc, Outcome.bind_ok_iff'.2 ⟨s, h2, rfl⟩⟩⟩⟩⟩
  obtain ⟨v, h3⟩ := h3
  have h4 : ∃ c, ((loadCooc env o dir m.cooccurrenceVectorizer) fs).1 = .ok c := by
    rcases hco with ⟨h, _⟩ | ⟨n, a, h, _, cm, hcm, ⟨lang', hlang'⟩, _, hsc', _⟩
    · rw [h]; exact ⟨_, rfl⟩
    · rw [h]
      exact load_bind (fileHas_iff.2 hcm) (load_bind (lift_ok_iff.2 (Outcome.bind_ok_iff'.2 ⟨_, hscope hsc',
        Outcome.bind_ok_iff'.2 ⟨_, hlang', rfl⟩⟩)) ⟨_, rfl⟩)
  obtain ⟨co, h4⟩ := h4
  unfold loadFeaturizer
  exact load_bind (fileHas_iff.2 hm) (load_bind (fileHas_iff.2 ht) (load_bind (lift_ok_iff.2 h3)
    (load_bind h4 ⟨_, rfl⟩)))

theorem loads_classifier {env : LoadEnv} {fns : TextFns} {o : HashOrd} {r r' : Resources} {dir : Path} {fs : Fs}
    {c : Classifier} (hr : SameTables r r') (h : ClassifierAt env fns o r fs dir c) :
    ∃ c', ((buildIntentClassifier env fns o r' dir) fs).1 = .ok c' := by
  obtain ⟨hu, m, hm, _, hf, hl⟩ := h
  have h1 : ∃ f, ((loadOptFeaturizer env fns o r' dir m.featurizer) fs).1 = .ok f := by
    rcases hf with ⟨h, _⟩ | ⟨n, f, h, _, hf⟩
    · rw [h]; exact ⟨_, rfl⟩
    · rw [h]
      obtain ⟨f', hf'⟩ := loads_featurizer hr hf
      exact load_bind hf' ⟨_, rfl⟩
  have h2 : ∃ l, optLogReg m = .ok l := by
    unfold optLogReg
    rcases hl with ⟨h | h, _⟩ | ⟨i, co, l, h, h', _, hl⟩
    · rw [h]; exact ⟨_, rfl⟩
    · rw [h]; cases m.intercept <;> exact ⟨_, rfl⟩
    · rw [h, h']
      obtain ⟨l', hl'⟩ := loads_regression hl
      exact ⟨_, Outcome.bind_ok_iff'.2 ⟨l', hl', rfl⟩⟩
  obtain ⟨f, h1⟩ := h1
  obtain ⟨l, h2⟩ := h2
  unfold buildIntentClassifier
  refine load_bind (file_ok_iff.2 hu) ?_
  unfold loadLogRegClassifier
  exact load_bind (fileHas_iff.2 hm) (load_bind h1 (load_bind (lift_ok_iff.2 h2) ⟨_, rfl⟩))

theorem loads_slotFiller {env : LoadEnv} {fns : TextFns} {r r' : Resources} {dir : Path} {fs : Fs}
    {f : SlotFiller} (hr : SameTables r r') (h : SlotFillerAt env fns r fs dir f) :
    ∃ f', ((buildSlotFiller env fns r' dir) fs).1 = .ok f' := by
  obtain ⟨hu, m, hm, ⟨lang, hlang⟩, _, hs, ht⟩ := h
  have h1 : ∃ t, ((loadTagger env fns r' dir m) fs).1 = .ok t := by
    unfold loadTagger
    rcases ht with ⟨h, _⟩ | ⟨n, t, os, h, ht, _, _, built, hb, ho⟩
    · rw [h]; exact ⟨_, rfl⟩
    · rw [h]
      refine load_bind (fileHas_iff.2 ht) (load_bind (lift_ok_iff.2 ((c59_processor _ _ _ _ os).2
        ⟨built, ?_, ho⟩)) ⟨_, rfl⟩)
      exact List.Forall₂.imp (fun _ _ h => configured_same hr h) hb
  obtain ⟨t, h1⟩ := h1
  unfold buildSlotFiller
  refine load_bind (file_ok_iff.2 hu) ?_
  unfold loadCrfSlotFiller
  exact load_bind (fileHas_iff.2 hm) (load_bind (lift_ok_iff.2 (((c59_scheme _).1 _).2 hs)) (load_bind h1
    (load_bind (lift_ok_iff.2 hlang) ⟨_, rfl⟩)))

theorem loads_parser {env : LoadEnv} {fns : TextFns} {o : HashOrd} {r r' : Resources} {dir : Path} {name : Text}
    {fs : Fs} {p : ParserModel} (hr : SameTables r r') (h : ParserAt env fns o r fs (joinPath dir name) p) :
    ∃ p', ((loadIntentParser env fns o r' dir name) fs).1 = .ok p' := by
  unfold loadIntentParser
  cases p with
  | lookup penv p =>
    obtain ⟨hu, ⟨m, n, hm, hl, _⟩, _, _, _⟩ := h
    refine load_bind (file_ok_iff.2 hu) (load_bind (fileHas_iff.2 hm) ?_)
    exact ⟨_, lift_ok_iff.2 (Outcome.bind_ok_iff'.2 ⟨_, hl, rfl⟩)⟩
  | deterministic penv p =>
    obtain ⟨hu, ⟨m, n, hm, hl, hp, _⟩, _, _, _⟩ := h
    refine load_bind (file_ok_iff.2 hu) (load_bind (fileHas_iff.2 hm) ?_)
    refine ⟨_, lift_ok_iff.2 (Outcome.bind_ok_iff'.2 ⟨_, hl, Outcome.bind_ok_iff'.2 ⟨p.regexes, ?_, rfl⟩⟩)⟩
    unfold compileRegexes
    rw [mapOutcome_ok_iff]
    refine List.Forall₂.imp (fun ip ir h => ?_) hp
    refine Outcome.bind_ok_iff'.2 ⟨ir.2, mapOutcome_ok_iff.2 h.2, ?_⟩
    rw [← h.1]
  | probabilistic penv p =>
    obtain ⟨hu, ⟨m, hm, hc, hf, _⟩, _⟩ := h
    refine load_bind (file_ok_iff.2 hu) ?_
    obtain ⟨c, hc⟩ := loads_classifier hr hc
    obtain ⟨fl, hfl⟩ := load_mapM (fs := fs) (f := fun nf : Text × Text => do
        let filler ← buildSlotFiller env fns r' (joinPath (joinPath dir name) nf.2)
        Pure.pure (nf.1, filler)) m (fun e he => by
      obtain ⟨f, hf⟩ := hf e he
      obtain ⟨f', hf'⟩ := loads_slotFiller hr hf
      exact load_bind hf' ⟨_, rfl⟩)
    exact load_bind (fileHas_iff.2 hm) (load_bind hc (load_bind hfl ⟨_, rfl⟩))

/-- Loading succeeds exactly when the files describe an engine; it fails only if some file is missing or does
not say what it should. -/
theorem c61_loads_iff (env : LoadEnv) (o : HashOrd) (dir : Path) (fs : Fs) :
    (∃ e, (loadEngine env o dir fs).1 = .ok e) ↔ ∃ e, EngineAt env o fs dir e := by
  refine ⟨fun ⟨e, h⟩ => ⟨e, c60_engine env o dir fs e h⟩, ?_⟩
  rintro ⟨e, hv, m, name, fns, r, hm, hl, hr, hx, _, hp⟩
  obtain ⟨p, hres⟩ := loads_resources hr hx
  have hsame : SameTables r p.1 := resources_unique hr (resources_at hres).1
  obtain ⟨ps, hps⟩ := load_mapM (f := loadIntentParser env fns o p.1 dir) (fs := fs) m.intentParsers (by
    intro n hn
    obtain ⟨i, hi⟩ := List.getElem?_of_mem hn
    obtain ⟨q, _, hq⟩ := forall₂_getElem? hp hi
    exact loads_parser hsame hq)
  have hmodel : ((loadModel env dir) fs).1 = .ok m := by
    unfold loadModel
    refine Load.bind_ok_iff.2 ⟨(), ?_, fileHas_iff.2 hm⟩
    unfold checkModelVersion
    exact Load.bind_ok_iff.2 ⟨_, fileHas_iff.2 hv, rfl⟩
  have hof : ((loadResourcesOf env o dir m) fs).1 = .ok (fns, p) := by
    unfold loadResourcesOf
    exact Load.bind_ok_iff.2 ⟨_, lift_ok_iff.2 hl, Load.bind_ok_iff.2 ⟨p, hres, rfl⟩⟩
  unfold loadEngine
  exact load_bind hmodel (load_bind hof (load_bind hps ⟨_, rfl⟩))

/-! ### Loading does not panic -/

theorem load_bind_safe {α β : Type} {m : Load α} {f : α → Load β} {fs : Fs} (hm : (m fs).1 ≠ .panic)
    (hf : ∀ a, (m fs).1 = .ok a → (f a fs).1 ≠ .panic) : ((m >>= f) fs).1 ≠ .panic := by
  rw [Load.bind_def]
  unfold Load.bind
  cases h : m fs with
  | mk o t =>
    rw [h] at hm hf
    cases o with
    | ok a => exact hf a rfl
    | err e => simp
    | panic => exact absurd rfl hm

theorem load_pure_safe {α : Type} (a : α) (fs : Fs) : ((Pure.pure a : Load α) fs).1 ≠ .panic := by
  intro h; cases h

theorem load_file_safe {α : Type} {p : Path} {d : List Nat → Outcome α} {fs : Fs}
    (h : ∀ b, FileAt fs p b → d b ≠ .panic) : ((Load.file p d) fs).1 ≠ .panic := by
  unfold Load.file
  split
  · rename_i b hb; exact h b hb
  · simp

theorem load_mapM_safe {α β : Type} {f : α → Load β} {fs : Fs} :
    ∀ l : List α, (∀ a ∈ l, ((f a) fs).1 ≠ .panic) → ((Load.mapM f l) fs).1 ≠ .panic
  | [], _ => load_pure_safe _ _
  | a :: l, h => by
    unfold Load.mapM
    exact load_bind_safe (h a (by simp)) fun _ _ =>
      load_bind_safe (load_mapM_safe l fun x hx => h x (by simp [hx])) fun _ _ => load_pure_safe _ _

theorem load_gazetteer_safe {hash : Text → Int} : ∀ (lines : List (Outcome Text)) (values : List Int),
    (∀ l ∈ lines, l ≠ .panic) → Gazetteer.load hash lines values ≠ .panic
  | [], _, _ => by simp [Gazetteer.load]
  | l :: lines, values, h => by
    refine Outcome.bind_safe (h l (by simp)) fun w _ => ?_
    show (if w = [] then _ else _) ≠ _
    split <;> exact load_gazetteer_safe lines _ fun r hr => h r (by simp [hr])

theorem load_stopWords_safe : ∀ (lines : List (Outcome Text)) (acc : List Text),
    (∀ l ∈ lines, l ≠ .panic) → collectStopWords lines acc ≠ .panic
  | [], _, _ => by simp [collectStopWords]
  | l :: lines, acc, h =>
    Outcome.bind_safe (h l (by simp)) fun _ _ => load_stopWords_safe lines _ fun r hr => h r (by simp [hr])

theorem load_gazetteers_safe {env : LoadEnv} (henv : env.NoPanic) {fns : TextFns} {dir : Path} {fs : Fs} :
    ∀ (names : List Text) (m : Map Text Gazetteer), ((loadGazetteersFrom fns dir names m) fs).1 ≠ .panic
  | [], _ => load_pure_safe _ _
  | _ :: names, _ => by
    unfold loadGazetteersFrom
    exact load_bind_safe (load_file_safe fun b _ => load_gazetteer_safe _ _ (readLines_safe b)) fun _ _ =>
      load_gazetteers_safe henv names _

theorem load_clusterers_safe {env : LoadEnv} (henv : env.NoPanic) {fns : TextFns} {o : HashOrd} {dir : Path} {fs : Fs} :
    ∀ (names : List Text) (m : Map Text WordClusterer),
      (∀ name ∈ names, ∀ bytes, FileAt fs (pathWithTxt (joinPath (dir ++ ["word_clusters".toList]) name)) bytes →
        ¬ BareWord bytes) →
      ((loadClusterersFrom fns o dir names m) fs).1 ≠ .panic
  | [], _, _ => load_pure_safe _ _
  | x :: names, _, h => by
    unfold loadClusterersFrom
    exact load_bind_safe (load_file_safe fun b hb => fun hp => h x (by simp) b hb (clusters_panic_iff.1 hp))
      fun _ _ => load_clusterers_safe henv names _ fun n hn => h n (by simp [hn])

theorem load_resources_safe {env : LoadEnv} (henv : env.NoPanic) {fns : TextFns} {o : HashOrd} {dir bp cp : Path} {fs : Fs}
    (ht : TablesComplete env fs) : ((loadSharedResources env fns o dir bp cp) fs).1 ≠ .panic := by
  unfold loadSharedResources
  refine load_bind_safe (load_file_safe fun b _ => (env.reads_decode reads_resources).safe b) fun m hm => ?_
  have hm := fileHas_iff.1 hm
  refine load_bind_safe ?_ fun _ _ => load_bind_safe (load_gazetteers_safe henv _ _) fun _ _ =>
    load_bind_safe (load_clusterers_safe henv _ _ (ht.clusters dir m hm)) fun _ _ => load_bind_safe ?_ fun _ _ =>
    load_bind_safe (henv.builtinParser _) fun _ _ => load_bind_safe ?_ fun _ _ => load_pure_safe _ _
  · unfold loadStemmer
    cases hs : m.stems with
    | none => exact load_pure_safe _ _
    | some n =>
      exact load_bind_safe (load_file_safe fun b hb => load_stemmer_safe _ _ (csvRecords_safe _ _ b)
        fun r hr => List.length_pos_iff.2 (csvRecords_ne_nil _ _ b r hr)) fun _ _ => load_pure_safe _ _
  · unfold loadStopWords
    cases hs : m.stopWords with
    | none => exact load_pure_safe _ _
    | some n => exact load_file_safe fun b _ => load_stopWords_safe _ _ (readLines_safe b)
  · unfold loadCustomParser
    exact load_bind_safe (load_file_safe fun b _ => (env.reads_decode reads_customParser).safe b) fun cm _ =>
      load_bind_safe (henv.language _) fun _ _ => load_bind_safe (henv.gazetteerParser _) fun _ _ =>
      load_pure_safe _ _

theorem load_regression_safe {intercept : List ℚ} {coeffs : List (List ℚ)} {first : List ℚ} (h0 : coeffs[0]? = some first)
    (h : ∀ j < intercept.length, ∃ row, coeffs[j]? = some row ∧ first.length ≤ row.length) :
    LogReg.new intercept coeffs ≠ .panic := by
  unfold LogReg.new
  refine Outcome.bind_safe (by rw [h0]; simp [Outcome.unwrap]) fun f hf => ?_
  rw [unwrap_ok, h0] at hf
  cases hf
  refine Outcome.bind_safe (mapOutcome_safe fun jb hjb => Outcome.bind_safe (mapOutcome_safe fun i hi => ?_)
    fun _ _ => by simp) fun _ _ => by simp
  obtain ⟨row, hrow, hlen⟩ := h jb.1 (by
    have := (List.of_mem_zip hjb).1
    simpa using this)
  have hi : i < row.length := by
    have : i < first.length := by simpa using hi
    omega
  rw [hrow]
  simp [Outcome.unwrap, List.getElem?_eq_getElem hi]

theorem load_scope_safe {env : LoadEnv} (labels : List Text) : vectorizerScope env labels ≠ .panic :=
  mapOutcome_safe fun _ _ => ofOption_safe _ _

theorem load_featurizer_safe {env : LoadEnv} (henv : env.NoPanic) {fns : TextFns} {o : HashOrd} {r : Resources}
    {dir : Path} {fs : Fs} : ((loadFeaturizer env fns o r dir) fs).1 ≠ .panic := by
  unfold loadFeaturizer
  refine load_bind_safe (load_file_safe fun b _ => (env.reads_decode reads_featurizer).safe b) fun m _ => load_bind_safe
    (load_file_safe fun b _ => (env.reads_decode (reads_tfidf env.rd)).safe b) fun t _ => load_bind_safe ?_ fun _ _ => load_bind_safe ?_ fun _ _ =>
    load_pure_safe _ _
  · show Tfidf.new env fns r t ≠ .panic
    refine Outcome.bind_safe (henv.language _) fun _ _ => Outcome.bind_safe ?_ fun _ _ => Outcome.bind_safe
      (load_scope_safe _) fun _ _ => Outcome.bind_safe ?_ fun _ _ => by simp
    · cases t.wordClustersName with
      | none => simp [vectorizerClusters]
      | some n =>
        exact Outcome.bind_safe (Outcome.bind_safe (ofOption_safe _ _) fun _ _ => by simp) fun _ _ => by simp
    · unfold pickStemmer
      split
      · exact Outcome.bind_safe (ofOption_safe _ _) fun _ _ => by simp
      · simp
  · cases m.cooccurrenceVectorizer with
    | none => exact load_pure_safe _ _
    | some n =>
      exact load_bind_safe (load_file_safe fun b _ => (env.reads_decode reads_cooc).safe b) fun c _ => load_bind_safe
        (Outcome.bind_safe (load_scope_safe _) fun _ _ => Outcome.bind_safe (henv.language _) fun _ _ => by simp)
        fun _ _ => load_pure_safe _ _

theorem load_classifier_safe {env : LoadEnv} (henv : env.NoPanic) {fns : TextFns} {o : HashOrd} {r : Resources}
    {dir : Path} {fs : Fs} (ht : TablesComplete env fs) :
    ((buildIntentClassifier env fns o r dir) fs).1 ≠ .panic := by
  unfold buildIntentClassifier
  refine load_bind_safe (load_file_safe fun b _ => (env.reads_decode reads_unit).safe b) fun k _ => ?_
  have herr : ∀ e : Err, ((Load.lift (.err e) : Load Classifier) fs).1 ≠ .panic := fun e h => (by cases h)
  cases k with
  | logRegIntentClassifier =>
    refine load_bind_safe (load_file_safe fun b _ => (env.reads_decode (reads_classifier env.rd)).safe b) fun m hm => load_bind_safe ?_ fun _ _ =>
      load_bind_safe ?_ fun _ _ => load_pure_safe _ _
    · cases m.featurizer with
      | none => exact load_pure_safe _ _
      | some n => exact load_bind_safe (load_featurizer_safe henv) fun _ _ => load_pure_safe _ _
    · show optLogReg m ≠ .panic
      unfold optLogReg
      cases hi : m.intercept with
      | none => simp
      | some i =>
        cases hc : m.coeffs with
        | none => simp
        | some c =>
          obtain ⟨first, h0, h⟩ := ht.coefficients dir m (fileHas_iff.1 hm) i c hi hc
          exact Outcome.bind_safe (load_regression_safe h0 h) fun _ _ => by simp
  | _ => exact herr _

theorem load_slotFiller_safe {env : LoadEnv} (henv : env.NoPanic) {fns : TextFns} {r : Resources} {dir : Path} {fs : Fs} :
    ((buildSlotFiller env fns r dir) fs).1 ≠ .panic := by
  unfold buildSlotFiller
  refine load_bind_safe (load_file_safe fun b _ => (env.reads_decode reads_unit).safe b) fun k _ => ?_
  have herr : ∀ e : Err, ((Load.lift (.err e) : Load SlotFiller) fs).1 ≠ .panic := fun e h => (by cases h)
  cases k with
  | crfSlotFiller =>
    refine load_bind_safe (load_file_safe fun b _ => (env.reads_decode reads_slotFiller).safe b) fun m _ => load_bind_safe ?_ fun _ _ =>
      load_bind_safe ?_ fun _ _ => load_bind_safe (henv.language _) fun _ _ => load_pure_safe _ _
    · show Scheme.fromU8 m.taggingScheme ≠ .panic
      unfold Scheme.fromU8
      split <;> simp
    · unfold loadTagger
      cases m.crfModelFile with
      | none => exact load_pure_safe _ _
      | some n =>
        exact load_bind_safe (load_file_safe fun b _ => henv.tagger b) fun _ _ => load_bind_safe
          (c59_no_panic _ _ _ _) fun _ _ => load_pure_safe _ _
  | _ => exact herr _

theorem loadParser_safe {env : LoadEnv} (henv : env.NoPanic) {fns : TextFns} {o : HashOrd} {r : Resources}
    {dir : Path} {fs : Fs} (ht : TablesComplete env fs) (name : Text) :
    ((loadIntentParser env fns o r dir name) fs).1 ≠ .panic := by
  unfold loadIntentParser
  refine load_bind_safe (load_file_safe fun b _ => (env.reads_decode reads_unit).safe b) fun k _ => ?_
  have herr : ∀ e : Err, ((Load.lift (.err e) : Load ParserModel) fs).1 ≠ .panic := fun e h => (by cases h)
  cases k with
  | lookupIntentParser =>
    exact load_bind_safe (load_file_safe fun b _ => (env.reads_decode reads_lookup).safe b) fun m _ =>
      Outcome.bind_safe (henv.language _) fun _ _ => by simp
  | deterministicIntentParser =>
    exact load_bind_safe (load_file_safe fun b _ => (env.reads_decode reads_deterministic).safe b) fun m _ =>
      Outcome.bind_safe (henv.language _) fun _ _ => Outcome.bind_safe
        (mapOutcome_safe fun _ _ => Outcome.bind_safe (mapOutcome_safe fun _ _ => henv.regex _) fun _ _ => by simp)
        fun _ _ => by simp
  | probabilisticIntentParser =>
    exact load_bind_safe (load_file_safe fun b _ => (env.reads_decode reads_probabilistic).safe b) fun m _ =>
      load_bind_safe (load_classifier_safe henv ht) fun _ _ => load_bind_safe
        (load_mapM_safe _ fun _ _ => load_bind_safe (load_slotFiller_safe henv) fun _ _ => load_pure_safe _ _)
        fun _ _ => load_pure_safe _ _
  | _ => exact herr _

/-- Loading a directory whose tables are complete ends with an engine or an error, whatever else the files
contain or lack. -/
theorem c61_no_panic (env : LoadEnv) (henv : env.NoPanic) (o : HashOrd) (dir : Path) (fs : Fs)
    (ht : TablesComplete env fs) : (loadEngine env o dir fs).1 ≠ .panic := by
  unfold loadEngine
  refine load_bind_safe (load_bind_safe (load_bind_safe (load_file_safe fun b _ => (env.reads_decode reads_version).safe b) fun v _ => ?_)
    fun _ _ => load_file_safe fun b _ => (env.reads_decode reads_engine).safe b) fun m _ => load_bind_safe
    (load_bind_safe (henv.language _) fun _ _ => load_bind_safe (load_resources_safe henv ht) fun _ _ =>
      load_pure_safe _ _) fun _ _ => load_bind_safe (load_mapM_safe _ fun n _ => loadParser_safe henv ht n)
    fun _ _ => load_pure_safe _ _
  split
  · intro h; cases h
  · exact load_pure_safe _ _

/-! ### The hypotheses are satisfiable and needed -/

example : ∃ e, EngineAt demoLoadEnv HashOrd.insertion (demoEngineFs 1) ["m".toList] e :=
  (c61_loads_iff _ _ _ _).1 (by
    have h : ((loadEngine demoLoadEnv HashOrd.insertion ["m".toList] (demoEngineFs 1)).1.map fun _ => ()) = .ok () := by
      decide +kernel
    cases he : (loadEngine demoLoadEnv HashOrd.insertion ["m".toList] (demoEngineFs 1)).1 with
    | ok e => exact ⟨e, rfl⟩
    | err x => rw [he] at h; cases h
    | panic => rw [he] at h; cases h)

theorem outcome_ite_safe {α : Type} {c : Prop} [Decidable c] {a b : Outcome α} (ha : a ≠ .panic) (hb : b ≠ .panic) :
    (if c then a else b) ≠ .panic := by
  split
  · exact ha
  · exact hb

theorem ok_safe {α : Type} (a : α) : Outcome.ok a ≠ .panic := fun h => (by cases h)

theorem err_safe {α : Type} (e : Err) : (Outcome.err e : Outcome α) ≠ .panic := fun h => (by cases h)

theorem demoLoadEnv_noPanic : demoLoadEnv.NoPanic where
  tagger _ := err_safe _
  language _ := outcome_ite_safe (ok_safe _) (err_safe _)
  regex _ := ok_safe _
  builtinParser _ := ok_safe _
  gazetteerParser _ := ok_safe _

example : demoLoadEnv.NoPanic ∧ TablesComplete demoLoadEnv (demoEngineFs 1) := by
  refine ⟨demoLoadEnv_noPanic, ?_, ?_⟩
  · rintro dir m ⟨b, _, hb⟩ i c hi hc
    have := demo_documents (decodeClassifier demoLoadEnv.rd) (fun m => m.intercept.isNone) (by decide +kernel) hb
    rw [hi] at this
    cases this
  · rintro dir m ⟨b, _, hb⟩ name hn
    have := demo_documents decodeResources (fun m => (m.wordClusters.getD []).isEmpty) (by decide +kernel) hb
    rw [List.isEmpty_iff] at this
    rw [this] at hn
    cases hn

/-- The documents of the example, with a regression of two classes and coefficients for one. -/
def shortCoeffsEnv : LoadEnv :=
  withDocument [15] (jObj [("featurizer", jStr "featurizer"), ("intercept", .arr [.int 0, .int 0]),
    ("coeffs", .arr [.arr [.int 1]]), ("intent_list", .arr [jStr "brew", .null])])

/-- The documents of the example, with a file of word clusters. -/
def clustersEnv : LoadEnv :=
  withDocument [10] (jObj [("language", jStr "en"), ("word_clusters", jStrs ["brown"])])

/-- The example with a file of word clusters that is `dog`. -/
def clustersFs : Fs := fun p =>
  if p = ["m", "resources", "en", "word_clusters", "brown.txt"].map String.toList then some (.file [100, 111, 103])
  else demoEngineFs 1 p

/-- The two ways in which the files of an engine can make the loading panic. -/
theorem c61_panic_counterexample :
    (loadEngine shortCoeffsEnv HashOrd.insertion ["m".toList] (demoEngineFs 1)).1.map (fun _ => ()) = .panic ∧
    (loadEngine clustersEnv HashOrd.insertion ["m".toList] clustersFs).1.map (fun _ => ()) = .panic := by
  constructor <;> decide +kernel

end Snips
