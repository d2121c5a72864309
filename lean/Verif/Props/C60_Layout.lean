import Verif.Spec.Layout
import Verif.Proofs.Loading
import Verif.Props.C39_LogReg
import Verif.Props.C59_Factories
import Verif.Spec.LoadingDemo

/-! # C60: a loaded engine is what its files say -/

namespace Snips

open Load

theorem fileHas_iff {α : Type} {p : Path} {d : List Nat → Outcome α} {fs : Fs} {a : α} :
    ((file p d) fs).1 = .ok a ↔ FileHas fs p d a := file_ok_iff

theorem directory_ok {α : Type} {p : Path} {d : Fs → Outcome α} {fs : Fs} {a : α} :
    ((directory p d) fs).1 = .ok a ↔ d (fun q => fs (resolve p ++ q)) = .ok a := Iff.rfl

/-! ### Resources -/

theorem stemmer_at {fns : TextFns} {dir : Path} {m : ResourcesJson} {fs : Fs} {s : Option Stemmer}
    (h : ((loadStemmer fns dir m) fs).1 = .ok s) :
    Named m.stems (fun name s => FileHas fs (pathWithTxt (joinPath (dir ++ ["stemming".toList]) name))
      (fun b => Stemmer.fromReader fns.hashStr (csvRecords 44 true b)) s) s := by
  unfold loadStemmer at h
  cases hm : m.stems with
  | none =>
    rw [hm] at h
    exact Or.inl ⟨rfl, (pure_ok_iff.1 h).symm⟩
  | some name =>
    rw [hm] at h
    simp only [Load.bind_ok_iff] at h
    obtain ⟨a, ha, h⟩ := h
    exact Or.inr ⟨name, a, rfl, (pure_ok_iff.1 h).symm, fileHas_iff.1 ha⟩

theorem table_from {α : Type} {R : Text → α → Prop} (seen rest : List Text) (m : Map Text α) (x : Text) (a : α)
    (hm : Table seen R m) (ha : R x a) : Table (seen ++ [x]) R (m.insert x a) := by
  intro name
  rw [Map.get_insert]
  constructor
  · intro h
    split
    · rename_i he; subst he; exact ⟨a, rfl, ha⟩
    · rename_i hne
      rcases List.mem_append.1 h with h | h
      · exact (hm name).1 h
      · exact absurd (List.mem_singleton.1 h) hne
  · intro h
    rw [if_neg (fun he => h (by simp [he]))]
    exact (hm name).2 fun h' => h (by simp [h'])

theorem gazetteers_at {fns : TextFns} {dir : Path} {fs : Fs} :
    ∀ (names seen : List Text) (m : Map Text Gazetteer) (out : Map Text Gazetteer),
      Table seen (fun name g => FileHas fs (pathWithTxt (joinPath (dir ++ ["gazetteers".toList]) name))
        (fun b => Gazetteer.fromReader fns.hashStr (readLines b)) g) m →
      ((loadGazetteersFrom fns dir names m) fs).1 = .ok out →
      Table (seen ++ names) (fun name g => FileHas fs (pathWithTxt (joinPath (dir ++ ["gazetteers".toList]) name))
        (fun b => Gazetteer.fromReader fns.hashStr (readLines b)) g) out
  | [], seen, m, out, hm, h => by
    have := pure_ok_iff.1 h
    subst this
    simpa using hm
  | x :: names, seen, m, out, hm, h => by
    unfold loadGazetteersFrom at h
    rw [Load.bind_ok_iff] at h
    obtain ⟨g, hg, h⟩ := h
    have := gazetteers_at names (seen ++ [x]) _ out (table_from seen names m x g hm (fileHas_iff.1 hg)) h
    simpa using this

theorem clusterers_at {fns : TextFns} {o : HashOrd} {dir : Path} {fs : Fs} :
    ∀ (names seen : List Text) (m : Map Text WordClusterer) (out : Map Text WordClusterer),
      Table seen (fun name g => FileHas fs (pathWithTxt (joinPath (dir ++ ["word_clusters".toList]) name))
        (fun b => WordClusterer.fromReader fns.hashStr o (csvRecords 9 false b)) g) m →
      ((loadClusterersFrom fns o dir names m) fs).1 = .ok out →
      Table (seen ++ names) (fun name g => FileHas fs (pathWithTxt (joinPath (dir ++ ["word_clusters".toList]) name))
        (fun b => WordClusterer.fromReader fns.hashStr o (csvRecords 9 false b)) g) out
  | [], seen, m, out, hm, h => by
    have := pure_ok_iff.1 h
    subst this
    simpa using hm
  | x :: names, seen, m, out, hm, h => by
    unfold loadClusterersFrom at h
    rw [Load.bind_ok_iff] at h
    obtain ⟨g, hg, h⟩ := h
    have := clusterers_at names (seen ++ [x]) _ out (table_from seen names m x g hm (fileHas_iff.1 hg)) h
    simpa using this

theorem table_nil {α : Type} (R : Text → α → Prop) : Table [] R [] :=
  fun _ => ⟨fun h => (by cases h), fun _ => rfl⟩

theorem collectStopWords_ok : ∀ (lines : List (Outcome Text)) (acc out : List Text),
    collectStopWords lines acc = .ok out →
    (∀ l ∈ lines, ∃ w, l = .ok w) ∧ ∀ w, w ∈ out ↔ w ∈ acc ∨ IsLine lines w
  | [], acc, out, h => by
    cases h
    exact ⟨fun _ h => (by cases h), fun w => by simp [IsLine]⟩
  | l :: lines, acc, out, h => by
    unfold collectStopWords at h
    rw [Outcome.bind_ok_iff'] at h
    obtain ⟨v, rfl, h⟩ := h
    obtain ⟨h1, h2⟩ := collectStopWords_ok lines _ out h
    refine ⟨fun l hl => ?_, fun w => ?_⟩
    · rcases List.mem_cons.1 hl with rfl | hl
      · exact ⟨v, rfl⟩
      · exact h1 l hl
    · rw [h2]
      unfold IsLine
      simp only [List.mem_cons, Outcome.ok.injEq]
      split
      · rename_i hv
        rcases hv with hv | hv
        · subst hv
          constructor
          · rintro (h | ⟨h, hne⟩)
            · exact Or.inl h
            · exact Or.inr ⟨Or.inr h, hne⟩
          · rintro (h | ⟨h | h, hne⟩)
            · exact Or.inl h
            · exact absurd h hne
            · exact Or.inr ⟨h, hne⟩
        · have hv : v ∈ acc := by simpa using hv
          constructor
          · rintro (h | ⟨h, hne⟩)
            · exact Or.inl h
            · exact Or.inr ⟨Or.inr h, hne⟩
          · rintro (h | ⟨h | h, hne⟩)
            · exact Or.inl h
            · exact Or.inl (h ▸ hv)
            · exact Or.inr ⟨h, hne⟩
      · rename_i hv
        rw [not_or] at hv
        simp only [List.mem_append, List.mem_singleton]
        constructor
        · rintro ((h | h) | ⟨h, hne⟩)
          · exact Or.inl h
          · exact Or.inr ⟨Or.inl h, h ▸ hv.1⟩
          · exact Or.inr ⟨Or.inr h, hne⟩
        · rintro (h | ⟨h | h, hne⟩)
          · exact Or.inl (Or.inl h)
          · exact Or.inl (Or.inr h)
          · exact Or.inr ⟨h, hne⟩

theorem stopWords_at {dir : Path} {m : ResourcesJson} {fs : Fs} {out : List Text}
    (h : ((loadStopWords dir m) fs).1 = .ok out) :
    (m.stopWords = none ∧ out = []) ∨ ∃ name bytes, m.stopWords = some name ∧
      FileAt fs (pathWithTxt (joinPath dir name)) bytes ∧ (∀ l ∈ readLines bytes, ∃ w, l = .ok w) ∧
      ∀ w, w ∈ out ↔ IsLine (readLines bytes) w := by
  unfold loadStopWords at h
  cases hm : m.stopWords with
  | none =>
    rw [hm] at h
    exact Or.inl ⟨rfl, (pure_ok_iff.1 h).symm⟩
  | some name =>
    rw [hm] at h
    obtain ⟨bytes, hb, hd⟩ := file_ok_iff.1 h
    obtain ⟨h1, h2⟩ := collectStopWords_ok _ _ _ hd
    exact Or.inr ⟨name, bytes, rfl, hb, h1, fun w => by rw [h2]; simp⟩

theorem resources_at {env : LoadEnv} {fns : TextFns} {o : HashOrd} {dir bp cp : Path} {fs : Fs} {r : Resources × Ext}
    (h : ((loadSharedResources env fns o dir bp cp) fs).1 = .ok r) :
    ResourcesAt env fns o fs dir r.1 ∧ ExtAt env fns fs bp cp r.2 := by
  unfold loadSharedResources at h
  simp only [Load.bind_ok_iff] at h
  obtain ⟨m, hm, st, hst, gz, hgz, cl, hcl, sw, hsw, b, hb, c, hc, h⟩ := h
  have := pure_ok_iff.1 h
  subst this
  refine ⟨⟨m, fileHas_iff.1 hm, stemmer_at hst, ?_, ?_, stopWords_at hsw⟩, ⟨rfl, directory_ok.1 hb, ?_⟩⟩
  · have := gazetteers_at _ [] [] gz (table_nil _) hgz
    simpa using this
  · have := clusterers_at _ [] [] cl (table_nil _) hcl
    simpa using this
  · unfold loadCustomParser at hc
    simp only [Load.bind_ok_iff] at hc
    obtain ⟨cm, hcm, lang, hl, parser, hp, hc⟩ := hc
    have := pure_ok_iff.1 hc
    subst this
    exact ⟨cm, lang.1, lang.2, fileHas_iff.1 hcm, lift_ok_iff.1 hl, rfl,
      directory_ok.1 hp⟩

/-! ### Parsers -/

theorem lookup_at {env : LoadEnv} {r : Resources} {m : LookupJson} {fs : Fs} {dir : Path}
    (hm : FileHas fs (dir ++ ["intent_parser.json".toList]) env.lookup m) {p : ParserModel}
    (h : Lookup.new env r m = .ok p) : ∃ penv q, p = .lookup penv q ∧ LookupAt env r fs dir penv q := by
  unfold Lookup.new at h
  rw [Outcome.bind_ok_iff'] at h
  obtain ⟨lang, hl, h⟩ := h
  cases h
  exact ⟨_, _, rfl, ⟨m, lang.1, hm, hl, rfl, rfl, rfl, rfl, rfl⟩, rfl, rfl, rfl⟩

theorem det_at {env : LoadEnv} {r : Resources} {m : DetJson} {fs : Fs} {dir : Path}
    (hm : FileHas fs (dir ++ ["intent_parser.json".toList]) env.deterministic m) {p : ParserModel}
    (h : Det.new env r m = .ok p) : ∃ penv q, p = .deterministic penv q ∧ DetAt env r fs dir penv q := by
  unfold Det.new at h
  rw [Outcome.bind_ok_iff'] at h
  obtain ⟨lang, hl, h⟩ := h
  rw [Outcome.bind_ok_iff'] at h
  obtain ⟨regexes, hr, h⟩ := h
  cases h
  refine ⟨_, _, rfl, ⟨m, lang.1, hm, hl, ?_, rfl, rfl, rfl, rfl⟩, rfl, rfl, rfl⟩
  unfold compileRegexes at hr
  refine (mapOutcome_ok_iff.1 hr).imp fun ip ir h => ?_
  rw [Outcome.bind_ok_iff'] at h
  obtain ⟨rs, hrs, h⟩ := h
  cases h
  exact ⟨rfl, mapOutcome_ok_iff.1 hrs⟩

theorem scope_of {env : LoadEnv} {labels : List Text} {kinds : List Kind}
    (h : vectorizerScope env labels = .ok kinds) : ScopeOf env labels kinds := by
  unfold vectorizerScope at h
  exact (mapOutcome_ok_iff.1 h).imp fun _ _ h => ofOption_ok_iff.1 h

theorem tfidf_at {env : LoadEnv} {fns : TextFns} {r : Resources} {m : TfidfJson} {fs : Fs} {dir : Path}
    (hm : FileHas fs (dir ++ ["vectorizer.json".toList]) env.tfidf m) {v : Tfidf ℚ}
    (h : Tfidf.new env fns r m = .ok v) : TfidfAt env fns r fs dir v := by
  unfold Tfidf.new at h
  simp only [Outcome.bind_ok_iff'] at h
  obtain ⟨lang, hlang, cl, hcl, sc, hsc, st, hst, h⟩ := h
  cases h
  refine ⟨m, hm, ⟨lang.1, hlang⟩, rfl, rfl, scope_of hsc, ?_, ?_⟩
  · cases hn : m.wordClustersName with
    | none =>
      rw [hn] at hcl
      cases hcl
      exact Or.inl ⟨rfl, rfl⟩
    | some name =>
      rw [hn] at hcl
      simp only [vectorizerClusters, pickClusterer, Outcome.bind_ok_iff', ofOption_ok_iff] at hcl
      obtain ⟨f, ⟨c, hc, hf⟩, hcl⟩ := hcl
      cases hf
      cases hcl
      exact Or.inr ⟨name, _, rfl, rfl, c, hc, rfl⟩
  · cases hu : m.useStemming with
    | false =>
      rw [hu] at hst
      cases hst
      exact Or.inl ⟨rfl, rfl⟩
    | true =>
      rw [hu] at hst
      simp only [pickStemmer, if_true, Outcome.bind_ok_iff', ofOption_ok_iff] at hst
      obtain ⟨s, hs, h⟩ := hst
      cases h
      exact Or.inr ⟨rfl, s, hs, rfl⟩

theorem cooc_at {env : LoadEnv} {o : HashOrd} {m : CoocJson} {fs : Fs} {dir : Path}
    (hm : FileHas fs (dir ++ ["vectorizer.json".toList]) env.cooc m) {v : Cooc}
    (h : Cooc.new env o m = .ok v) : CoocAt env o fs dir v := by
  unfold Cooc.new at h
  simp only [Outcome.bind_ok_iff'] at h
  obtain ⟨sc, hsc, lang, hlang, h⟩ := h
  cases h
  exact ⟨m, hm, ⟨lang.1, hlang⟩, rfl, scope_of hsc, rfl, rfl, rfl, rfl⟩

theorem featurizer_at {env : LoadEnv} {fns : TextFns} {o : HashOrd} {r : Resources} {dir : Path} {fs : Fs}
    {f : Featurizer ℚ} (h : ((loadFeaturizer env fns o r dir) fs).1 = .ok f) :
    FeaturizerAt env fns o r fs dir f := by
  unfold loadFeaturizer at h
  simp only [Load.bind_ok_iff] at h
  obtain ⟨m, hm, t, ht, v, hv, c, hc, h⟩ := h
  have := pure_ok_iff.1 h
  subst this
  refine ⟨m, fileHas_iff.1 hm, tfidf_at (fileHas_iff.1 ht) (lift_ok_iff.1 hv), ?_⟩
  cases hn : m.cooccurrenceVectorizer with
  | none =>
    rw [hn] at hc
    exact Or.inl ⟨rfl, (pure_ok_iff.1 hc).symm⟩
  | some name =>
    rw [hn] at hc
    simp only [loadCooc, Load.bind_ok_iff] at hc
    obtain ⟨j, hj, v', hv', hc⟩ := hc
    exact Or.inr ⟨name, v', rfl, (pure_ok_iff.1 hc).symm, cooc_at (fileHas_iff.1 hj) (lift_ok_iff.1 hv')⟩

theorem regression_of {intercept : List ℚ} {coeffs : List (List ℚ)} {l : LogReg ℚ}
    (h : LogReg.new intercept coeffs = .ok l) : RegressionOf intercept coeffs l := by
  obtain ⟨h1, h2⟩ := logRegNew_ok h
  have hlen := h2.length_eq
  simp only [List.length_zip, List.length_range, Nat.min_self] at hlen
  refine ⟨h1, hlen.symm, ?_⟩
  intro j b hb
  have hj : j < intercept.length := (List.getElem?_eq_some_iff.1 hb).1
  obtain ⟨col, hcol, c, hc, rfl⟩ := forall₂_getElem? h2 (i := j) (a := (j, b)) (by
    rw [List.getElem?_zip_eq_some]
    exact ⟨by simp [hj], hb⟩)
  obtain ⟨hl, hx⟩ := coeffColumn_ok hc
  refine ⟨c, hcol, hl, fun i x hi => ?_⟩
  have := hx i (by rw [← hl]; exact (List.getElem?_eq_some_iff.1 hi).1)
  rw [hi, Option.bind_eq_some_iff] at this
  exact this

theorem classifier_at {env : LoadEnv} {fns : TextFns} {o : HashOrd} {r : Resources} {dir : Path} {fs : Fs}
    {c : Classifier} (h : ((buildIntentClassifier env fns o r dir) fs).1 = .ok c) :
    ClassifierAt env fns o r fs dir c := by
  refine ⟨buildIntentClassifier_ok h, ?_⟩
  unfold buildIntentClassifier at h
  rw [Load.bind_ok_iff] at h
  obtain ⟨k, _, h⟩ := h
  cases k with
  | logRegIntentClassifier =>
    simp only [loadLogRegClassifier, Load.bind_ok_iff] at h
    obtain ⟨m, hm, f, hf, l, hl, h⟩ := h
    have := pure_ok_iff.1 h
    subst this
    refine ⟨m, fileHas_iff.1 hm, rfl, ?_, ?_⟩
    · cases hn : m.featurizer with
      | none =>
        rw [hn] at hf
        exact Or.inl ⟨rfl, (pure_ok_iff.1 hf).symm⟩
      | some name =>
        rw [hn] at hf
        simp only [loadOptFeaturizer, Load.bind_ok_iff] at hf
        obtain ⟨f', hf', hf⟩ := hf
        exact Or.inr ⟨name, f', rfl, (pure_ok_iff.1 hf).symm, featurizer_at hf'⟩
    · have hl := lift_ok_iff.1 hl
      unfold optLogReg at hl
      cases hi : m.intercept with
      | none =>
        rw [hi] at hl
        cases hl
        exact Or.inl ⟨Or.inl rfl, rfl⟩
      | some intercept =>
        cases hc : m.coeffs with
        | none =>
          rw [hi, hc] at hl
          cases hl
          exact Or.inl ⟨Or.inr rfl, rfl⟩
        | some coeffs =>
          rw [hi, hc] at hl
          simp only [Outcome.bind_ok_iff'] at hl
          obtain ⟨l', hl', h⟩ := hl
          cases h
          exact Or.inr ⟨_, _, l', rfl, rfl, rfl, regression_of hl'⟩
  | _ => cases (lift_ok_iff.1 h)

theorem slotFiller_at {env : LoadEnv} {fns : TextFns} {r : Resources} {dir : Path} {fs : Fs}
    {f : SlotFiller} (h : ((buildSlotFiller env fns r dir) fs).1 = .ok f) : SlotFillerAt env fns r fs dir f := by
  refine ⟨buildSlotFiller_ok h, ?_⟩
  unfold buildSlotFiller at h
  rw [Load.bind_ok_iff] at h
  obtain ⟨k, _, h⟩ := h
  cases k with
  | crfSlotFiller =>
    simp only [loadCrfSlotFiller, Load.bind_ok_iff] at h
    obtain ⟨m, hm, sch, hs, tp, ht, lang, hlang, h⟩ := h
    have := pure_ok_iff.1 h
    subst this
    refine ⟨m, fileHas_iff.1 hm, ⟨lang.1, lift_ok_iff.1 hlang⟩, rfl, ((c59_scheme _).1 _).1 (lift_ok_iff.1 hs), ?_⟩
    unfold loadTagger at ht
    cases hn : m.crfModelFile with
    | none =>
      rw [hn] at ht
      have := pure_ok_iff.1 ht
      subst this
      exact Or.inl ⟨rfl, rfl, rfl⟩
    | some name =>
      rw [hn] at ht
      simp only [Load.bind_ok_iff] at ht
      obtain ⟨t, ht', os, hos, ht⟩ := ht
      have := pure_ok_iff.1 ht
      subst this
      exact Or.inr ⟨name, t, os, rfl, fileHas_iff.1 ht', rfl, rfl, (c59_processor _ _ _ _ _).1 (lift_ok_iff.1 hos)⟩
  | _ => cases (lift_ok_iff.1 h)

theorem get_foldl_insert_none {κ β : Type} [DecidableEq κ] (l : List (κ × β)) (acc : Map κ β) (k : κ)
    (h : ∀ e ∈ l, e.1 ≠ k) : (l.foldl (fun acc nf => acc.insert nf.1 nf.2) acc).get k = acc.get k := by
  induction l generalizing acc with
  | nil => rfl
  | cons x l ih =>
    simp only [List.foldl_cons]
    rw [ih _ fun e he => h e (by simp [he]), Map.get_insert, if_neg fun he => h x (by simp) he.symm]

theorem prob_at {env : LoadEnv} {fns : TextFns} {o : HashOrd} {r : Resources} {dir : Path} {fs : Fs}
    {p : ParserModel} (h : ((loadProbabilistic env fns o r dir) fs).1 = .ok p) :
    ∃ q, p = .probabilistic ⟨env.ops, ⟨env.names, env.allNgrams, r.stopWords, env.debugAssertions⟩, env.codec⟩ q ∧
      ProbAt env fns o r fs dir q := by
  unfold loadProbabilistic at h
  simp only [Load.bind_ok_iff] at h
  obtain ⟨m, hm, c, hc, fillers, hf, h⟩ := h
  have := pure_ok_iff.1 h
  subst this
  have hf := mapM_ok hf
  have hone : ∀ (e : Text × Text) (x : Text × SlotFiller),
      (((do let filler ← buildSlotFiller env fns r (joinPath dir e.2)
            Load.pure (e.1, filler) : Load (Text × SlotFiller))) fs).1 = .ok x →
      x.1 = e.1 ∧ SlotFillerAt env fns r fs (joinPath dir e.2) x.2 := by
    intro e x hx
    rw [Load.bind_ok_iff] at hx
    obtain ⟨f', hf', hx⟩ := hx
    have := pure_ok_iff.1 hx
    subst this
    exact ⟨rfl, slotFiller_at hf'⟩
  have hf : List.Forall₂ (fun (e : Text × Text) (x : Text × SlotFiller) => x.1 = e.1 ∧
      SlotFillerAt env fns r fs (joinPath dir e.2) x.2) m fillers := hf.imp hone
  refine ⟨_, rfl, m, fileHas_iff.1 hm, classifier_at hc, fun e he => ?_, fun intent => ⟨fun hno => ?_, ?_⟩⟩
  · obtain ⟨i, hi⟩ := List.getElem?_of_mem he
    obtain ⟨x, _, hx⟩ := forall₂_getElem? hf hi
    exact ⟨x.2, hx.2⟩
  · rw [get_foldl_insert_none]
    · rfl
    · intro x hx he
      obtain ⟨e, hem, hr⟩ := forall₂_mem_right hf hx
      exact hno e hem (by rw [← hr.1]; exact he)
  · rintro before name after rfl hafter
    obtain ⟨fb, frest, h1, h2, rfl⟩ : ∃ fb frest, List.Forall₂ (fun (e : Text × Text) (x : Text × SlotFiller) =>
        x.1 = e.1 ∧ SlotFillerAt env fns r fs (joinPath dir e.2) x.2) before fb ∧
        List.Forall₂ (fun (e : Text × Text) (x : Text × SlotFiller) => x.1 = e.1 ∧
          SlotFillerAt env fns r fs (joinPath dir e.2) x.2) ((intent, name) :: after) frest ∧
        fillers = fb ++ frest := by
      refine ⟨fillers.take before.length, fillers.drop before.length, ?_, ?_, (List.take_append_drop _ _).symm⟩
      · have := List.forall₂_take before.length hf
        simpa using this
      · have := List.forall₂_drop before.length hf
        simpa using this
    cases h2 with
    | @cons _ x _ fa hx hrest =>
      refine ⟨x.2, ?_, hx.2⟩
      rw [List.foldl_append, List.foldl_cons, get_foldl_insert_none, Map.get_insert, if_pos hx.1.symm]
      intro y hy he
      obtain ⟨e, hem, hr⟩ := forall₂_mem_right hrest hy
      exact hafter e hem (by rw [← hr.1]; exact he)

theorem parser_at {env : LoadEnv} {fns : TextFns} {o : HashOrd} {r : Resources} {dir : Path} {name : Text} {fs : Fs}
    {p : ParserModel} (h : ((loadIntentParser env fns o r dir name) fs).1 = .ok p) :
    ParserAt env fns o r fs (joinPath dir name) p := by
  unfold loadIntentParser at h
  rw [Load.bind_ok_iff] at h
  obtain ⟨k, hk, h⟩ := h
  have hu : UnitAt env fs (joinPath dir name) k := file_ok_iff.1 hk
  cases k with
  | crfSlotFiller => cases (lift_ok_iff (fs := fs).1 h)
  | logRegIntentClassifier => cases (lift_ok_iff (fs := fs).1 h)
  | lookupIntentParser =>
    simp only [buildIntentParser, Load.bind_ok_iff] at h
    obtain ⟨m, hm, h⟩ := h
    obtain ⟨penv, q, rfl, hq⟩ := lookup_at (fileHas_iff.1 hm) (lift_ok_iff.1 h)
    exact ⟨hu, hq⟩
  | deterministicIntentParser =>
    simp only [buildIntentParser, Load.bind_ok_iff] at h
    obtain ⟨m, hm, h⟩ := h
    obtain ⟨penv, q, rfl, hq⟩ := det_at (fileHas_iff.1 hm) (lift_ok_iff.1 h)
    exact ⟨hu, hq⟩
  | probabilisticIntentParser =>
    obtain ⟨q, rfl, hq⟩ := prob_at h
    exact ⟨hu, hq, rfl⟩

/-- A loaded engine is the one its files describe: dataset, resources, extraction engines, and the parsers in
the order of the model with all their components and tables. -/
theorem c60_engine (env : LoadEnv) (o : HashOrd) (dir : Path) (fs : Fs) (e : LoadedEngine)
    (h : (loadEngine env o dir fs).1 = .ok e) : EngineAt env o fs dir e := by
  obtain ⟨m, res, ⟨b, hb, hv, hm⟩, hres, hps, hd, hx⟩ := loadEngine_ok h
  unfold loadResourcesOf at hres
  rw [Load.bind_ok_iff] at hres
  obtain ⟨lang, hl, hres⟩ := hres
  rw [Load.bind_ok_iff] at hres
  obtain ⟨r, hr, hres⟩ := hres
  have := pure_ok_iff.1 hres
  subst this
  obtain ⟨h1, h2⟩ := resources_at hr
  exact ⟨⟨b, hb, hv⟩, m, lang.1, lang.2, r.1, ⟨b, hb, hm⟩, lift_ok_iff.1 hl, h1, by rw [hx]; exact h2, hd,
    hps.imp fun _ _ h => parser_at h⟩

/-! ### Names of the resource files -/

theorem splitSlash_plain : ∀ name : Text, '/' ∉ name → splitSlash name = [name]
  | [], _ => rfl
  | c :: t, h => by
    have hc : c ≠ '/' := fun he => h (by simp [he])
    rw [splitSlash, splitSlash_plain t fun ht => h (by simp [ht])]
    simp [hc]

theorem joinPath_one (dir : Path) (name : Text) (hs : '/' ∉ name) (h0 : name ≠ []) (h1 : name ≠ ['.']) :
    joinPath dir name = dir ++ [name] := by
  unfold joinPath
  split
  · exact absurd (by simp) hs
  · simp [pathComponents, splitSlash_plain name hs, h0, h1]

theorem pathWithTxt_last (dir : Path) (name : Text) : pathWithTxt (dir ++ [name]) = dir ++ [withTxt name] := by
  simp [pathWithTxt]

theorem takeWhile_self {α : Type} {p : α → Bool} : ∀ l : List α, (∀ x ∈ l, p x = true) → l.takeWhile p = l
  | [], _ => rfl
  | x :: l, h => by
    rw [List.takeWhile_cons, h x (by simp), takeWhile_self l fun y hy => h y (by simp [hy])]
    simp

/-- A resource whose name has neither dots nor slashes is read from the file of this name with `.txt`. -/
theorem c60_file_name (dir : Path) (name : Text) (h0 : name ≠ []) (hs : '/' ∉ name) (hd : '.' ∉ name) :
    pathWithTxt (joinPath dir name) = dir ++ [name ++ ".txt".toList] := by
  rw [joinPath_one dir name hs h0 (fun h => hd (by simp [h])), pathWithTxt_last]
  have hdd : name ≠ dotDot := fun h => hd (by simp [h, dotDot])
  have : name.reverse.takeWhile (fun c => c ≠ '.') = name.reverse := by
    apply takeWhile_self
    intro c hc
    simpa using fun he : c = '.' => hd (by rw [← he]; exact List.mem_reverse.1 hc)
  simp only [withTxt, if_neg hdd, this]
  simp

/-- What follows the last dot of the name of a resource is lost. -/
theorem c60_file_name_dotted (dir : Path) (stem ext : Text) (h0 : stem ≠ []) (hs : '/' ∉ stem) (he : '/' ∉ ext)
    (hd : '.' ∉ ext) (hdd : stem ++ '.' :: ext ≠ dotDot) :
    pathWithTxt (joinPath dir (stem ++ '.' :: ext)) = dir ++ [stem ++ ".txt".toList] := by
  rw [joinPath_one dir _ (by simp [hs, he]) (by simp) ?_, pathWithTxt_last]
  · have : (stem ++ '.' :: ext).reverse.takeWhile (fun c => c ≠ '.') = ext.reverse := by
      rw [List.reverse_append, List.reverse_cons, List.append_assoc, List.singleton_append,
        List.takeWhile_append_of_pos]
      · simp
      · intro c hc
        simpa using fun he : c = '.' => hd (by rw [← he]; exact List.mem_reverse.1 hc)
    simp only [withTxt, if_neg hdd, this]
    have hdrop : ((stem ++ '.' :: ext).reverse.drop (ext.reverse.length + 1)).reverse = stem := by
      rw [List.reverse_append, List.reverse_cons, List.append_assoc, List.drop_append]
      simp
    rw [hdrop, if_neg h0]
  · intro h
    cases stem with
    | nil => exact h0 rfl
    | cons c t => simp at h

/-- Two gazetteers whose names differ only after the last dot are the same: the file of one of them is never
read. -/
theorem c60_collision_counterexample (env : LoadEnv) (fns : TextFns) (o : HashOrd) (fs : Fs) (dir : Path)
    (r : Resources) (hr : ResourcesAt env fns o fs dir r) :
    ∀ m, FileHas fs (dir ++ ["metadata.json".toList]) env.resources m →
      "cities.en".toList ∈ m.gazetteers.getD [] → "cities.fr".toList ∈ m.gazetteers.getD [] →
      ∃ g, r.gazetteers.get "cities.en".toList = some g ∧ r.gazetteers.get "cities.fr".toList = some g := by
  intro m hm h1 h2
  obtain ⟨m', hm', _, hg, _⟩ := hr.described
  obtain ⟨b, hb, hm⟩ := hm
  obtain ⟨b', hb', hm'⟩ := hm'
  unfold FileAt at hb hb'
  rw [hb] at hb'
  cases hb'
  rw [hm] at hm'
  cases hm'
  obtain ⟨g1, e1, c1, hc1, hd1⟩ := (hg _).1 h1
  obtain ⟨g2, e2, c2, hc2, hd2⟩ := (hg _).1 h2
  have n1 := c60_file_name_dotted (dir ++ ["gazetteers".toList]) "cities".toList "en".toList (by decide) (by decide)
    (by decide) (by decide) (by decide)
  have n2 := c60_file_name_dotted (dir ++ ["gazetteers".toList]) "cities".toList "fr".toList (by decide) (by decide)
    (by decide) (by decide) (by decide)
  unfold FileAt at hc1 hc2
  have n1' : pathWithTxt (joinPath (dir ++ ["gazetteers".toList]) "cities.en".toList) = _ := n1
  have n2' : pathWithTxt (joinPath (dir ++ ["gazetteers".toList]) "cities.fr".toList) = _ := n2
  rw [n1'] at hc1
  rw [n2', hc1] at hc2
  cases hc2
  rw [hd1] at hd2
  cases hd2
  exact ⟨g1, e1, e2⟩

/-! ### The hypotheses are satisfiable -/

example : ∃ e, (loadEngine demoLoadEnv HashOrd.insertion ["m".toList] (demoEngineFs 1)).1 = .ok e ∧
    EngineAt demoLoadEnv HashOrd.insertion (demoEngineFs 1) ["m".toList] e := by
  have h : ((loadEngine demoLoadEnv HashOrd.insertion ["m".toList] (demoEngineFs 1)).1.map fun _ => ()) = .ok () := by
    decide +kernel
  cases he : (loadEngine demoLoadEnv HashOrd.insertion ["m".toList] (demoEngineFs 1)).1 with
  | ok e => exact ⟨e, rfl, c60_engine _ _ _ _ _ he⟩
  | err x => rw [he] at h; cases h
  | panic => rw [he] at h; cases h

example : pathWithTxt (joinPath ["r".toList] "top_cities".toList) = ["r".toList, "top_cities.txt".toList] := by decide

end Snips
