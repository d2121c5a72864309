import Verif.Props.C100_Clock
import Verif.Proofs.ValidModel
import Verif.Props.C22_Concurrent
import Verif.Props.C60_Layout
import Verif.Props.C97_Answering
import Verif.Spec.LoadingDemo

/-! # C99: an engine whose files agree with each other answers every query -/

namespace Snips

/-- What is loaded from files that agree with each other is well formed and complete (the conditions of C58 and C97), and so
are the parsers of entities. -/
theorem c99_loaded (env : LoadEnv) (hs : env.Sensible) (o : HashOrd) (dir : Path) (fs : Fs) (hv : ValidFiles env fs dir)
    (e : LoadedEngine) (h : (loadEngine env o dir fs).1 = .ok e) :
    (∀ p ∈ e.parsers, p.Sound ∧ p.Complete e.dataset env.names ∧ (env.debugAssertions = false → p.Release)) ∧
    e.ext.TimeStable ∧ e.ext.Sound ∧
    ∀ time, (e.ext.world time).NoPanic ∧ (e.ext.world time).NoError ∧ (e.ext.world time).Scoped := by
  obtain ⟨-, m, name, fns, r, hm, -, -, hx, hd, hp⟩ := c60_engine env o dir fs e h
  refine ⟨fun p hpm => ?_, ext_valid hs hx⟩
  obtain ⟨parser, hpa, hat⟩ := forall₂_source99 hp p hpm
  rw [hd]
  exact parser_valid hs hat (hv m hm parser hpa)

/-- Each call by itself, in a release build, is answered. -/
theorem c99_call (env : LoadEnv) (hs : env.Sensible) (hr : env.debugAssertions = false) (o : HashOrd) (dir : Path) (fs : Fs)
    (hv : ValidFiles env fs dir) (e : LoadedEngine) (h : (loadEngine env o dir fs).1 = .ok e) (time : Nat) (call : EngineCall)
    (hf : e.Fair env.names time call) :
    ∃ answer, ((e.engine env.names).code call).run (e.ext.world time) = .ok answer := by
  obtain ⟨hp, hts, hx, hw⟩ := c99_loaded env hs o dir fs hv e h
  obtain ⟨hnp, hne, hsc⟩ := hw time
  have fit : ∀ input, (∀ p ∈ e.parsers, p.Small (e.ext.world time) input) →
      ∀ p ∈ e.parsers, p.Fits (e.ext.world time) input :=
    fun input hsm p hpm => c58_release ((hp p hpm).2.2 hr) _ input (hsm p hpm)
  have all := fun (o : HashOrd) input hsm => c97_answered e.dataset env.names e.parsers (fun p hpm => (hp p hpm).1)
    (fun p hpm => (hp p hpm).2.1) (e.ext.world time) hnp hne hsc o input (fit input hsm)
  have fin : ∀ {α β : Type} {p : Prog α} (g : α → β), (∃ a, p.run (e.ext.world time) = .ok a) →
      ∃ b, (p.bind fun a => .ret (g a)).run (e.ext.world time) = .ok b := by
    rintro α β p g ⟨a, ha⟩
    exact ⟨g a, by rw [Prog.run_bind, ha]; rfl⟩
  cases call with
  | parse o' input wl bl ni ns =>
    obtain ⟨h1, h2, h3⟩ := hf
    exact fin _ ((all o' input h1).2.2.2.1 wl bl ni ns h2 h3)
  | intents o' input => exact fin _ (all o' input hf).2.1
  | slots o' input intent ns => exact fin _ ((all o' input hf.1).2.2.1 intent ns hf.2)
  | extract input intent slot ns =>
    obtain ⟨mapping, entity, h1, h2, h3⟩ := hf
    obtain ⟨a, ha, -⟩ := Outcome.Only.exists (extract_only (e := e.engine env.names) hne input ns h1 h2 h3)
      (extract_safe hnp _ _ _ _)
    exact fin _ ⟨a, ha⟩

/-- Any calls one after the other, at any times, with the caches: all are answered. -/
theorem c99_history (env : LoadEnv) (hs : env.Sensible) (hr : env.debugAssertions = false) (o : HashOrd) (dir : Path) (fs : Fs)
    (hv : ValidFiles env fs dir) (e : LoadedEngine) (h : (loadEngine env o dir fs).1 = .ok e) (cap : Nat)
    (calls : List (Nat × EngineCall)) (hf : ∀ call ∈ calls, e.Fair env.names call.1 call.2) :
    ∀ answer ∈ (runHistory e.ext (calls.map fun call => (call.1, (e.engine env.names).code call.2)) (Caches.empty cap)).1,
      ∃ a, answer = .ok a := by
  obtain ⟨-, hts, hx, -⟩ := c99_loaded env hs o dir fs hv e h
  have hnp : e.ext.NoPanic := ⟨fun t s kinds n => hx.builtin t s kinds n, c58_extraction e.ext hx⟩
  rw [(runHistory_spec hts hnp _ _ (Caches.empty_sound e.ext cap) (Caches.empty_healthy cap)).1]
  intro answer ha
  obtain ⟨q, hq, rfl⟩ := List.mem_map.1 ha
  obtain ⟨call, hc, rfl⟩ := List.mem_map.1 hq
  exact c99_call env hs hr o dir fs hv e h call.1 call.2 (hf call hc)

/-- Any calls at the same time, under any schedule: no thread is ever stuck, every schedule comes to its end, and every thread
that ends was answered. -/
theorem c99_threads (env : LoadEnv) (hs : env.Sensible) (hr : env.debugAssertions = false) (o : HashOrd) (dir : Path) (fs : Fs)
    (hv : ValidFiles env fs dir) (e : LoadedEngine) (h : (loadEngine env o dir fs).1 = .ok e) (cap : Nat)
    (calls : List (Nat × EngineCall)) (hf : ∀ call ∈ calls, e.Fair env.names call.1 call.2) :
    let start := System.start (Caches.empty cap) (calls.map fun call => (call.1, (e.engine env.names).code call.2))
    (∀ s, Reachable e.ext start s → (∃ p ∈ s.threads, ∀ a, p.2 ≠ Thread.done a) → ∃ s', SystemStep e.ext s s') ∧
    (¬ ∃ run : Nat → System EngineAnswer, run 0 = start ∧ ∀ i, SystemStep e.ext (run i) (run (i + 1))) ∧
    ∀ s, Reachable e.ext start s → ∀ p ∈ s.threads, ∀ answer, p.2 = Thread.done answer → ∃ a, answer = .ok a := by
  intro start
  obtain ⟨-, hts, hx, -⟩ := c99_loaded env hs o dir fs hv e h
  have hnp : e.ext.NoPanic := ⟨fun t s kinds n => hx.builtin t s kinds n, c58_extraction e.ext hx⟩
  refine ⟨fun s hr' => c24_no_deadlock e.ext _ _ s hr', c24_terminates e.ext _ _, fun s hr' p hp answer ha => ?_⟩
  obtain ⟨t, th⟩ := p
  simp only at ha
  subst ha
  obtain ⟨i, hi⟩ := List.getElem?_of_mem hp
  obtain ⟨q, hq, rfl⟩ := c22_schedule_independent e.ext hts hnp cap _ s hr' i t answer hi
  obtain ⟨call, hc, hce⟩ := List.mem_map.1 (List.mem_of_getElem? hq)
  simp only [Prod.mk.injEq] at hce
  obtain ⟨rfl, rfl⟩ := hce
  exact c99_call env hs hr o dir fs hv e h call.1 call.2 (hf call hc)

/-- The same for threads that share, besides the caches, the taggers with their state and a clock that advances at any point. -/
theorem c99_shared (env : LoadEnv) (hs : env.Sensible) (hr : env.debugAssertions = false) (o : HashOrd) (dir : Path) (fs : Fs)
    (hv : ValidFiles env fs dir) (e : LoadedEngine) (h : (loadEngine env o dir fs).1 = .ok e) (libs : Nat → CrfLib)
    (shared : EEngine) (he : SameEngine libs shared (e.engine env.names)) (now cap : Nat) (current : Nat → Option TokenFeatures)
    (calls : List EngineCall) (hf : ∀ call ∈ calls, e.Fair env.names now call) :
    let start := ESystem.start now (Caches.empty cap) current (calls.map shared.code)
    (∀ s, EReachable e.ext libs start s → (∃ p ∈ s.threads, ∀ a, p.2 ≠ EThread.done a) → ∃ s', EMove e.ext libs s s') ∧
    (¬ ∃ run : Nat → ESystem EngineAnswer, run 0 = start ∧ ∀ i, ∃ d, EMove e.ext libs ((run i).later d) (run (i + 1))) ∧
    ∀ s, EReachable e.ext libs start s → ∀ p ∈ s.threads, ∀ answer, p.2 = EThread.done answer → ∃ a, answer = .ok a := by
  intro start
  obtain ⟨-, hts, hx, -⟩ := c99_loaded env hs o dir fs hv e h
  have hnp : e.ext.NoPanic := ⟨fun t s kinds n => hx.builtin t s kinds n, c58_extraction e.ext hx⟩
  have ok : ∀ call ∈ calls, ∀ t times answer, ((e.engine env.names).code call).Answers e.ext t times answer →
      ∃ a, answer = .ok a := by
    intro call hc t times answer ha
    obtain ⟨a, hrun⟩ := c99_call env hs hr o dir fs hv e h now call (hf call hc)
    have := c100_call e.ext hts e.dataset env.names e.parsers call t times answer ha now
    change SameOutcome _ answer (((e.engine env.names).code call).run (e.ext.world now)) at this
    rw [hrun] at this
    cases this with
    | ok _ => exact ⟨_, rfl⟩
  refine ⟨fun s hr' => c88_no_deadlock e.ext libs now _ current _ s hr', c88_terminates e.ext libs now _ current _,
    fun s hr' p hp answer ha => ?_⟩
  obtain ⟨t, th⟩ := p
  simp only at ha
  subst ha
  obtain ⟨i, hi⟩ := List.getElem?_of_mem hp
  obtain ⟨call, times, hc, -, hans⟩ := c88_engine e.ext hts hnp libs shared _ he now cap current calls (fun call hc t times hpan => by
    obtain ⟨a, ha⟩ := ok call hc t times _ hpan
    cases ha) s hr' i t answer hi
  exact ok call (List.mem_of_getElem? hc) t times answer hans

/-- Every engine is shared by some threads in this way. -/
example (e : LoadedEngine) (names : KindNames) : ∃ libs shared, SameEngine libs shared (e.engine names) :=
  c100_shared e.dataset names e.parsers

/-! ### A concrete case -/

/-- The documents of the example, with a regression, a vectorizer of pairs and a tagger. -/
def validDocuments : List (List Nat × Json) :=
  ([15], jObj [("featurizer", jStr "featurizer"), ("intercept", .arr [.int 0, .int 1]),
    ("coeffs", .arr [.arr [.int 1, .int 2, .int 3], .arr [.int 4, .int 5, .int 6]]), ("intent_list", .arr [jStr "brew", .null])]) ::
  ([16], jObj [("language_code", jStr "en"), ("tfidf_vectorizer", jStr "tfidf"), ("cooccurrence_vectorizer", jStr "pairs")]) ::
  ([18], jObj [("language_code", jStr "en"), ("intent", jStr "brew"), ("slot_name_mapping", jObj [("count", jStr "snips/number")]),
    ("crf_model_file", jStr "model.crf"), ("config", jObj [("tagging_scheme", .int 1), ("feature_factory_configs", .arr [])])]) ::
  ([19], jObj [("language_code", jStr "en"), ("builtin_entity_scope", .arr []),
    ("word_pairs", jObj [("1", jStrs ["two", "tea"]), ("0", jStrs ["make", "tea"])]),
    ("config", jObj [("window_size", .int 5), ("filter_stop_words", .bool true), ("keep_order", .bool true)])]) ::
  demoDocuments.filter fun d => d.1 ∉ [[15], [16], [18]]

/-- A gazetteer that takes every text for a drink. -/
def drinkGazetteer (s : Text) (kinds : Option (List Text)) (_ : Nat) : Outcome (List CustomEntity) :=
  .ok (if s = [] ∨ ∃ asked, kinds = some asked ∧ "drink".toList ∉ asked then [] else
    [⟨s, s, [], ⟨0, s.length⟩, "drink".toList⟩])

/-- Its libraries. -/
def validEnv : LoadEnv :=
  { demoLoadEnv with
    json := fun b => (validDocuments.find? fun d => d.1 = b).map fun d => d.2
    tagger := fun _ => .ok ⟨fun features => .ok (features.map fun _ => "B-count".toList), .ok [], fun _ _ => .ok 1⟩
    language := fun t => if t = "en".toList then .ok ("en".toList, wholeTextFns) else .err (.external 301)
    builtinParser := fun _ => .ok fun _ _ _ _ => .ok []
    gazetteerParser := fun _ => .ok drinkGazetteer
    debugAssertions := false }

/-- Its disk. -/
def validFs : Fs := fun p =>
  if p = ["m", "prob", "intent_classifier", "featurizer", "pairs", "vectorizer.json"].map String.toList then some (.file [19])
  else if p = ["m", "prob", "filler", "model.crf"].map String.toList then some (.file [0])
  else demoEngineFs 1 p

theorem valid_documents {α : Type} (d : Json → Outcome α) (p : α → Bool)
    (h : (validDocuments.all fun x => match d x.2 with | .ok m => p m | _ => true) = true) {path : Path} {m : α}
    (hm : FileHas validFs path (validEnv.decode d) m) : p m = true := by
  obtain ⟨b, -, hm⟩ := hm
  unfold LoadEnv.decode at hm
  cases hj : validEnv.json b with
  | none => rw [hj] at hm; cases hm
  | some j =>
    rw [hj] at hm
    simp only [validEnv] at hj
    rw [Option.map_eq_some_iff] at hj
    obtain ⟨x, hx, rfl⟩ := hj
    have := List.all_eq_true.1 h x (List.mem_of_find?_eq_some hx)
    simp only at hm
    rw [hm] at this
    exact this

example : validEnv.Sensible where
  tokenizers code name fns h := by
    simp only [validEnv] at h
    split at h
    · cases h; exact wholeTextFns_ok
    · cases h
  tags t := by simp [validEnv, demoLoadEnv]
  kinds _ := ⟨0, rfl⟩
  builtin files parse h := by
    cases h
    exact fun time s kinds n => ⟨[], rfl, fun time' es' h => by cases h; rfl⟩
  custom files parse h := by
    cases h
    intro s kinds n
    refine ⟨_, rfl, fun e he => ?_⟩
    split at he
    · cases he
    · rename_i hc
      rw [List.mem_singleton] at he
      subst he
      refine ⟨List.length_pos_iff.2 fun h => hc (.inl h), Nat.le_refl _, fun asked ha => ?_⟩
      by_contra hn
      exact hc (.inr ⟨asked, ha, hn⟩)

example : ∃ e, (loadEngine validEnv HashOrd.insertion ["m".toList] validFs).1 = .ok e := by
  have h : ((loadEngine validEnv HashOrd.insertion ["m".toList] validFs).1.map fun e => e.parsers.length) = .ok 3 := by
    decide +kernel
  cases hl : (loadEngine validEnv HashOrd.insertion ["m".toList] validFs).1 with
  | ok e => exact ⟨e, rfl⟩
  | err e => rw [hl] at h; cases h
  | panic => rw [hl] at h; cases h

example : ValidFiles validEnv validFs ["m".toList] := by
  intro m hm parser hparser
  have hd := valid_documents decodeEngine (fun m => (m.dataset.entities.get "drink".toList).isSome) (by decide +kernel) hm
  obtain ⟨ext, hd⟩ := Option.isSome_iff_exists.1 hd
  refine ⟨fun _ lm hlm => ?_, fun _ dm hdm => ?_, fun _ pm hpm => ⟨?_, ?_, ?_⟩⟩
  · have h := valid_documents decodeLookup (fun m => m.map.all (fun e => decide (0 ≤ e.2.1 ∧ e.2.1 < m.intentsNames.length) &&
        e.2.2.all fun id => decide (0 ≤ id ∧ id < m.slotsNames.length)) &&
      m.entityScopes.all fun s => s.builtin.all (fun b => decide (b = "snips/number".toList)) &&
        s.custom.all fun c => decide (c = "drink".toList)) (by decide +kernel) hlm
    simp only [Bool.and_eq_true, List.all_eq_true, decide_eq_true_eq] at h
    exact ⟨fun e he => (h.1 e he).1, fun e he => (h.1 e he).2, fun s hs b hb => ⟨0, by rw [(h.2 s hs).1 b hb]; decide⟩,
      fun s hs c hc => .inl ⟨ext, by rw [(h.2 s hs).2 c hc]; exact hd⟩⟩
  · have h := valid_documents decodeDeterministic (fun m => m.slotNamesToEntities.all fun e => (m.patterns.get e.1).isSome &&
      decide (e.2 = [])) (by decide +kernel) hdm
    simp only [Bool.and_eq_true, List.all_eq_true, decide_eq_true_eq] at h
    refine ⟨fun intent ps _ pat _ r hr group hg => ?_, fun e he => Option.isSome_iff_exists.1 (h e he).1,
      fun intent declared hg slot entity hs => ?_⟩
    · cases hr
      simp [plainRegex] at hg
    · have he : declared = [] := (h _ (Map.get_some_mem hg)).2
      rw [he] at hs
      cases hs
  · intro cm hcm name hname
    constructor
    · intro fm hfm
      constructor
      · intro v hv
        have h := valid_documents (decodeTfidf validEnv.rd) (fun m => decide (m.vocab ≠ []) &&
          m.vocab.all fun e => decide (e.2 < m.idfDiag.length)) (by decide +kernel) hv
        simp only [Bool.and_eq_true, List.all_eq_true, decide_eq_true_eq] at h
        exact ⟨h.1, h.2⟩
      · intro name _ v hv
        have h := valid_documents decodeCooc (fun m => decide (m.wordPairs.map Prod.snd).Nodup &&
          m.wordPairs.all fun e => decide (e.1 < m.wordPairs.length)) (by decide +kernel) hv
        simp only [Bool.and_eq_true, List.all_eq_true, decide_eq_true_eq] at h
        exact ⟨h.1, h.2⟩
    · intro coeffs first hco hfirst fm hfm v hv largest hl
      have h1 := valid_documents (decodeClassifier validEnv.rd) (fun m => match m.coeffs with
        | some (first :: _) => decide (first.length = 3)
        | _ => false) (by decide +kernel) hcm
      have h2 := valid_documents decodeFeaturizer (fun m => m.cooccurrenceVectorizer.isSome) (by decide +kernel) hfm
      have h3 := valid_documents (decodeTfidf validEnv.rd) (fun m => decide ((m.vocab.map Prod.snd).max? = some 0))
        (by decide +kernel) hv
      rw [hco] at h1
      cases coeffs with
      | nil => cases hfirst
      | cons f rest =>
        cases hfirst
        simp only [decide_eq_true_eq] at h1 h3
        rw [h3] at hl
        cases hl
        refine ⟨fun hn => (by rw [hn] at h2; exact absurd h2 (by simp)), fun name _ c hc => ?_⟩
        have h4 := valid_documents decodeCooc (fun m => decide (m.wordPairs.length = 2)) (by decide +kernel) hc
        simp only [decide_eq_true_eq] at h4
        rw [h1, h4]
  · intro e he fm hfm name hname tagger ht features
    obtain ⟨b, -, ht⟩ := ht
    cases ht
    have h := valid_documents decodeSlotFiller (fun m => match m.crfModelFile with
      | some _ => decide (m.slotNameMapping.get "count".toList = some "snips/number".toList)
      | none => true) (by decide +kernel) hfm
    rw [hname] at h
    simp only [decide_eq_true_eq] at h
    refine ⟨_, rfl, by simp, fun x hx => ⟨x, rfl, .inr ⟨"snips/number".toList, ?_, .inr ⟨0, by decide⟩⟩⟩⟩
    obtain ⟨_, _, rfl⟩ := List.mem_map.1 hx
    exact h
  · intro c hc intent hi
    have h1 := valid_documents decodeProbabilistic (fun m => m.any fun e => decide (e.1 = "brew".toList)) (by decide +kernel) hpm
    have h2 := valid_documents (decodeClassifier validEnv.rd) (fun m => m.intentList.all fun i => decide (i = none ∨
      i = some "brew".toList)) (by decide +kernel) hc
    simp only [List.any_eq_true, List.all_eq_true, decide_eq_true_eq] at h1 h2
    obtain ⟨e, he, hb⟩ := h1
    refine ⟨e, he, hb.trans ?_⟩
    rcases h2 _ hi with h | h
    · cases h
    · cases h; rfl

/-- Every text may be asked for its intents. -/
example (e : LoadedEngine) (h : (loadEngine validEnv HashOrd.insertion ["m".toList] validFs).1 = .ok e) (time : Nat)
    (o : HashOrd) (input : Text) : e.Fair validEnv.names time (.intents o input) := by
  have lang : ∀ {code fns}, SpeaksLanguage validEnv code fns → fns = wholeTextFns := by
    rintro code fns ⟨name, hl⟩
    simp only [validEnv] at hl
    split at hl
    · cases hl; rfl
    · cases hl
  obtain ⟨-, m, name, fns, r, hm, -, -, hx, hd, hp⟩ := c60_engine _ _ _ _ e h
  intro p hpm
  obtain ⟨parser, hpa, hat⟩ := forall₂_source99 hp p hpm
  cases p with
  | lookup => trivial
  | deterministic => trivial
  | probabilistic penv p =>
    obtain ⟨-, ⟨pm, hpm, ⟨-, cm, hcm, -, hf, -⟩, -, hfs⟩, rfl⟩ := hat
    refine ⟨fun f hcf c hfc size hsize bs cs _ _ => ?_, fun intent filler hg os hos x hx => ?_⟩
    · rcases hf with ⟨-, hn⟩ | ⟨n, a, hn, ha, fm, hfm, -, hc⟩
      · rw [hcf] at hn; cases hn
      · rw [hcf] at ha
        cases ha
        rcases hc with ⟨-, hn⟩ | ⟨n, a, hn, ha, vm, hvm, hl, -, -, -, hw, -⟩
        · rw [hfc] at hn; cases hn
        · rw [hfc] at ha
          cases ha
          have h5 := valid_documents decodeCooc (fun m => decide (m.windowSize = some 5)) (by decide +kernel) hvm
          simp only [decide_eq_true_eq] at h5
          rw [hw, h5] at hsize
          cases hsize
          rw [lang hl]
          show 1 + 5 < 2 ^ 64
          norm_num
    · by_cases hi : ∃ e ∈ pm, e.1 = intent
      · obtain ⟨b, a, c, hmc, hca⟩ := last_entry intent pm hi
        obtain ⟨f, hg', -, sm, hsm, -, -, -, ht⟩ := (hfs intent).2 b a c hmc hca
        rw [hg] at hg'
        cases hg'
        rcases ht with ⟨-, -, hn⟩ | ⟨_, _, os', -, -, -, ho, built, hb, hfl⟩
        · rw [hos] at hn; cases hn
        · rw [hos] at ho
          cases ho
          have h0 := valid_documents decodeSlotFiller (fun m => decide (m.featureFactoryConfigs.length = 0)) (by decide +kernel) hsm
          simp only [decide_eq_true_eq, List.length_eq_zero_iff] at h0
          rw [hfl, h0] at hx
          cases hx
      · rw [(hfs intent).1 (fun e he hk => hi ⟨e, he, hk⟩)] at hg
        cases hg

end Snips
