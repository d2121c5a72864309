import Verif.Spec.ValidModel
import Verif.Proofs.Answering
import Verif.Proofs.Machine
import Verif.Props.C58_NoPanic

/-! Lemmas for C99. -/

namespace Snips

variable {env : LoadEnv} {fs : Fs} {dir : Path} {dataset : DatasetMetadata}

/-! ### Inverting the table of pairs -/

theorem Map.insert_new {κ ν : Type} [DecidableEq κ] (k : κ) (v : ν) : ∀ m : Map κ ν, k ∉ m.map Prod.fst →
    m.insert k v = m ++ [(k, v)]
  | [], _ => rfl
  | (k', v') :: m, h => by
    simp only [List.map_cons, List.mem_cons, not_or] at h
    unfold Map.insert
    rw [if_neg (Ne.symm h.1), Map.insert_new k v m h.2]
    rfl

theorem foldl_insert_new : ∀ (l : List (Nat × (Text × Text))) (acc : Map (Text × Text) Nat),
    (l.map Prod.snd).Nodup → (∀ e ∈ l, e.2 ∉ acc.map Prod.fst) →
      l.foldl (fun acc e => acc.insert e.2 e.1) acc = acc ++ l.map fun e => (e.2, e.1)
  | [], acc, _, _ => by simp
  | e :: l, acc, hn, hd => by
    simp only [List.map_cons, List.nodup_cons] at hn
    rw [List.foldl_cons, Map.insert_new _ _ _ (hd e (List.mem_cons_self ..)), foldl_insert_new l _ hn.2]
    · simp
    · intro x hx hm
      rw [List.map_append, List.mem_append] at hm
      rcases hm with hm | hm
      · exact hd x (List.mem_cons_of_mem _ hx) hm
      · simp only [List.map_cons, List.map_nil, List.mem_singleton] at hm
        exact hn.1 (hm ▸ List.mem_map_of_mem hx)

theorem invertPairs_perm (o : HashOrd) (m : Map Nat (Text × Text)) (h : (m.map Prod.snd).Nodup) :
    (invertPairs o m).Perm (m.map fun e => (e.2, e.1)) := by
  have hp : (o.order 0 m).Perm m := o.perm 0 m
  unfold invertPairs
  rw [foldl_insert_new _ _ ((hp.map Prod.snd).nodup_iff.2 h) (by simp), List.nil_append]
  exact hp.map _

/-! ### Files -/

theorem lookup_valid {r : Resources} {penv : RuleEnv} {p : Lookup} (hs : env.Sensible) (h : LookupAt env r fs dir penv p)
    (hv : ∀ m, FileHas fs (dir ++ ["intent_parser.json".toList]) env.lookup m → m.Valid env dataset) :
    p.Sound ∧ p.Complete dataset env.names penv := by
  obtain ⟨m, name, hm, -, e1, e2, e3, e4, -⟩ := h.described
  have hv := hv m hm
  refine ⟨⟨?_, ?_⟩, ⟨?_, ?_, ?_⟩⟩
  · rw [e3, e2]; exact hv.intents
  · rw [e3, e1]; exact hv.slots
  · rw [e4, h.names]; exact hv.builtin
  · rw [h.names]; exact fun kind => .inr (hs.kinds kind)
  · rw [e4]; exact hv.custom

theorem regexes_get {intent : Text} : ∀ {patterns : Map Text (List Text)} {regexes : Map Text (List Regex)},
    List.Forall₂ (fun (ip : Text × List Text) (ir : Text × List Regex) => ir.1 = ip.1 ∧
      List.Forall₂ (fun pattern regex => env.regex pattern = .ok regex) ip.2 ir.2) patterns regexes →
    (∀ rs, regexes.get intent = some rs → ∃ ps, patterns.get intent = some ps ∧
      List.Forall₂ (fun pattern regex => env.regex pattern = .ok regex) ps rs) ∧
    (∀ ps, patterns.get intent = some ps → ∃ rs, regexes.get intent = some rs)
  | _, _, .nil => ⟨fun rs h => (Option.some_ne_none rs h.symm).elim, fun ps h => (Option.some_ne_none ps h.symm).elim⟩
  | (i, ps) :: _, (i', rs) :: _, .cons ⟨h1, h2⟩ t => by
    simp only at h1 h2
    subst h1
    have ih := regexes_get (intent := intent) t
    rw [Map.get_cons, Map.get_cons]
    by_cases hi : intent = i'
    · simp only [hi, if_true, Option.some.injEq]
      exact ⟨fun rs' h => ⟨ps, rfl, h ▸ h2⟩, fun _ _ => ⟨rs, rfl⟩⟩
    · simp only [hi, if_false]
      exact ih

theorem forall₂_source99 {α β : Type} {R : α → β → Prop} : ∀ {l : List α} {l' : List β}, List.Forall₂ R l l' →
    ∀ b ∈ l', ∃ a ∈ l, R a b
  | _, _, .nil, b, hb => by cases hb
  | _, _, .cons h t, b, hb => by
    rcases List.mem_cons.1 hb with rfl | hb
    · exact ⟨_, List.mem_cons_self .., h⟩
    · obtain ⟨a, ha, hr⟩ := forall₂_source99 t b hb
      exact ⟨a, List.mem_cons_of_mem _ ha, hr⟩

theorem det_valid {r : Resources} {penv : RuleEnv} {p : Det} (hs : env.Sensible) (h : DetAt env r fs dir penv p)
    (hv : ∀ m, FileHas fs (dir ++ ["intent_parser.json".toList]) env.deterministic m → m.Valid env dataset) :
    (TokenizerOk penv.fns ∧ p.Sound) ∧ p.Complete dataset env.names := by
  obtain ⟨m, name, hm, hl, e1, e2, e3, -, e5⟩ := h.described
  have hv := hv m hm
  refine ⟨⟨hs.tokenizers _ _ _ hl, ?_⟩, ⟨?_, ?_⟩⟩
  · intro intent regexes hr regex hmem group hg
    obtain ⟨patterns, hp, hf⟩ := (regexes_get e1).1 regexes hr
    obtain ⟨pattern, hpm, hc⟩ := forall₂_source99 hf regex hmem
    rw [e2, e3]
    exact hv.groups intent patterns hp pattern hpm regex hc group hg
  · intro s hsm
    rw [e5] at hsm
    unfold detScopes at hsm
    obtain ⟨e, he, rfl⟩ := List.mem_map.1 hsm
    obtain ⟨patterns, hp⟩ := hv.patterns e he
    exact (regexes_get e1).2 patterns hp
  · rw [e3]
    exact hv.entities

theorem featurizer_valid {fns : TextFns} {o : HashOrd} {r : Resources} {f : Featurizer ℚ}
    (h : FeaturizerAt env fns o r fs dir f) (hv : FeaturizerFiles env fs dir) : f.Sound := by
  obtain ⟨m, hm, ⟨tm, htm, -, t1, t2, -⟩, hc⟩ := h
  obtain ⟨v1, v2⟩ := hv m hm
  have v1 := v1 tm htm
  refine ⟨?_, ?_, ?_⟩
  · rw [t1]; exact v1.vocabulary
  · rw [t1, t2]; exact v1.weights
  · intro c hcc
    rcases hc with ⟨-, hn⟩ | ⟨n, a, hn, ha, cm, hcm, -, c1, -⟩
    · rw [hcc] at hn; cases hn
    · rw [hcc] at ha
      cases ha
      have v2 := v2 n hn cm hcm
      have hp := invertPairs_perm o cm.wordPairs v2.distinct
      rw [c1]
      intro e he
      rw [hp.length_eq, List.length_map]
      obtain ⟨x, hx, rfl⟩ := List.mem_map.1 (hp.mem_iff.1 he)
      exact v2.numbers x hx

theorem classifier_valid {fns : TextFns} {o : HashOrd} {r : Resources} {c : Classifier}
    (h : ClassifierAt env fns o r fs dir c) (hv : ClassifierFiles env fs dir) :
    (∀ f, c.featurizer = some f → f.Sound) ∧ c.Complete := by
  obtain ⟨-, m, hm, -, hf, hl⟩ := h
  have key : ∀ f, c.featurizer = some f → ∃ n, m.featurizer = some n ∧ FeaturizerAt env fns o r fs (joinPath dir n) f := by
    intro f hcf
    rcases hf with ⟨-, hn⟩ | ⟨n, a, hn, ha, hfa⟩
    · rw [hcf] at hn; cases hn
    · rw [hcf] at ha; cases ha
      exact ⟨n, hn, hfa⟩
  constructor
  · intro f hcf
    obtain ⟨n, hn, hfa⟩ := key f hcf
    exact featurizer_valid hfa (hv m hm n hn).1
  · intro f l hcf hcl top htop
    obtain ⟨n, hn, hfa⟩ := key f hcf
    obtain ⟨v1, v2⟩ := hv m hm n hn
    rcases hl with ⟨-, hln⟩ | ⟨intercept, coeffs, l', -, hco, hl', ⟨first, hfirst, hnb⟩, -⟩
    · rw [hcl] at hln; cases hln
    · rw [hcl] at hl'
      cases hl'
      obtain ⟨fm, hfm, ⟨tm, htm, -, t1, -⟩, hc⟩ := hfa
      rw [t1] at htop
      obtain ⟨w1, w2⟩ := v2 coeffs first hco hfirst fm hfm tm htm top htop
      rw [hnb]
      rcases hc with ⟨hnn, hn'⟩ | ⟨n', a, hn', ha, cm, hcm, -, c1, -⟩
      · rw [hn']; exact w1 hnn
      · rw [ha]
        simp only
        rw [w2 n' hn' cm hcm, c1,
          (invertPairs_perm o cm.wordPairs (((v1 fm hfm).2 n' hn' cm hcm).distinct)).length_eq, List.length_map]

theorem slotFiller_valid {fns : TextFns} {r : Resources} {f : SlotFiller} (hs : env.Sensible)
    (h : SlotFillerAt env fns r fs dir f) (hv : SlotFillerFiles env dataset fs dir) :
    (TokenizerOk f.fns ∧ ∀ t, f.tagger = some t → t.Sound) ∧ f.Complete dataset env.names env.codec := by
  obtain ⟨-, m, hm, ⟨lang, hl⟩, e1, -, ht⟩ := h
  have key : ∀ t, f.tagger = some t → ∀ features, ∃ encoded, t.tag features = .ok encoded ∧
      encoded.length ≤ features.length ∧ ∀ x ∈ encoded, ∃ tag, env.codec.decode x = .ok tag ∧
        (tag = "O".toList ∨ ∃ entity, f.mapping.get (tag.drop 2) = some entity ∧ Resolvable dataset env.names entity) := by
    intro t hft
    rcases ht with ⟨-, hn, -⟩ | ⟨name, t', os, hname, hfile, ht', -⟩
    · rw [hft] at hn; cases hn
    · rw [hft] at ht'
      cases ht'
      rw [e1]
      exact hv m hm name hname t hfile
  refine ⟨⟨hs.tokenizers _ _ _ hl, fun t hft => ⟨?_, ?_⟩⟩, fun t hft features => ⟨?_, ?_⟩⟩
  · intro features hp
    obtain ⟨x, hx, -⟩ := key t hft features
    rw [hx] at hp; cases hp
  · intro features tags htags
    obtain ⟨x, hx, hlen, -⟩ := key t hft features
    rw [hx] at htags; cases htags
    exact hlen
  · intro e he
    obtain ⟨x, hx, -⟩ := key t hft features
    rw [hx] at he; cases he
  · intro encoded he
    obtain ⟨x, hx, -, hd⟩ := key t hft features
    rw [hx] at he; cases he
    exact hd

theorem last_entry {α : Type} (k : Text) : ∀ (l : List (Text × α)), (∃ e ∈ l, e.1 = k) →
    ∃ before a after, l = before ++ (k, a) :: after ∧ ∀ e ∈ after, e.1 ≠ k
  | [], ⟨e, he, _⟩ => by cases he
  | x :: l, h => by
    by_cases hl : ∃ e ∈ l, e.1 = k
    · obtain ⟨b, a, c, hlc, hc⟩ := last_entry k l hl
      exact ⟨x :: b, a, c, by rw [hlc]; rfl, hc⟩
    · obtain ⟨e, he, hek⟩ := h
      rcases List.mem_cons.1 he with rfl | he
      · obtain ⟨k', a⟩ := e
        simp only at hek
        subst hek
        exact ⟨[], a, l, rfl, fun e he hk => hl ⟨e, he, hk⟩⟩
      · exact absurd ⟨e, he, hek⟩ hl

theorem prob_valid {fns : TextFns} {o : HashOrd} {r : Resources} {p : Prob} (hs : env.Sensible)
    (h : ProbAt env fns o r fs dir p)
    (hv : ∀ m, FileHas fs (dir ++ ["intent_parser.json".toList]) env.probabilistic m →
      ClassifierFiles env fs (dir ++ ["intent_classifier".toList]) ∧
      (∀ e ∈ m, SlotFillerFiles env dataset fs (joinPath dir e.2)) ∧
      ∀ c, FileHas fs (dir ++ ["intent_classifier".toList] ++ ["intent_classifier.json".toList]) env.classifier c →
        ∀ intent, some intent ∈ c.intentList → ∃ e ∈ m, e.1 = intent) :
    (∀ f, p.classifier.featurizer = some f → f.Sound) ∧ p.classifier.Complete ∧
    (∀ intent, some intent ∈ p.classifier.intentList → ∃ filler, p.slotFillers.get intent = some filler) ∧
    ∀ intent filler, p.slotFillers.get intent = some filler →
      (TokenizerOk filler.fns ∧ ∀ t, filler.tagger = some t → t.Sound) ∧ filler.Complete dataset env.names env.codec := by
  obtain ⟨m, hm, hc, -, hf⟩ := h
  obtain ⟨v1, v2, v3⟩ := hv m hm
  obtain ⟨c1, c2⟩ := classifier_valid hc v1
  refine ⟨c1, c2, ?_, ?_⟩
  · intro intent hi
    obtain ⟨-, cm, hcm, hil, -⟩ := hc
    rw [hil] at hi
    obtain ⟨b, a, c, hmc, hca⟩ := last_entry intent m (v3 cm hcm intent hi)
    obtain ⟨f, hg, -⟩ := (hf intent).2 b a c hmc hca
    exact ⟨f, hg⟩
  · intro intent filler hg
    by_cases hi : ∃ e ∈ m, e.1 = intent
    · obtain ⟨b, a, c, hmc, hca⟩ := last_entry intent m hi
      obtain ⟨f, hg', hfa⟩ := (hf intent).2 b a c hmc hca
      rw [hg] at hg'
      cases hg'
      exact slotFiller_valid hs hfa (v2 (intent, a) (by rw [hmc]; simp))
    · rw [(hf intent).1 (fun e he hk => hi ⟨e, he, hk⟩)] at hg
      cases hg

theorem parser_valid {fns : TextFns} {o : HashOrd} {r : Resources} {p : ParserModel} (hs : env.Sensible)
    (h : ParserAt env fns o r fs dir p) (hv : ParserFiles env dataset fs dir) :
    p.Sound ∧ p.Complete dataset env.names ∧ (env.debugAssertions = false → p.Release) := by
  cases p with
  | lookup penv p =>
    obtain ⟨hu, h⟩ := h
    obtain ⟨h1, h2⟩ := lookup_valid hs h (hv.lookup hu)
    exact ⟨h1, h2, fun hd => h.assertions.trans hd⟩
  | deterministic penv p =>
    obtain ⟨hu, h⟩ := h
    obtain ⟨h1, h2⟩ := det_valid hs h (hv.deterministic hu)
    exact ⟨h1, h2, fun hd => h.assertions.trans hd⟩
  | probabilistic penv p =>
    obtain ⟨hu, h, rfl⟩ := h
    obtain ⟨h1, h2, h3, h4⟩ := prob_valid hs h (hv.probabilistic hu)
    exact ⟨⟨hs.tags, h1, fun i f hg => (h4 i f hg).1⟩, ⟨h2, h3, fun i f hg => (h4 i f hg).2⟩, fun hd => hd⟩

/-! ### Extraction -/

theorem remapEntity_identifier {shifts : List Int} {e e' : CustomEntity} (h : remapEntity shifts e = .ok e') :
    e'.identifier = e.identifier := by
  unfold remapEntity at h
  split at h
  · split at h
    · cases h; rfl
    · cases h
  · cases h

theorem remapEntity_noErr {shifts : List Int} {e : CustomEntity} (err : Err) : remapEntity shifts e ≠ .err err := by
  unfold remapEntity
  split
  · split <;> simp
  · simp

theorem mapOutcome_noErr {α β : Type} {f : α → Outcome β} : ∀ {l : List α}, (∀ a ∈ l, ∀ e, f a ≠ .err e) →
    ∀ e, mapOutcome f l ≠ .err e
  | [], _, e, h => by simp [mapOutcome] at h
  | a :: l, hf, e, h => by
    unfold mapOutcome at h
    cases ha : f a with
    | err e' => exact hf a (List.mem_cons_self ..) e' ha
    | panic => rw [ha] at h; cases h
    | ok b =>
      rw [ha] at h
      simp only at h
      cases hl : mapOutcome f l with
      | err e' => exact mapOutcome_noErr (fun a ha => hf a (List.mem_cons_of_mem _ ha)) e' hl
      | panic => rw [hl] at h; cases h
      | ok bs => rw [hl] at h; cases h

theorem ext_valid {fns : TextFns} {bd cd : Path} {x : Ext} (hs : env.Sensible) (h : ExtAt env fns fs bd cd x) :
    x.TimeStable ∧ x.Sound ∧ ∀ time, (x.world time).NoPanic ∧ (x.world time).NoError ∧ (x.world time).Scoped := by
  obtain ⟨m, name, fns', -, hl, htok, hg⟩ := h.custom
  have hb := hs.builtin _ _ h.builtin
  have hgz := hs.custom _ _ hg
  have hx : x.Sound := by
    refine ⟨fun t => htok ▸ (hs.tokenizers _ _ _ hl t).1, fun time s kinds n hp => ?_, fun s kinds n hp => ?_,
      fun s kinds n es he e hem => ?_⟩
    · obtain ⟨es, he, -⟩ := hb time s kinds n
      rw [he] at hp; cases hp
    · obtain ⟨es, he, -⟩ := hgz s kinds n
      rw [he] at hp; cases hp
    · obtain ⟨es', he', hi⟩ := hgz s kinds n
      rw [he'] at he; cases he
      exact ⟨(hi e hem).1, (hi e hem).2.1⟩
  refine ⟨?_, hx, fun time => ⟨⟨fun s kinds n => hx.builtin _ _ _ _, fun s kinds n => c58_extraction x hx _ _ _⟩, ⟨?_, ?_⟩, ?_⟩⟩
  · intro t t' s kinds n
    obtain ⟨es, he, hsame⟩ := hb t s kinds n
    obtain ⟨es', he', -⟩ := hb t' s kinds n
    rw [he, he']
    simp only [Outcome.map, Outcome.ok.injEq]
    exact (hsame t' es' he').symm
  · intro s kinds n e he
    obtain ⟨es, he', -⟩ := hb time (x.lower s) kinds n
    have : x.builtinRaw time (x.lower s) kinds n = .err e := he
    rw [he'] at this; cases this
  · intro s kinds n e he
    have he : x.customExtract (x.lower s) kinds n = .err e := he
    unfold Ext.customExtract at he
    simp only at he
    obtain ⟨es, hes, -⟩ := hgz (joinWith [' '] ((x.tokenize (x.lower s)).map Token.value)) kinds n
    rw [hes] at he
    simp only at he
    exact mapOutcome_noErr (fun a _ e => remapEntity_noErr e) e he
  · intro s asked n es he e hem
    have he : x.customExtract (x.lower s) (some asked) n = .ok es := he
    unfold Ext.customExtract at he
    simp only at he
    obtain ⟨es', hes, hi⟩ := hgz (joinWith [' '] ((x.tokenize (x.lower s)).map Token.value)) (some asked) n
    rw [hes] at he
    obtain ⟨a, ha, hr⟩ := mapOutcome_source he e hem
    rw [remapEntity_identifier hr]
    exact (hi a ha).2.2 asked rfl

end Snips
