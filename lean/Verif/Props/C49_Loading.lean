import Verif.Proofs.Loading
import Verif.Spec.LoadingDemo

/-! # C49: only models of the supported version are loaded, each unit where its kind is expected -/

namespace Snips

open Load

/-- An engine is loaded only from a directory whose `nlu_engine.json` has exactly the version `0.20.0`. -/
theorem c49_version (env : LoadEnv) (o : HashOrd) (dir : Path) (fs : Fs) (e : LoadedEngine)
    (h : (loadEngine env o dir fs).1 = .ok e) :
    ∃ bytes, FileAt fs (dir ++ ["nlu_engine.json".toList]) bytes ∧ env.version bytes = .ok "0.20.0".toList := by
  obtain ⟨_, _, ⟨b, hb, hv, _⟩, _⟩ := loadEngine_ok h
  exact ⟨b, hb, hv⟩

/-- With another version the outcome is an error carrying the version found and the version expected, and
`nlu_engine.json` is the only file that was read. -/
theorem c49_wrong_version (env : LoadEnv) (o : HashOrd) (dir : Path) (fs : Fs) (bytes : List Nat) (v : Text)
    (hb : FileAt fs (dir ++ ["nlu_engine.json".toList]) bytes) (hv : env.version bytes = .ok v)
    (hne : v ≠ "0.20.0".toList) :
    loadEngine env o dir fs
      = (.err (.wrongModelVersion v "0.20.0".toList), [dir ++ ["nlu_engine.json".toList]]) := by
  have h1 : checkModelVersion env (dir ++ ["nlu_engine.json".toList]) fs
      = (.err (.wrongModelVersion v "0.20.0".toList), [dir ++ ["nlu_engine.json".toList]]) := by
    unfold checkModelVersion
    rw [bind_ok (by rw [file_found hb, hv]), if_pos (show v ≠ modelVersion from hne)]
    rfl
  unfold loadEngine
  refine bind_err ?_
  unfold loadModel
  exact bind_err h1

/-- A version that cannot be read, or a missing file, is an error too, and nothing else is read. -/
theorem c49_no_version (env : LoadEnv) (o : HashOrd) (dir : Path) (fs : Fs) (e : Err)
    (h : (∀ bytes, ¬ FileAt fs (dir ++ ["nlu_engine.json".toList]) bytes) ∨
      ∃ bytes, FileAt fs (dir ++ ["nlu_engine.json".toList]) bytes ∧ env.version bytes = .err e) :
    (∃ e', (loadEngine env o dir fs).1 = .err e') ∧
    (loadEngine env o dir fs).2 = [dir ++ ["nlu_engine.json".toList]] := by
  have h1 : ∃ e', file (dir ++ ["nlu_engine.json".toList]) env.version fs
      = (.err e', [dir ++ ["nlu_engine.json".toList]]) := by
    rcases h with h | ⟨b, hb, hv⟩
    · refine ⟨.external 210, ?_⟩
      unfold file
      split
      · next b hb => exact absurd hb (h b)
      · rfl
    · exact ⟨e, by rw [file_found hb, hv]⟩
  obtain ⟨e', h1⟩ := h1
  have h2 : loadEngine env o dir fs = (.err e', [dir ++ ["nlu_engine.json".toList]]) := by
    unfold loadEngine
    refine bind_err ?_
    unfold loadModel
    refine bind_err ?_
    unfold checkModelVersion
    exact bind_err h1
  rw [h2]
  exact ⟨⟨e', rfl⟩, rfl⟩

/-- The parsers of a loaded engine are, one for one and in the same order, those listed in
`nlu_engine.json`; each comes from a directory whose metadata announces its kind, and so do the components of
probabilistic parsers. -/
theorem c49_units (env : LoadEnv) (o : HashOrd) (dir : Path) (fs : Fs) (e : LoadedEngine)
    (h : (loadEngine env o dir fs).1 = .ok e) :
    ∃ bytes m, FileAt fs (dir ++ ["nlu_engine.json".toList]) bytes ∧ env.engine bytes = .ok m ∧
      List.Forall₂ (fun name p => AnnouncedBy env fs (joinPath dir name) p) m.intentParsers e.parsers := by
  obtain ⟨m, _, ⟨b, hb, _, hm⟩, _, hps, _⟩ := loadEngine_ok h
  exact ⟨b, m, hb, hm, hps.imp fun _ _ h => (loadIntentParser_ok h).1⟩

theorem UnitAt.unique {env : LoadEnv} {fs : Fs} {dir : Path} {k k' : UnitKind} (h : UnitAt env fs dir k)
    (h' : UnitAt env fs dir k') : k = k' := by
  obtain ⟨b, hb, hk⟩ := h
  obtain ⟨b', hb', hk'⟩ := h'
  unfold FileAt at hb hb'
  rw [hb] at hb'
  cases hb'
  rw [hk] at hk'
  cases hk'
  rfl

/-- A listed directory that announces a slot filler or a classifier makes the loading fail. -/
theorem c49_unexpected_parser (env : LoadEnv) (o : HashOrd) (dir : Path) (fs : Fs) (bytes : List Nat)
    (m : EngineJson) (hb : FileAt fs (dir ++ ["nlu_engine.json".toList]) bytes) (hm : env.engine bytes = .ok m)
    (name : Text) (hn : name ∈ m.intentParsers) (k : UnitKind) (hk : UnitAt env fs (joinPath dir name) k)
    (hbad : k = .crfSlotFiller ∨ k = .logRegIntentClassifier) (e : LoadedEngine) :
    (loadEngine env o dir fs).1 ≠ .ok e := by
  intro h
  obtain ⟨b, m', hb', hm', hps⟩ := c49_units env o dir fs e h
  unfold FileAt at hb hb'
  rw [hb] at hb'
  cases hb'
  rw [hm] at hm'
  cases hm'
  obtain ⟨p, _, hp⟩ : ∃ p ∈ e.parsers, AnnouncedBy env fs (joinPath dir name) p := by
    revert hn
    generalize m.intentParsers = names at hps
    generalize e.parsers = ps at hps
    induction hps with
    | nil => intro hn; cases hn
    | cons hr _ ih =>
      intro hn
      rcases List.mem_cons.1 hn with rfl | hn
      · exact ⟨_, List.mem_cons_self, hr⟩
      · obtain ⟨p, hp, hr⟩ := ih hn
        exact ⟨p, List.mem_cons_of_mem _ hp, hr⟩
  have : k = .lookupIntentParser ∨ k = .deterministicIntentParser ∨ k = .probabilisticIntentParser := by
    cases p with
    | lookup => exact .inl (hk.unique hp)
    | deterministic => exact .inr (.inl (hk.unique hp))
    | probabilistic => exact .inr (.inr (hk.unique hp.1))
  rcases hbad with rfl | rfl <;> simp at this

/-- A parser directory is only accepted with a classifier directory that announces a logistic regression and
slot fillers that announce a CRF, whatever is asked of them. -/
theorem c49_unexpected_component (env : LoadEnv) (fns : TextFns) (o : HashOrd) (r : Resources) (fs : Fs) (path : Path) :
    (∀ k, UnitAt env fs path k → k ≠ .logRegIntentClassifier →
      ∀ c, (buildIntentClassifier env fns o r path fs).1 ≠ .ok c) ∧
    (∀ k, UnitAt env fs path k → k ≠ .crfSlotFiller → ∀ f, (buildSlotFiller env fns r path fs).1 ≠ .ok f) :=
  ⟨fun _ hk hne _ h => hne (hk.unique (buildIntentClassifier_ok h)),
   fun _ hk hne _ h => hne (hk.unique (buildSlotFiller_ok h))⟩

/-- The parsers of a loaded engine have the tables their constructors compute. -/
theorem c49_constructed (env : LoadEnv) (o : HashOrd) (dir : Path) (fs : Fs) (e : LoadedEngine)
    (h : (loadEngine env o dir fs).1 = .ok e) : ∀ pm ∈ e.parsers, pm.Constructed := by
  obtain ⟨_, _, _, _, hps, _⟩ := loadEngine_ok h
  intro pm hpm
  obtain ⟨_, _, hp⟩ := forall₂_mem_right hps hpm
  exact (loadIntentParser_ok hp).2.1

/-- With sensible tokenizers for all languages, the parsers of a loaded engine have sensible tokenizers. -/
theorem loaded_tokenizers (env : LoadEnv) (o : HashOrd) (dir : Path) (fs : Fs) (e : LoadedEngine)
    (h : (loadEngine env o dir fs).1 = .ok e)
    (ht : ∀ code name fns, env.language code = .ok (name, fns) → TokenizerOk fns) :
    ∀ pm ∈ e.parsers, pm.TokenizerOk := by
  obtain ⟨_, _, _, _, hps, _⟩ := loadEngine_ok h
  intro pm hpm
  obtain ⟨_, _, hp⟩ := forall₂_mem_right hps hpm
  exact (loadIntentParser_ok hp).2.2 ht

/-! ### What this says of loaded engines -/

/-- C01 for an engine loaded from a directory.  Missing from the full statement: engines with a classifier
that is not fair (`c01_engine_counterexample`). -/
theorem c01_loaded_partial (env : LoadEnv) (o : HashOrd) (dir : Path) (fs : Fs) (e : LoadedEngine)
    (h : (loadEngine env o dir fs).1 = .ok e) (hf : ∀ pm ∈ e.parsers, pm.FairClassifier)
    (o' : HashOrd) (w : World) (input : Text) (whitelist blacklist : Option (List Text)) (ni ns : Nat)
    (res : ParseResult)
    (hr : ((e.engine env.names).parseWithAlternatives o' input whitelist blacklist ni ns).run w = .ok res) :
    (∀ i, res.intent.name = some i → Allowed whitelist blacklist i) ∧
    ∀ a ∈ res.alternatives, ∀ i, a.intent.name = some i → Allowed whitelist blacklist i :=
  c01_engine_partial e.dataset env.names e.parsers (c49_constructed env o dir fs e h) hf o' w input whitelist
    blacklist ni ns res hr

/-- C14 for an engine loaded from a directory: whatever its files contain. -/
theorem c14_loaded (env : LoadEnv) (o : HashOrd) (dir : Path) (fs : Fs) (e : LoadedEngine)
    (h : (loadEngine env o dir fs).1 = .ok e)
    (ht : ∀ code name fns, env.language code = .ok (name, fns) → TokenizerOk fns)
    (o' : HashOrd) (w : World) (input : Text) :
    (∀ whitelist blacklist ni ns res,
      ((e.engine env.names).parseWithAlternatives o' input whitelist blacklist ni ns).run w = .ok res →
      RawValuesAtRanges input res.slots ∧ ∀ a ∈ res.alternatives, RawValuesAtRanges input a.slots) ∧
    ∀ intent ns slots, ((e.engine env.names).getSlotsWithAlternatives o' input intent ns).run w = .ok slots →
      RawValuesAtRanges input slots :=
  c14_engine e.dataset env.names e.parsers (c49_constructed env o dir fs e h)
    (loaded_tokenizers env o dir fs e h ht) o' w input

/-- C15 for an engine loaded from a directory.  Missing from the full statement: taggers of BIO slot fillers
that answer with tags outside of the alphabet (`c27_bio_malformed_counterexample`). -/
theorem c15_loaded_partial (env : LoadEnv) (o : HashOrd) (dir : Path) (fs : Fs) (e : LoadedEngine)
    (h : (loadEngine env o dir fs).1 = .ok e)
    (ht : ∀ code name fns, env.language code = .ok (name, fns) → TokenizerOk fns)
    (hta : ∀ pm ∈ e.parsers, pm.InAlphabet) (o' : HashOrd) (w : World) (input : Text) :
    (∀ whitelist blacklist ni ns res,
      ((e.engine env.names).parseWithAlternatives o' input whitelist blacklist ni ns).run w = .ok res →
      DisjointInOrder res.slots ∧ ∀ a ∈ res.alternatives, DisjointInOrder a.slots) ∧
    ∀ intent ns slots, ((e.engine env.names).getSlotsWithAlternatives o' input intent ns).run w = .ok slots →
      DisjointInOrder slots :=
  c15_engine_partial e.dataset env.names e.parsers (c49_constructed env o dir fs e h)
    (loaded_tokenizers env o dir fs e h ht) hta o' w input

/-! ### Concrete cases -/

/-- The example is loaded, with its three parsers. -/
example : ((loadEngine demoLoadEnv HashOrd.insertion ["m".toList]) (demoEngineFs 1)).1.map
    (fun e => e.parsers.map fun p => match p with
      | .lookup _ _ => 0 | .deterministic _ _ => 1 | .probabilistic _ _ => 2) = .ok [0, 1, 2] := by
  decide +kernel

/-- The example with the version `0.19.0` is not. -/
example : FileAt (demoEngineFs 9) (["m".toList] ++ ["nlu_engine.json".toList]) [9] ∧
    demoLoadEnv.version [9] = .ok "0.19.0".toList := ⟨by unfold FileAt; decide +kernel, by decide⟩

/-- Languages as demanded by `c14_loaded`. -/
example : ∀ code name fns,
    ({ demoLoadEnv with language := fun _ => .ok ([], wholeTextFns) } : LoadEnv).language code = .ok (name, fns) →
    TokenizerOk fns := by
  intro _ _ _ h; cases h; exact wholeTextFns_ok

end Snips
