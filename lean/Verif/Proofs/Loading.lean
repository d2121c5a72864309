import Verif.Spec.Loading
import Verif.Proofs.Map
import Verif.Proofs.Decode

/-! Lemmas on loading. -/

namespace Snips

theorem LoadEnv.reads_decode {α : Type} (env : LoadEnv) {d : Json → Outcome α} {P : Json → α → Prop} (h : Reads d P) :
    Reads (env.decode d) fun bytes a => ∃ j, env.json bytes = some j ∧ P j a where
  sound bytes a ha := by
    unfold LoadEnv.decode at ha
    cases hj : env.json bytes with
    | none => rw [hj] at ha; exact absurd ha jsonError_ne_ok
    | some j => rw [hj] at ha; exact ⟨j, rfl, h.sound _ _ ha⟩
  complete bytes a ha := by
    obtain ⟨j, hj, ha⟩ := ha
    unfold LoadEnv.decode
    rw [hj]
    exact h.complete _ _ ha
  safe bytes := by
    unfold LoadEnv.decode
    split
    · exact h.safe _
    · exact jsonError_ne_panic

namespace Load

theorem bind_def {α β : Type} (m : Load α) (f : α → Load β) : (m >>= f) = bind m f := rfl

theorem pure_def {α : Type} (a : α) : (Pure.pure a : Load α) = pure a := rfl

theorem bind_ok_iff {α β : Type} {m : Load α} {f : α → Load β} {fs : Fs} {b : β} :
    ((m >>= f) fs).1 = .ok b ↔ ∃ a, (m fs).1 = .ok a ∧ (f a fs).1 = .ok b := by
  rw [bind_def]
  unfold bind
  rcases h : m fs with ⟨r, t⟩
  cases r <;> simp

theorem pure_ok_iff {α : Type} {a b : α} {fs : Fs} : ((Pure.pure a : Load α) fs).1 = .ok b ↔ a = b := by
  rw [pure_def]; simp [pure]

theorem lift_ok_iff {α : Type} {o : Outcome α} {b : α} {fs : Fs} : ((lift o) fs).1 = .ok b ↔ o = .ok b := by
  simp [lift]

theorem file_ok_iff {α : Type} {p : Path} {d : List Nat → Outcome α} {fs : Fs} {a : α} :
    ((file p d) fs).1 = .ok a ↔ ∃ bytes, FileAt fs p bytes ∧ d bytes = .ok a := by
  unfold file FileAt
  split
  · next b h => simp [h]
  · next h =>
    constructor
    · intro h'; cases h'
    · rintro ⟨b, hb, _⟩; exact absurd hb (h b)

theorem mapM_ok {α β : Type} {f : α → Load β} {fs : Fs} :
    ∀ {l : List α} {bs : List β}, ((mapM f l) fs).1 = .ok bs →
      List.Forall₂ (fun a b => ((f a) fs).1 = .ok b) l bs
  | [], bs, h => by
    rw [show mapM f [] = Pure.pure [] from rfl, pure_ok_iff] at h
    subst h; exact .nil
  | a :: l, bs, h => by
    rw [mapM, bind_ok_iff] at h
    obtain ⟨b, hb, h⟩ := h
    rw [bind_ok_iff] at h
    obtain ⟨bs', hbs, h⟩ := h
    have := pure_ok_iff.1 h
    subst this
    exact .cons hb (mapM_ok hbs)

/-- The paths read by a bind are those of the first computation and, if it succeeds, of the second. -/
theorem mem_trace_bind {α β : Type} {m : Load α} {f : α → Load β} {fs : Fs} {p : Path}
    (h : p ∈ ((m >>= f) fs).2) : p ∈ (m fs).2 ∨ ∃ a, (m fs).1 = .ok a ∧ p ∈ (f a fs).2 := by
  rw [bind_def] at h
  unfold bind at h
  rcases hm : m fs with ⟨r, t⟩
  rw [hm] at h
  cases r with
  | ok a => simp only [List.mem_append] at h; rcases h with h | h
            · exact .inl h
            · exact .inr ⟨a, rfl, h⟩
  | err e => exact .inl h
  | panic => exact .inl h

theorem bind_err {α β : Type} {m : Load α} {f : α → Load β} {fs : Fs} {e : Err} {t : List Path}
    (h : m fs = (.err e, t)) : (m >>= f) fs = (.err e, t) := by
  rw [bind_def]; unfold bind; rw [h]

theorem bind_ok {α β : Type} {m : Load α} {f : α → Load β} {fs : Fs} {a : α} {t : List Path}
    (h : m fs = (.ok a, t)) : (m >>= f) fs = ((f a fs).1, t ++ (f a fs).2) := by
  rw [bind_def]; unfold bind; rw [h]

theorem file_found {α : Type} {p : Path} {d : List Nat → Outcome α} {fs : Fs} {bytes : List Nat}
    (h : FileAt fs p bytes) : file p d fs = (d bytes, [p]) := by
  unfold file; rw [show fs (resolve p) = _ from h]

end Load

open Load

theorem checkModelVersion_ok {env : LoadEnv} {p : Path} {fs : Fs} {u : Unit}
    (h : ((checkModelVersion env p) fs).1 = .ok u) :
    ∃ bytes, FileAt fs p bytes ∧ env.version bytes = .ok modelVersion := by
  rw [checkModelVersion, bind_ok_iff] at h
  obtain ⟨v, hv, h⟩ := h
  obtain ⟨bytes, hb, hd⟩ := file_ok_iff.1 hv
  by_cases hc : v = modelVersion
  · exact ⟨bytes, hb, hc ▸ hd⟩
  · rw [if_pos hc, lift_ok_iff] at h; cases h

theorem get_foldl_insert_mem {κ β : Type} [DecidableEq κ] (l : List (κ × β)) (acc : Map κ β) (k : κ) (b : β)
    (h : (l.foldl (fun acc nf => acc.insert nf.1 nf.2) acc).get k = some b) :
    (∃ k', (k', b) ∈ l) ∨ acc.get k = some b := by
  induction l generalizing acc with
  | nil => exact .inr h
  | cons x l ih =>
    rcases ih _ h with ⟨k', hk⟩ | h
    · exact .inl ⟨k', List.mem_cons_of_mem _ hk⟩
    · by_cases hk : k = x.1
      · subst hk
        rw [Map.get_insert, if_pos rfl] at h
        cases h
        exact .inl ⟨x.1, List.mem_cons_self⟩
      · rw [Map.get_insert, if_neg hk] at h
        exact .inr h

theorem forall₂_mem_right {α β : Type} {R : α → β → Prop} {l : List α} {bs : List β}
    (h : List.Forall₂ R l bs) {b : β} (hb : b ∈ bs) : ∃ a ∈ l, R a b := by
  induction h with
  | nil => cases hb
  | cons hr _ ih =>
    rcases List.mem_cons.1 hb with rfl | hb
    · exact ⟨_, List.mem_cons_self, hr⟩
    · obtain ⟨a, ha, hr⟩ := ih hb
      exact ⟨a, List.mem_cons_of_mem _ ha, hr⟩

theorem buildIntentClassifier_ok {env : LoadEnv} {fns : TextFns} {o : HashOrd} {r : Resources} {path : Path}
    {fs : Fs} {c : Classifier} (h : ((buildIntentClassifier env fns o r path) fs).1 = .ok c) :
    UnitAt env fs path .logRegIntentClassifier := by
  rw [buildIntentClassifier, bind_ok_iff] at h
  obtain ⟨k, hk, h⟩ := h
  cases k with
  | logRegIntentClassifier => exact file_ok_iff.1 hk
  | _ => cases (lift_ok_iff.1 h)

theorem buildSlotFiller_ok {env : LoadEnv} {fns : TextFns} {r : Resources} {path : Path}
    {fs : Fs} {c : SlotFiller} (h : ((buildSlotFiller env fns r path) fs).1 = .ok c) :
    UnitAt env fs path .crfSlotFiller := by
  rw [buildSlotFiller, bind_ok_iff] at h
  obtain ⟨k, hk, h⟩ := h
  cases k with
  | crfSlotFiller => exact file_ok_iff.1 hk
  | _ => cases (lift_ok_iff.1 h)

theorem buildSlotFiller_language {env : LoadEnv} {fns : TextFns} {r : Resources} {path : Path}
    {fs : Fs} {f : SlotFiller} (h : ((buildSlotFiller env fns r path) fs).1 = .ok f) :
    ∃ code name, env.language code = .ok (name, f.fns) := by
  rw [buildSlotFiller, bind_ok_iff] at h
  obtain ⟨k, _, h⟩ := h
  cases k with
  | crfSlotFiller =>
    simp only at h
    rw [loadCrfSlotFiller, bind_ok_iff] at h
    obtain ⟨m, _, h⟩ := h
    rw [bind_ok_iff] at h
    obtain ⟨_, _, h⟩ := h
    rw [bind_ok_iff] at h
    obtain ⟨_, _, h⟩ := h
    rw [bind_ok_iff] at h
    obtain ⟨lang, hl, h⟩ := h
    have := pure_ok_iff.1 h
    subst this
    exact ⟨_, _, lift_ok_iff.1 hl⟩
  | _ => cases (lift_ok_iff.1 h)

theorem loadIntentParser_ok {env : LoadEnv} {fns : TextFns} {o : HashOrd} {r : Resources} {dir : Path}
    {name : Text} {fs : Fs} {p : ParserModel} (h : ((loadIntentParser env fns o r dir name) fs).1 = .ok p) :
    AnnouncedBy env fs (joinPath dir name) p ∧ p.Constructed ∧
      ((∀ code name fns, env.language code = .ok (name, fns) → TokenizerOk fns) → p.TokenizerOk) := by
  rw [loadIntentParser, Load.bind_ok_iff] at h
  obtain ⟨k, hk, h⟩ := h
  have hu := file_ok_iff.1 hk
  cases k with
  | crfSlotFiller => cases (lift_ok_iff (fs := fs).1 h)
  | logRegIntentClassifier => cases (lift_ok_iff (fs := fs).1 h)
  | lookupIntentParser =>
    simp only [buildIntentParser] at h
    rw [Load.bind_ok_iff] at h
    obtain ⟨m, _, h⟩ := h
    rw [lift_ok_iff, Lookup.new, Outcome.bind_ok_iff'] at h
    obtain ⟨l, _, h⟩ := h
    cases h
    exact ⟨hu, trivial, fun _ => trivial⟩
  | deterministicIntentParser =>
    simp only [buildIntentParser] at h
    rw [Load.bind_ok_iff] at h
    obtain ⟨m, hm, h⟩ := h
    obtain ⟨bytes, _, hm⟩ := file_ok_iff.1 hm
    obtain ⟨j, _, hm⟩ := (env.reads_decode reads_deterministic).sound _ _ hm
    obtain ⟨_, _, _, _, _, _, hdistinct, _⟩ := hm.slotNamesToEntities
    rw [lift_ok_iff, Det.new, Outcome.bind_ok_iff'] at h
    obtain ⟨l, _, h⟩ := h
    rw [Outcome.bind_ok_iff'] at h
    obtain ⟨_, _, h⟩ := h
    cases h
    exact ⟨hu, ⟨rfl, hdistinct⟩, fun _ => trivial⟩
  | probabilisticIntentParser =>
    simp only [buildIntentParser] at h
    rw [loadProbabilistic, Load.bind_ok_iff] at h
    obtain ⟨m, _, h⟩ := h
    rw [Load.bind_ok_iff] at h
    obtain ⟨c, hc, h⟩ := h
    rw [Load.bind_ok_iff] at h
    obtain ⟨fl, hfl, h⟩ := h
    have := pure_ok_iff.1 h
    subst this
    have hfill : ∀ intent f, Map.get (fl.foldl (fun acc nf => Map.insert acc nf.1 nf.2) []) intent = some f →
        ∃ filler, (buildSlotFiller env fns r (joinPath (joinPath dir name) filler) fs).1 = .ok f := by
      intro intent f hf
      rcases get_foldl_insert_mem _ _ _ _ hf with ⟨k', hk'⟩ | hf
      · obtain ⟨nf, _, hnf⟩ := forall₂_mem_right (mapM_ok hfl) hk'
        rw [Load.bind_ok_iff] at hnf
        obtain ⟨f', hf', e⟩ := hnf
        have := pure_ok_iff.1 e
        cases this
        exact ⟨nf.2, hf'⟩
      · cases hf
    refine ⟨⟨hu, buildIntentClassifier_ok hc, fun intent f hf => ?_⟩, trivial, fun ht intent f hf => ?_⟩
    · obtain ⟨name, h⟩ := hfill intent f hf
      exact ⟨name, buildSlotFiller_ok h⟩
    · obtain ⟨name, h⟩ := hfill intent f hf
      obtain ⟨code, lang, hl⟩ := buildSlotFiller_language h
      exact ht _ _ _ hl

theorem loadEngine_ok {env : LoadEnv} {o : HashOrd} {dir : Path} {fs : Fs} {e : LoadedEngine}
    (h : ((loadEngine env o dir) fs).1 = .ok e) :
    ∃ m : EngineJson, ∃ res : TextFns × Resources × Ext,
      (∃ bytes, FileAt fs (dir ++ ["nlu_engine.json".toList]) bytes ∧ env.version bytes = .ok modelVersion ∧
        env.engine bytes = .ok m) ∧
      ((loadResourcesOf env o dir m) fs).1 = .ok res ∧
      List.Forall₂ (fun name p => ((loadIntentParser env res.1 o res.2.1 dir name) fs).1 = .ok p)
        m.intentParsers e.parsers ∧
      e.dataset = m.dataset ∧ e.ext = res.2.2 := by
  rw [loadEngine, Load.bind_ok_iff] at h
  obtain ⟨m, hm, h⟩ := h
  rw [Load.bind_ok_iff] at h
  obtain ⟨res, hres, h⟩ := h
  rw [Load.bind_ok_iff] at h
  obtain ⟨ps, hps, h⟩ := h
  have := pure_ok_iff.1 h
  subst this
  rw [loadModel, Load.bind_ok_iff] at hm
  obtain ⟨u, hu, hm⟩ := hm
  obtain ⟨b1, hb1, hv⟩ := checkModelVersion_ok hu
  obtain ⟨b2, hb2, he⟩ := file_ok_iff.1 hm
  have : b1 = b2 := by
    unfold FileAt at hb1 hb2
    rw [hb1] at hb2; cases hb2; rfl
  subst this
  exact ⟨m, res, ⟨b1, hb1, hv, he⟩, hres, mapM_ok hps, rfl, rfl⟩

theorem loadResourcesOf_ok {env : LoadEnv} {o : HashOrd} {dir : Path} {m : EngineJson} {fs : Fs}
    {res : TextFns × Resources × Ext} (h : ((loadResourcesOf env o dir m) fs).1 = .ok res) :
    ∃ name, env.language m.languageCode = .ok (name, res.1) := by
  rw [loadResourcesOf, Load.bind_ok_iff] at h
  obtain ⟨lang, hl, h⟩ := h
  rw [Load.bind_ok_iff] at h
  obtain ⟨r, _, h⟩ := h
  have := pure_ok_iff.1 h
  subst this
  exact ⟨lang.1, lift_ok_iff.1 hl⟩

end Snips
