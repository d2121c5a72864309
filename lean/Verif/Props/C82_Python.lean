import Verif.Proofs.Python
import Verif.Props.C80_ResultJson
import Verif.Props.C61_Loadable
import Verif.Props.C79_JsonText
import Verif.Props.C58_NoPanic
import Verif.Props.C68_SlotOrigin

/-! # C82 What a Python program is told is what the model files say -/

namespace Snips

open JsonGrammar Shown ResultJson

variable {κ : Type}

theorem describes_of_loads {env : CEnv κ} {m : PyMade} {e : LoadedEngine} (hp : m.Plain) (h : m.loads env e) :
    m.Describes env e := by
  obtain ⟨a, dir, bytes, c, d⟩ := m
  unfold PyMade.loads at h
  unfold PyMade.Describes
  cases dir with
  | some dir =>
    simp only at h ⊢
    rw [(c71_source env c d).1 dir (hp.1 dir rfl)] at h
    exact c60_engine _ _ _ _ _ h
  | none =>
    cases bytes with
    | some b =>
      simp only at h ⊢
      rw [(c71_source env c d).2 b (hp.2 b rfl)] at h
      exact h
    | none => exact h

/-- **C82**: in a program which has made an engine from a directory, the questions to this engine, whatever happened in
between, are answered by an engine that the files of the directory describe; the same for archives. -/
theorem c82_answers {env : CEnv κ} (hu : env.utf8 = utf8OrErr) (w : Writing) (meaning : Nat → OValue)
    (msg : Err → List Nat) {s0 s : HMem κ} {l : List PyMade}
    (h : PyHistory (env.withJson (numbers w) w.widen meaning) msg s0 s l) (m : PyMade) (hm : m ∈ l) (hp : m.Plain) :
    ∃ e, m.Describes env e ∧ (e.ext.TimeStable → e.ext.NoPanic →
      PyTells w meaning (env.withJson (numbers w) w.widen meaning) msg s m.address e) := by
  have hu' : (env.withJson (numbers w) w.widen meaning).utf8 = utf8OrErr := hu
  have ht := (c71_invariant hu' (pyHistory_run hu' h)).1
  obtain ⟨e, hd, h1, h2, h3, h4⟩ := pyHistory_engines hu' h m hm
  refine ⟨e, describes_of_loads (env := env) hp h1, fun hts hnp => ?_⟩
  have hans : ∀ (c : CCirc) {α : Type} (p : Engine → Prog α),
      hd.answer c (p hd.engine) = e.answers env.load.names c.time p := by
    intro c α p
    have hg := pyHistory_good h m.address hd h2.2.1
    rw [← h4] at hts hnp
    obtain ⟨g1, g2⟩ := hg hts hnp
    unfold LoadedEngine.answers
    rw [← h4]
    exact ((runCached_spec hts hnp c.time (p hd.engine) hd.caches g1 g2).1).trans (by rw [h3]; rfl)
  refine ⟨?_, ?_, ?_⟩
  · intro c text wl bl ni ns htext hw hb hni hns a ha hr
    have hx := hans c (·.parseWithAlternatives c.order text wl bl ni ns)
    obtain ⟨k1, k2⟩ := c80_parse hu w meaning msg c ht h2 htext hw hb hni hns (hx.trans ha) hr
    refine ⟨k1, k2, fun hpan => ?_⟩
    rw [c71_parse hu' msg c ht h2 htext hw hb hni hns, hx.trans ha, hpan]
    rfl
  · intro c text intent ns htext hi hns a ha hr
    have hx := hans c (·.getSlotsWithAlternatives c.order text intent ns)
    obtain ⟨k1, k2⟩ := c80_getSlots hu w meaning msg c ht h2 htext hi hns (hx.trans ha) hr
    refine ⟨k1, k2, fun hpan => ?_⟩
    rw [c71_getSlots hu' msg c ht h2 htext hi hns, hx.trans ha, hpan]
    rfl
  · intro c text htext a ha hr
    have hx := hans c (·.getIntents c.order text)
    obtain ⟨k1, k2⟩ := c80_getIntents hu w meaning msg c ht h2 htext (hx.trans ha) hr
    refine ⟨k1, k2, fun hpan => ?_⟩
    rw [c71_getIntents hu' msg c ht h2 htext, hx.trans ha, hpan]
    rfl

/-- **C82**: the engine file of the directory is a JSON text of RFC 8259 that describes the dataset and the parsers, and the
engine that answers has this dataset. -/
theorem c82_file (env : LoadEnv) (num : JsonNumbers) (hj : env.json = JsonText.read num) (o : HashOrd) (fs : Fs)
    (dir : Path) (e : LoadedEngine) (h : EngineAt env o fs dir e) :
    ∃ t j m, FileAt fs (dir ++ ["nlu_engine.json".toList]) (encodeUtf8 t) ∧ Document num.f64 127 t j ∧
      EngineDoc j m ∧ e.dataset = m.dataset ∧ e.parsers.length = m.intentParsers.length := by
  obtain ⟨-, m, name, fns, r, ⟨b, hb, hm⟩, -, -, -, hd, hp⟩ := h
  obtain ⟨t, j, rfl, h2, h3⟩ := (c79_file env num hj reads_engine b).1 m hm
  exact ⟨t, j, m, hb, h2, h3, hd, hp.length_eq.symm⟩

/-- **C82**: a program can make an engine from a directory exactly if the files of the directory describe one. -/
theorem c82_can_make {env : CEnv κ} (hu : env.utf8 = utf8OrErr) (msg : Err → List Nat) (c : CCirc) {s : HMem κ}
    (ht : s.Tidy) (dir : Text) (hdir : '\x00' ∉ dir) (bytes : Option (List Nat)) :
    (∃ p, (pyInit env msg c (some dir) bytes s).1 = .ok p) ↔
      ∃ e, EngineAt env.load c.order s.c.disk.fs (joinPath env.cwd dir) e := by
  rw [← c61_loads_iff, ← (c71_source env c s.c.disk).1 dir hdir]
  have hk := c71_init hu msg c ht (dir := some dir) (bytes := bytes) (src := .inl dir) (.inl ⟨dir, rfl, rfl⟩)
  cases ho : loadSource env c (.inl dir) s.c.disk with
  | ok e =>
    rw [ho] at hk
    obtain ⟨p, s', h1, -⟩ := hk
    rw [h1]
    simp
  | err e =>
    rw [ho] at hk
    obtain ⟨s', h1, -⟩ := hk
    rw [h1]
    simp
  | panic =>
    rw [ho] at hk
    simp only at hk
    rw [hk]
    simp

/-! ### A program that makes an engine -/

def demoMade : PyMade := ⟨1, some ['/', 'm'], none, demoCirc, demoHMem.c.disk⟩

theorem demoHistory : PyHistory (demoHEnv.withJson exactNumbers id demoTwo) demoMsg demoHMem demoHMem1 [demoMade] :=
  .init (.start demoHMem_tidy (fun _ => rfl) (fun _ => rfl)) demoCirc _ _ (Prod.ext (by decide +kernel) rfl)

example : demoMade.Plain := ⟨by simp [demoMade], by simp [demoMade]⟩

/-- Engines loaded with the libraries of the example satisfy the hypotheses of `c82_answers`. -/
example (e : LoadedEngine) (h : demoMade.Describes (demoHEnv.withJson exactNumbers id demoTwo) e) :
    e.ext.TimeStable ∧ e.ext.NoPanic := by
  obtain ⟨-, m, name, fns, r, -, -, -, ⟨-, hb, m', name', fns', -, hl, ht, hg⟩, -⟩ := h
  have hb' : e.ext.builtinRaw = demoExt.builtinRaw := (Outcome.ok.inj hb).symm
  have hg' : e.ext.gazetteer = demoExt.gazetteer := (Outcome.ok.inj hg).symm
  have ht' : e.ext.tokenize = ruleFns.tokenize := by
    rw [ht]
    have hl' : (if m'.language = "en".toList then Outcome.ok ("en".toList, demoEnv.fns) else .err (.external 301)) =
      .ok (name', fns') := hl
    split at hl'
    · obtain rfl : demoEnv.fns = fns' := congrArg Prod.snd (Outcome.ok.inj hl')
      rfl
    · cases hl'
  refine ⟨fun t t' s kinds n => by rw [hb']; exact demoExt_timeStable t t' s kinds n,
    fun t s kinds n => by rw [hb']; exact demoExt_noPanic.1 t s kinds n, c58_extraction _ ⟨?_, ?_, ?_, ?_⟩⟩
  · intro t
    rw [ht']
    exact ruleFns_tokenized t
  · intro time s kinds n
    rw [hb']
    exact demoExt_noPanic.1 time s kinds n
  · intro s kinds n
    rw [hg']
    simp only [demoExt]
    split <;> simp
  · intro s kinds n es hes x hx
    rw [hg'] at hes
    simp only [demoExt] at hes
    split at hes
    · cases hes
      cases hx
    · next hs =>
      cases hes
      obtain rfl := List.mem_singleton.1 hx
      exact ⟨List.length_pos_of_ne_nil hs, le_refl _⟩

end Snips
