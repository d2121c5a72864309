import Verif.Spec.Injections
import Verif.Props.C90_InjectedEngine

/-! Helpers for C91. -/

namespace Snips

open Load

variable {π : Type} {env : InjectEnv π}

/-- What is known of the engine, as far as the values to inject depend on it. -/
def infoOf (d : EngineDesc) : EngineInfo := ⟨d.words, [], [], d.customEntities⟩

/-- What is known of the custom parser, as far as the values to inject depend on it. -/
def customOf (d : EngineDesc) : CustomInfo := ⟨⟨[], []⟩, d.usage⟩

/-- The values injected for an entity. -/
def valuesOf (env : InjectEnv π) (d : EngineDesc) (s : Option (Text → Text)) (entity : Text) (values : List Text) :
    Outcome (List EntityValue) :=
  injectedValues env (infoOf d) (customOf d) s entity values

theorem valuesOf_eq {d : EngineDesc} {info : EngineInfo} {builtin : Option GazetteerInfo} {custom : CustomInfo}
    (ha : Agrees d info builtin custom) (s : Option (Text → Text)) (entity : Text) (values : List Text) :
    injectedValues env info custom s entity values = valuesOf env d s entity values := by
  unfold valuesOf infoOf customOf injectedValues stemEntityValue
  rw [ha.entities, ha.words, ha.usage]

/-- The parsers of the requested entities are rewritten, and nothing else is. -/
structure Effect (env : InjectEnv π) (d : EngineDesc) (s : Option (Text → Text)) (i : Injector) (fs fs' : Fs) : Prop where
  new : ∀ ev ∈ i.entityValues, ∃ p out parser, ParserDir env d ev.1 p ∧ valuesOf env d s ev.1 ev.2 = .ok out ∧
    updatedParser env i.fromVanilla out p fs = .ok parser ∧ ∀ q, fs' (resolve p ++ q) = env.dump parser q
  keep : ∀ q, (∀ e ∈ i.entityValues.keys, ∀ p, ParserDir env d e p → ¬ resolve p <+: q) → fs' q = fs q

theorem mem_keys {values : Map Text (List Text)} {ev : Text × List Text} (h : ev ∈ values) : ev.1 ∈ values.keys :=
  List.mem_map.2 ⟨ev, h, rfl⟩

/-- Successful injections without interruption. -/
theorem inject_ok_iff {o : HashOrd} {i : Injector} {fs fs' : Fs} {d : EngineDesc} (hd : Describes env fs i.dir d)
    (hn : i.entityValues.keys.Nodup) (hsep : SeparateDirs env d i) :
    i.inject env o (fun _ => none) fs = (.ok (), fs') ↔ ∃ s, StemmerIs env o fs i s ∧ Effect env d s i fs fs' := by
  constructor
  · intro h
    rcases inject_prepared (env := env) (o := o) (interrupts := fun _ => none) (i := i) (fs := fs) with ⟨_, h'⟩ | h'
    · rw [h] at h'; exact absurd rfl h'
    obtain ⟨info, builtin, custom, s, dirs, values, hp, hrun⟩ := h'
    have ha := (infos_iff hp.hinfo hp.hbuiltin hp.hcustom d).1 hd
    obtain ⟨g1, g2⟩ := hp.dirs_get ha hn
    obtain ⟨v1, v2, v3⟩ := hp.values_spec
    obtain ⟨done, rest, e1, e2, e3, e4, -⟩ := injectAll_effect env (fun _ => none) i.fromVanilla dirs
      (separate_of hsep g2) (o.order 2 values) (v1.nodup_iff.2 hn) 0 fs
    rw [← hrun, h] at e2 e3 e4
    obtain rfl := e3 rfl
    rw [List.append_nil] at e1
    refine ⟨s, injectStemmer_ok.1 hp.hstemmer, fun ev hev => ?_, fun q hq => e4 q fun ev _ p hg => ?_⟩
    · obtain ⟨out, ho, hm⟩ := v2 ev hev
      obtain ⟨p, parser, hg, hu, hw⟩ := e2 _ (e1 ▸ hm)
      exact ⟨p, out, parser, (g2 _ _ hg).2, by rw [← valuesOf_eq ha]; exact ho, hu, hw⟩
    · exact hq _ (g2 _ _ hg).1 _ (g2 _ _ hg).2
  · rintro ⟨s, hs, hnew, hkeep⟩
    obtain ⟨info, builtin, custom, h1, h2, h3⟩ := describes_infos hd
    have ha := (infos_iff h1 h2 h3 d).1 hd
    obtain ⟨dirs, hdirs⟩ : ∃ dirs, getEntityParsersDirs env o info builtin custom i.entityValues = .ok dirs := by
      refine mapOutcome_all_ok fun e he => ?_
      obtain ⟨ev, hev, rfl⟩ := List.mem_map.1 ((o.perm 0 _).mem_iff.1 he)
      obtain ⟨p, _, _, hp, _⟩ := hnew ev hev
      exact ⟨(ev.1, p), by rw [(entityParserDir_ok_iff ha _ _).2 hp]; rfl⟩
    obtain ⟨values, hvalues⟩ : ∃ values, mapOutcome (fun ev : Text × List Text => do
        let vs ← injectedValues env info custom s ev.1 ev.2
        Outcome.ok (ev.1, vs)) (o.order 1 i.entityValues) = .ok values := by
      refine mapOutcome_all_ok fun ev he => ?_
      obtain ⟨_, out, _, _, ho, _⟩ := hnew ev ((o.perm 1 _).mem_iff.1 he)
      exact ⟨(ev.1, out), by rw [valuesOf_eq ha, ho]; rfl⟩
    have hp : Prepared env o fs i info builtin custom s dirs values :=
      ⟨h1, h2, h3, injectStemmer_ok.2 hs, hdirs, hvalues⟩
    have hrun : i.inject env o (fun _ => none) fs
        = injectAll env (fun _ => none) i.fromVanilla dirs (o.order 2 values) 0 fs := by
      unfold Injector.inject
      rw [prepareInjection_ok.2 ⟨info, builtin, custom, s, hp⟩]
    obtain ⟨g1, g2⟩ := hp.dirs_get ha hn
    obtain ⟨v1, v2, v3⟩ := hp.values_spec
    have hs' := separate_of hsep g2
    have hparser : ∀ eo ∈ o.order 2 values, ∃ p parser, dirs.get eo.1 = some p ∧
        updatedParser env i.fromVanilla eo.2 p fs = .ok parser ∧ ∀ q, fs' (resolve p ++ q) = env.dump parser q := by
      intro eo heo
      obtain ⟨vs, hm, hv⟩ := v3 eo heo
      obtain ⟨p, out, parser, hpd, ho, hu, hw⟩ := hnew _ hm
      rw [valuesOf_eq ha, ho] at hv
      cases hv
      obtain ⟨p', hg⟩ := g1 eo.1 (mem_keys hm)
      obtain rfl := parserDir_unique (g2 _ _ hg).2 hpd
      exact ⟨p', parser, hg, hu, hw⟩
    have hok : (i.inject env o (fun _ => none) fs).1 = .ok () := by
      rw [hrun]
      refine injectAll_succeeds env _ (fun _ => rfl) _ _ hs' _ (v1.nodup_iff.2 hn) 0 fs fun eo heo => ?_
      obtain ⟨p, parser, a, b, _⟩ := hparser eo heo
      exact ⟨p, parser, a, b⟩
    obtain ⟨done, rest, e1, e2, e3, e4, -⟩ := injectAll_effect env (fun _ => none) i.fromVanilla dirs
      hs' (o.order 2 values) (v1.nodup_iff.2 hn) 0 fs
    rw [← hrun] at e2 e3 e4
    obtain rfl := e3 hok
    rw [List.append_nil] at e1
    refine Prod.ext hok (funext fun q => ?_)
    by_cases hq : ∃ eo ∈ o.order 2 values, ∃ p, dirs.get eo.1 = some p ∧ resolve p <+: q
    · obtain ⟨eo, heo, p, hg, r, rfl⟩ := hq
      obtain ⟨p1, q1, a1, a2, a3⟩ := e2 eo (e1 ▸ heo)
      obtain ⟨p2, q2, b1, b2, b3⟩ := hparser eo heo
      rw [hg] at a1 b1
      cases a1
      cases b1
      rw [a2] at b2
      cases b2
      exact (a3 r).trans (b3 r).symm
    · push Not at hq
      rw [e4 q fun ev hev p hg => hq ev (by rw [e1]; simpa using hev) p hg]
      refine (hkeep q fun e he p hp => ?_).symm
      obtain ⟨ev, hev, rfl⟩ := List.mem_map.1 he
      obtain ⟨out, _, hm⟩ := v2 ev hev
      obtain ⟨p', hg⟩ := g1 _ he
      obtain rfl := parserDir_unique (g2 _ _ hg).2 hp
      exact hq _ hm _ hg

theorem stemmerIs_unique {o : HashOrd} {fs : Fs} {i : Injector} {s s' : Option (Text → Text)}
    (h : StemmerIs env o fs i s) (h' : StemmerIs env o fs i s') : s = s' := by
  have := (injectStemmer_ok.2 h).symm.trans (injectStemmer_ok.2 h')
  exact Outcome.ok.inj this

theorem stemmerIs_congr {o : HashOrd} {fs : Fs} {i j : Injector} {s : Option (Text → Text)} (h1 : i.dir = j.dir)
    (h2 : i.sharedStemmer = j.sharedStemmer) (h : StemmerIs env o fs i s) : StemmerIs env o fs j s := by
  unfold StemmerIs at h ⊢
  rw [← h1, ← h2]
  exact h

theorem separateDirs_of {d : EngineDesc} {o : HashOrd} {fs : Fs} {dir : Path} (hown : OwnDirs env o fs dir d) (i : Injector) :
    SeparateDirs env d i := by
  intro e1 _ e2 _ hne p1 p2 h1 h2
  exact (pairwise_apart hown.apart (parserDir_mem h1) (parserDir_mem h2) fun h => hne (Prod.mk.inj h).1).1

/-- Nothing changes outside of the parser directories. -/
theorem inject_outside {o o' : HashOrd} {interrupts : Interrupts} {i : Injector} {fs fs' : Fs} {d : EngineDesc}
    (hd : Describes env fs i.dir d) (hn : i.entityValues.keys.Nodup) (hown : OwnDirs env o' fs i.dir d)
    (h : i.inject env o interrupts fs = (.ok (), fs')) : ∀ q, ¬ InParserDir d q → fs' q = fs q := by
  obtain ⟨d', s, hd', _, _, hkeep⟩ := c44_success env o interrupts i fs fs' hn
    (fun d' hd' => by obtain rfl := describes_unique hd hd'; exact separateDirs_of hown i) h
  obtain rfl := describes_unique hd hd'
  exact fun q hq => hkeep q fun e _ p hp hpre => hq ⟨(e, p), parserDir_mem hp, hpre⟩

theorem forall₂_comp {α β γ : Type} {R : α → β → Prop} {S : β → γ → Prop} {T : α → γ → Prop}
    (h : ∀ a b c, R a b → S b c → T a c) : ∀ {l1 l2 l3}, List.Forall₂ R l1 l2 → List.Forall₂ S l2 l3 → List.Forall₂ T l1 l3
  | [], [], [], _, _ => .nil
  | _ :: _, _ :: _, _ :: _, .cons h1 t1, .cons h2 t2 => .cons (h _ _ _ h1 h2) (forall₂_comp h t1 t2)

/-- Resources of an engine that can be loaded. -/
theorem resources_of_engine {env : LoadEnv} {o : HashOrd} {dir : Path} {fs : Fs} {e : LoadedEngine}
    (h : (loadEngine env o dir fs).1 = .ok e) :
    ∃ m r, Decodes fs (dir ++ ["nlu_engine.json".toList]) env.engine m ∧ (loadResourcesOf env o dir m fs).1 = .ok r ∧
      ∀ p ∈ (loadResourcesOf env o dir m fs).2, p ∈ (loadEngine env o dir fs).2 := by
  obtain ⟨m, hm, h⟩ := bind_ok_iff.1 h
  obtain ⟨r, hr, _⟩ := bind_ok_iff.1 h
  refine ⟨m, r, ?_, hr, fun p hp => trace_right hm (trace_left hp)⟩
  unfold loadModel at hm
  obtain ⟨_, _, h⟩ := bind_ok_iff.1 hm
  exact file_ok_iff.1 h

/-- The stemmer is the same before and after an injection. -/
theorem stemmerIs_after (C : Composed env) {o o' : HashOrd} {dir : Path} {fs fs' : Fs} {i : Injector} {e : LoadedEngine}
    {bytes : List Nat} {builtin custom : List (Text × π)} {d : EngineDesc} (hdir : i.dir = dir)
    (hload : (loadEngine env.load o' dir fs).1 = .ok e) (hown : OwnDirs env o' fs dir d)
    (hparsers : EntityParsers env fs' dir bytes builtin custom) (hout : ∀ q, ¬ InParserDir d q → fs' q = fs q)
    {s : Option (Text → Text)} (h : StemmerIs env o fs i s) : StemmerIs env o fs' i s := by
  rcases h with h | ⟨h, r, hr, rfl⟩
  · exact .inl h
  refine .inr ⟨h, ?_⟩
  rw [hdir] at hr ⊢
  obtain ⟨m, r0, hm, hr0, htrace⟩ := resources_of_engine hload
  have hm' : Decodes fs' (dir ++ ["nlu_engine.json".toList]) env.load.engine m := by
    obtain ⟨b, hb, hdec⟩ := hm
    exact ⟨b, (hout _ (hown.loaded _ (trace_engine hload ⟨b, hb, hdec⟩).1)).trans hb, hdec⟩
  obtain ⟨m2, c2, hm2, hb2, hc2, hg2⟩ := hparsers
  obtain rfl := decodes_unique hm' hm2
  have hc : ∀ c, Decodes fs (joinPath dir m.customEntityParser ++ ["metadata.json".toList]) env.load.customParser c → c = c2 := by
    rintro c ⟨b, hb, hdec⟩
    exact decodes_unique ⟨b, (hout _ (hown.loaded _ (trace_engine hload hm).2)).trans hb, hdec⟩ hc2
  obtain ⟨r', hr', heq⟩ := gives_resources (env := env.load) (o := o') (dir := dir) (fs := fs) (fs' := fs') (m := m)
    (C.builtin_reads _ _ _ hb2) (fun c h => by obtain rfl := hc c h; exact C.custom_reads _ _ hg2) r0 hr0
    fun p hp => hout _ (hown.loaded p (htrace p hp))
  have h0 : (loadEngineSharedResources env.load o' dir fs).1 = .ok r0 := bind_ok_iff.2 ⟨m, file_ok_iff.2 hm, hr0⟩
  have h1 : (loadEngineSharedResources env.load o' dir fs').1 = .ok r' :=
    bind_ok_iff.2 ⟨m, file_ok_iff.2 hm', congrArg Prod.fst hr'⟩
  obtain ⟨x, hx, x1, x2⟩ := loadEngineSharedResources_stemmer o h0
  obtain ⟨y, hy, y1, y2⟩ := loadEngineSharedResources_stemmer o h1
  rw [hr] at hx
  cases hx
  refine ⟨y, hy, ?_⟩
  rw [y1, y2, x1, x2, heq]

end Snips
