import Verif.Proofs.Injection
import Verif.Spec.InjectionDemo

/-! # C43, C44, C45 and C46: injection of entity values -/

namespace Snips

open Load

/-- What the preparation has computed when it succeeds. -/
structure Prepared {π : Type} (env : InjectEnv π) (o : HashOrd) (fs : Fs) (i : Injector) (info : EngineInfo)
    (builtin : Option GazetteerInfo) (custom : CustomInfo) (s : Option (Text → Text)) (dirs : Map Text Path)
    (values : Map Text (List EntityValue)) : Prop where
  hinfo : (getEngineInfo env i.dir fs).1 = .ok info
  hbuiltin : (getBuiltinInfo env info.builtinDir fs).1 = .ok builtin
  hcustom : (getCustomInfo env info.customDir fs).1 = .ok custom
  hstemmer : (injectStemmer env o i fs).1 = .ok s
  hdirs : getEntityParsersDirs env o info builtin custom i.entityValues = .ok dirs
  hvalues : mapOutcome (fun ev : Text × List Text => do
    let vs ← injectedValues env info custom s ev.1 ev.2
    .ok (ev.1, vs)) (o.order 1 i.entityValues) = .ok values

theorem prepareInjection_ok {π : Type} {env : InjectEnv π} {o : HashOrd} {fs : Fs} {i : Injector}
    {dirs : Map Text Path} {values : Map Text (List EntityValue)} :
    (prepareInjection env o i fs).1 = .ok (dirs, values) ↔
      ∃ info builtin custom s, Prepared env o fs i info builtin custom s dirs values := by
  unfold prepareInjection
  constructor
  · intro h
    rw [Load.bind_ok_iff] at h
    obtain ⟨info, h1, h⟩ := h
    rw [Load.bind_ok_iff] at h
    obtain ⟨builtin, h2, h⟩ := h
    rw [Load.bind_ok_iff] at h
    obtain ⟨custom, h3, h⟩ := h
    rw [Load.bind_ok_iff] at h
    obtain ⟨d, h4, h⟩ := h
    rw [Load.bind_ok_iff] at h
    obtain ⟨s, h5, h⟩ := h
    rw [Load.bind_ok_iff] at h
    obtain ⟨v, h6, h⟩ := h
    have := pure_ok_iff.1 h
    cases this
    exact ⟨info, builtin, custom, s, h1, h2, h3, h5, (lift_ok_iff (fs := fs)).1 h4, (lift_ok_iff (fs := fs)).1 h6⟩
  · rintro ⟨info, builtin, custom, s, h1, h2, h3, h5, h4, h6⟩
    rw [Load.bind_ok_iff]
    refine ⟨info, h1, ?_⟩
    rw [Load.bind_ok_iff]
    refine ⟨builtin, h2, ?_⟩
    rw [Load.bind_ok_iff]
    refine ⟨custom, h3, ?_⟩
    rw [Load.bind_ok_iff]
    refine ⟨dirs, lift_ok_iff.2 h4, ?_⟩
    rw [Load.bind_ok_iff]
    refine ⟨s, h5, ?_⟩
    rw [Load.bind_ok_iff]
    exact ⟨values, lift_ok_iff.2 h6, pure_ok_iff.2 rfl⟩

theorem injectStemmer_ok {π : Type} {env : InjectEnv π} {o : HashOrd} {fs : Fs} {i : Injector}
    {s : Option (Text → Text)} : (injectStemmer env o i fs).1 = .ok s ↔ StemmerIs env o fs i s := by
  unfold injectStemmer StemmerIs
  cases h : i.sharedStemmer with
  | some s' =>
    simp only
    rw [pure_ok_iff]
    simp
  | none =>
    simp only
    rw [Load.bind_ok_iff]
    simp only [pure_ok_iff, reduceCtorEq, false_or, true_and]
    constructor
    · rintro ⟨r, h1, h2⟩; exact ⟨r, h1, h2.symm⟩
    · rintro ⟨r, h1, h2⟩; exact ⟨r, h1, h2.symm⟩

section
variable {π : Type} {env : InjectEnv π} {o : HashOrd} {fs : Fs} {i : Injector} {info : EngineInfo}
  {builtin : Option GazetteerInfo} {custom : CustomInfo} {s : Option (Text → Text)} {dirs : Map Text Path}
  {values : Map Text (List EntityValue)}

theorem Prepared.dirs_get (hp : Prepared env o fs i info builtin custom s dirs values) {d : EngineDesc}
    (ha : Agrees d info builtin custom) (hn : i.entityValues.keys.Nodup) :
    (∀ e ∈ i.entityValues.keys, ∃ p, dirs.get e = some p) ∧
    ∀ e p, dirs.get e = some p → e ∈ i.entityValues.keys ∧ ParserDir env d e p := by
  obtain ⟨h1, h2, h3⟩ := mapOutcome_pairs (key := fun e => e) hp.hdirs
  have hperm := o.perm 0 i.entityValues.keys
  have hnd : dirs.keys.Nodup := by
    have : dirs.keys = (o.order 0 i.entityValues.keys) := by
      show dirs.map Prod.fst = _
      rw [h1, List.map_id']
    rw [this]; exact hperm.nodup_iff.2 hn
  refine ⟨fun e he => ?_, fun e p hg => ?_⟩
  · obtain ⟨p, _, hm⟩ := h2 e (hperm.mem_iff.2 he)
    exact ⟨p, Map.get_of_mem hnd hm⟩
  · obtain ⟨a, ha', he, hf⟩ := h3 (e, p) (Map.get_some_mem hg)
    simp only at he hf
    subst he
    exact ⟨hperm.mem_iff.1 ha', (entityParserDir_ok_iff ha _ _).1 hf⟩

theorem Prepared.values_spec (hp : Prepared env o fs i info builtin custom s dirs values) :
    ((o.order 2 values).map Prod.fst).Perm i.entityValues.keys ∧
    (∀ ev ∈ i.entityValues, ∃ out, injectedValues env info custom s ev.1 ev.2 = .ok out ∧
      (ev.1, out) ∈ o.order 2 values) ∧
    ∀ eo ∈ o.order 2 values, ∃ vs, (eo.1, vs) ∈ i.entityValues ∧
      injectedValues env info custom s eo.1 vs = .ok eo.2 := by
  obtain ⟨h1, h2, h3⟩ := mapOutcome_pairs (key := fun ev : Text × List Text => ev.1)
    (f := fun ev => injectedValues env info custom s ev.1 ev.2) hp.hvalues
  have hperm := o.perm 1 i.entityValues
  have hperm2 := o.perm 2 values
  refine ⟨?_, fun ev hev => ?_, fun eo heo => ?_⟩
  · refine (hperm2.map Prod.fst).trans ?_
    rw [h1]
    exact hperm.map _
  · obtain ⟨out, h4, h5⟩ := h2 ev (hperm.mem_iff.2 hev)
    exact ⟨out, h4, hperm2.mem_iff.2 h5⟩
  · obtain ⟨ev, hev, he, hf⟩ := h3 eo (hperm2.mem_iff.1 heo)
    obtain ⟨e, vs⟩ := ev
    simp only at he hf
    subst he
    exact ⟨vs, hperm.mem_iff.1 hev, hf⟩

end

theorem inject_prepared {π : Type} {env : InjectEnv π} {o : HashOrd} {interrupts : Interrupts} {i : Injector}
    {fs : Fs} : (Injector.inject env o interrupts i fs).2 = fs ∧ (Injector.inject env o interrupts i fs).1 ≠ .ok () ∨
    ∃ info builtin custom s dirs values, Prepared env o fs i info builtin custom s dirs values ∧
      Injector.inject env o interrupts i fs = injectAll env interrupts i.fromVanilla dirs (o.order 2 values) 0 fs := by
  unfold Injector.inject
  cases h : (prepareInjection env o i fs).1 with
  | err e => exact .inl ⟨rfl, by simp⟩
  | panic => exact .inl ⟨rfl, by simp⟩
  | ok dv =>
    obtain ⟨dirs, values⟩ := dv
    obtain ⟨info, builtin, custom, s, hp⟩ := prepareInjection_ok.1 h
    exact .inr ⟨info, builtin, custom, s, dirs, values, hp, rfl⟩

/-! ### C43 -/

/-- **C43**: an injection that changes anything on disk is one where every requested entity can be injected
and where the stemmer is there if it is needed; whatever the iteration orders and whatever goes wrong later. -/
theorem c43_validated_before_writing {π : Type} (env : InjectEnv π) (o : HashOrd) (interrupts : Interrupts)
    (i : Injector) (fs : Fs) (h : (i.inject env o interrupts fs).2 ≠ fs) :
    ∃ d s, Describes env fs i.dir d ∧ StemmerIs env o fs i s ∧ (∀ e ∈ i.entityValues.keys, CanInject env d e) ∧
      (NeedsStemmer d i → s ≠ none) := by
  rcases inject_prepared (env := env) (o := o) (interrupts := interrupts) (i := i) (fs := fs) with ⟨h', _⟩ | h'
  · exact absurd h' h
  · obtain ⟨info, builtin, custom, s, dirs, values, hp, _⟩ := h'
    have hagree : Agrees ⟨info.tokenizeLight, info.customEntities, custom.usage,
        custom.gazetteer.parsers.map fun p => (p.1, joinPath custom.gazetteer.dir p.2),
        match builtin with
        | some g => g.parsers.map fun p => (p.1, joinPath g.dir p.2)
        | none => []⟩ info builtin custom :=
      ⟨rfl, rfl, rfl, rfl, by cases builtin <;> rfl⟩
    refine ⟨_, s, (infos_iff hp.hinfo hp.hbuiltin hp.hcustom _).2 hagree, injectStemmer_ok.1 hp.hstemmer, ?_, ?_⟩
    · intro e he
      obtain ⟨_, h2, _⟩ := mapOutcome_pairs (key := fun e => e) hp.hdirs
      obtain ⟨p, h3, _⟩ := h2 e ((o.perm 0 _).mem_iff.2 he)
      exact ⟨p, (entityParserDir_ok_iff hagree _ _).1 h3⟩
    · rintro ⟨hu, e, vs, hm, hc, hv⟩ rfl
      obtain ⟨_, h2, _⟩ := hp.values_spec
      obtain ⟨out, h3, _⟩ := h2 _ hm
      have h4 := injectedValues_ok hagree.entities hagree.usage hagree.words h3
      unfold ToInject at h4
      rw [if_pos hc] at h4
      simp only at h4
      revert h4 hu
      simp only
      cases custom.usage with
      | withStems => rintro - (⟨h, _⟩ | ⟨_, h, _⟩)
                     · exact hv h
                     · cases h
      | withoutStems => intro h; exact absurd rfl h
      | withAndWithoutStems => rintro - (⟨h, _⟩ | ⟨_, h, _⟩)
                               · exact hv h
                               · cases h

/-- If an entity of the request cannot be injected, the outcome is the error that names such an entity, and
the disk is as before. -/
theorem c43_not_injectable {π : Type} (env : InjectEnv π) (o : HashOrd) (interrupts : Interrupts) (i : Injector)
    (fs : Fs) (d : EngineDesc) (hd : Describes env fs i.dir d) (e : Text) (he : e ∈ i.entityValues.keys)
    (hbad : ¬ CanInject env d e) :
    ∃ e' ∈ i.entityValues.keys, ¬ CanInject env d e' ∧
      i.inject env o interrupts fs = (.err (.entityNotInjectable e'), fs) := by
  obtain ⟨info, builtin, custom, h1, h2, h3⟩ := describes_infos hd
  have ha := (infos_iff h1 h2 h3 d).1 hd
  have hf : ∀ a, (do
      let dir ← entityParserDir env info builtin custom a
      Outcome.ok (a, dir) : Outcome (Text × Path)) = .err (.entityNotInjectable a) ∨
      ∃ p, entityParserDir env info builtin custom a = .ok p ∧ (do
        let dir ← entityParserDir env info builtin custom a
        Outcome.ok (a, dir) : Outcome (Text × Path)) = .ok (a, p) := by
    intro a
    rcases entityParserDir_err env info builtin custom a with ⟨p, hp⟩ | hp
    · exact .inr ⟨p, hp, by rw [hp]; rfl⟩
    · exact .inl (by rw [hp]; rfl)
  have hdirs : ∃ e' ∈ i.entityValues.keys, ¬ CanInject env d e' ∧
      getEntityParsersDirs env o info builtin custom i.entityValues = .err (.entityNotInjectable e') := by
    unfold getEntityParsersDirs
    rcases mapOutcome_cases (f := fun entity => do
        let dir ← entityParserDir env info builtin custom entity
        Outcome.ok (entity, dir)) (o.order 0 i.entityValues.keys) (by
          intro a _ hp
          rcases hf a with h | ⟨p, _, h⟩ <;> rw [h] at hp <;> cases hp) with ⟨bs, h⟩ | ⟨a, hm, err, herr, h⟩
    · obtain ⟨_, h5, _⟩ := mapOutcome_pairs (key := fun e => e) h
      obtain ⟨p, h6, _⟩ := h5 e ((o.perm 0 _).mem_iff.2 he)
      exact absurd ⟨p, (entityParserDir_ok_iff ha _ _).1 h6⟩ hbad
    · rcases hf a with h' | ⟨p, _, h'⟩
      · rw [h'] at herr
        cases herr
        refine ⟨a, (o.perm 0 _).mem_iff.1 hm, ?_, h⟩
        rintro ⟨p, hp⟩
        rw [← entityParserDir_ok_iff ha] at hp
        rw [hp] at h'
        cases h'
      · rw [h'] at herr; cases herr
  obtain ⟨e', h4, h5, h6⟩ := hdirs
  refine ⟨e', h4, h5, ?_⟩
  have hprep : (prepareInjection env o i fs).1 = .err (.entityNotInjectable e') := by
    unfold prepareInjection
    rw [Load.bind_ok (a := info) (t := (getEngineInfo env i.dir fs).2) (Prod.ext h1 rfl)]
    simp only
    rw [Load.bind_ok (a := builtin) (t := (getBuiltinInfo env info.builtinDir fs).2) (Prod.ext h2 rfl)]
    simp only
    rw [Load.bind_ok (a := custom) (t := (getCustomInfo env info.customDir fs).2) (Prod.ext h3 rfl)]
    simp only
    rw [Load.bind_err (e := .entityNotInjectable e') (t := [])]
    rw [h6]
    rfl
  unfold Injector.inject
  rw [hprep]

/-- If stems are needed and there is no stemmer, the outcome is an error and the disk is as before. -/
theorem c43_missing_stemmer {π : Type} (env : InjectEnv π) (o : HashOrd) (interrupts : Interrupts) (i : Injector)
    (fs : Fs) (d : EngineDesc) (hd : Describes env fs i.dir d) (hneed : NeedsStemmer d i)
    (hs : StemmerIs env o fs i none) :
    (∃ e, (i.inject env o interrupts fs).1 = .err e) ∧ (i.inject env o interrupts fs).2 = fs := by
  by_cases hall : ∀ e ∈ i.entityValues.keys, CanInject env d e
  · obtain ⟨info, builtin, custom, h1, h2, h3⟩ := describes_infos hd
    have ha := (infos_iff h1 h2 h3 d).1 hd
    have hdirs : ∃ dirs, getEntityParsersDirs env o info builtin custom i.entityValues = .ok dirs := by
      unfold getEntityParsersDirs
      rcases mapOutcome_cases (f := fun entity => do
          let dir ← entityParserDir env info builtin custom entity
          Outcome.ok (entity, dir)) (o.order 0 i.entityValues.keys) (by
            intro a _ hp
            rcases entityParserDir_err env info builtin custom a with ⟨p, h⟩ | h <;> rw [h] at hp <;> cases hp)
        with h | ⟨a, hm, err, herr, h⟩
      · exact h
      · obtain ⟨p, hp⟩ := hall a ((o.perm 0 _).mem_iff.1 hm)
        rw [← entityParserDir_ok_iff ha] at hp
        rw [hp] at herr
        cases herr
    obtain ⟨dirs, h4⟩ := hdirs
    have h5 := injectStemmer_ok.2 hs
    have h6 : mapOutcome (fun ev : Text × List Text => do
        let vs ← injectedValues env info custom none ev.1 ev.2
        Outcome.ok (ev.1, vs)) (o.order 1 i.entityValues) = .err (.site 44) := by
      rcases mapOutcome_cases (f := fun ev : Text × List Text => do
          let vs ← injectedValues env info custom none ev.1 ev.2
          Outcome.ok (ev.1, vs)) (o.order 1 i.entityValues) (by
            intro ev _ hp
            rcases injectedValues_total env info custom none ev.1 ev.2 with ⟨out, h⟩ | ⟨h, _⟩ <;>
              rw [h] at hp <;> cases hp) with ⟨bs, h⟩ | ⟨ev, _, err, herr, h⟩
      · obtain ⟨hu, e, vs, hm, hc, hv⟩ := hneed
        obtain ⟨_, h7, _⟩ := mapOutcome_pairs (key := fun ev : Text × List Text => ev.1)
          (f := fun ev => injectedValues env info custom none ev.1 ev.2) h
        obtain ⟨out, h8, _⟩ := h7 (e, vs) ((o.perm 1 _).mem_iff.2 hm)
        have h9 := injectedValues_ok ha.entities ha.usage ha.words h8
        unfold ToInject at h9
        rw [if_pos hc] at h9
        revert h9 hu
        cases d.usage with
        | withStems => rintro - (⟨h, _⟩ | ⟨_, h, _⟩)
                       · exact absurd h hv
                       · cases h
        | withoutStems => intro h; exact absurd rfl h
        | withAndWithoutStems => rintro - (⟨h, _⟩ | ⟨_, h, _⟩)
                                 · exact absurd h hv
                                 · cases h
      · rcases injectedValues_total env info custom none ev.1 ev.2 with ⟨out, h'⟩ | ⟨h', _⟩
        · rw [h'] at herr; cases herr
        · rw [h'] at herr; cases herr; exact h
    have hprep : (prepareInjection env o i fs).1 = .err (.site 44) := by
      unfold prepareInjection
      rw [Load.bind_ok (a := info) (t := (getEngineInfo env i.dir fs).2) (Prod.ext h1 rfl)]
      simp only
      rw [Load.bind_ok (a := builtin) (t := (getBuiltinInfo env info.builtinDir fs).2) (Prod.ext h2 rfl)]
      simp only
      rw [Load.bind_ok (a := custom) (t := (getCustomInfo env info.customDir fs).2) (Prod.ext h3 rfl)]
      simp only
      rw [Load.bind_ok (a := dirs) (t := []) (by rw [h4]; rfl)]
      simp only
      rw [Load.bind_ok (a := none) (t := (injectStemmer env o i fs).2) (Prod.ext h5 rfl)]
      simp only
      rw [Load.bind_err (e := .site 44) (t := [])]
      rw [h6]
      rfl
    unfold Injector.inject
    rw [hprep]
    exact ⟨⟨_, rfl⟩, rfl⟩
  · push Not at hall
    obtain ⟨e, he, hbad⟩ := hall
    obtain ⟨e', _, _, h⟩ := c43_not_injectable env o interrupts i fs d hd e he hbad
    rw [h]
    exact ⟨⟨_, rfl⟩, rfl⟩

/-! ### C44 -/

theorem agreesDesc (info : EngineInfo) (builtin : Option GazetteerInfo) (custom : CustomInfo) :
    ∃ d, Agrees d info builtin custom :=
  ⟨⟨info.tokenizeLight, info.customEntities, custom.usage,
    custom.gazetteer.parsers.map fun p => (p.1, joinPath custom.gazetteer.dir p.2),
    match builtin with
    | some g => g.parsers.map fun p => (p.1, joinPath g.dir p.2)
    | none => []⟩, rfl, rfl, rfl, rfl, by cases builtin <;> rfl⟩

theorem separate_of {π : Type} {env : InjectEnv π} {d : EngineDesc} {i : Injector} {dirs : Map Text Path}
    (hs : SeparateDirs env d i)
    (hg : ∀ e p, dirs.get e = some p → e ∈ i.entityValues.keys ∧ ParserDir env d e p) : Separate dirs := by
  intro e e' p p' hne h h'
  exact hs e (hg e p h).1 e' (hg e' p' h').1 hne p p' (hg e p h).2 (hg e' p' h').2

theorem parserDir_unique {π : Type} {env : InjectEnv π} {d : EngineDesc} {e : Text} {p p' : Path}
    (h : ParserDir env d e p) (h' : ParserDir env d e p') : p = p' := by
  rcases h with ⟨h1, h2⟩ | ⟨h1, _, h2⟩ <;> rcases h' with ⟨h1', h2'⟩ | ⟨h1', _, h2'⟩
  · rw [h2] at h2'; exact Option.some.inj h2'
  · exact absurd h1 h1'
  · exact absurd h1' h1
  · rw [h2] at h2'; exact Option.some.inj h2'

theorem Rewritten.newParser {π : Type} {env : InjectEnv π} {fv : Bool} {dirs : Map Text Path} {fs fs' : Fs}
    {e : Text} {out : List EntityValue} (h : Rewritten env fv dirs fs fs' (e, out)) :
    ∃ p, dirs.get e = some p ∧ NewParser env fv fs fs' p out := by
  obtain ⟨p, parser, h1, h2, h3⟩ := h
  unfold updatedParser at h2
  obtain ⟨old, h4, h5⟩ := Outcome.bind_ok_iff'.1 h2
  exact ⟨p, h1, old, parser, h4, h5, h3⟩

/-- **C44**: after a successful injection, the parser of each requested entity is the result of injecting the
values given for it in the parser that was there, and everything outside of these parsers is as before. -/
theorem c44_success {π : Type} (env : InjectEnv π) (o : HashOrd) (interrupts : Interrupts) (i : Injector) (fs fs' : Fs)
    (hn : i.entityValues.keys.Nodup) (hsep : ∀ d, Describes env fs i.dir d → SeparateDirs env d i)
    (h : i.inject env o interrupts fs = (.ok (), fs')) :
    ∃ d s, Describes env fs i.dir d ∧ StemmerIs env o fs i s ∧
      (∀ e values, (e, values) ∈ i.entityValues → ∃ p out, ParserDir env d e p ∧ ToInject env d s e values out ∧
        NewParser env i.fromVanilla fs fs' p out) ∧
      ∀ q, (∀ e ∈ i.entityValues.keys, ∀ p, ParserDir env d e p → ¬ resolve p <+: q) → fs' q = fs q := by
  rcases inject_prepared (env := env) (o := o) (interrupts := interrupts) (i := i) (fs := fs) with ⟨_, h'⟩ | h'
  · rw [h] at h'; exact absurd rfl h'
  · obtain ⟨info, builtin, custom, s, dirs, values, hp, hrun⟩ := h'
    obtain ⟨d, ha⟩ := agreesDesc info builtin custom
    have hd := (infos_iff hp.hinfo hp.hbuiltin hp.hcustom d).2 ha
    obtain ⟨g1, g2⟩ := hp.dirs_get ha hn
    obtain ⟨v1, v2, v3⟩ := hp.values_spec
    obtain ⟨done, rest, e1, e2, e3, e4, -⟩ := injectAll_effect env interrupts i.fromVanilla dirs
      (separate_of (hsep d hd) g2) (o.order 2 values) (v1.nodup_iff.2 hn) 0 fs
    rw [← hrun, h] at e2 e3 e4
    obtain rfl := e3 rfl
    rw [List.append_nil] at e1
    refine ⟨d, s, hd, injectStemmer_ok.1 hp.hstemmer, ?_, ?_⟩
    · intro e vs hm
      obtain ⟨out, hv, hmem⟩ := v2 _ hm
      obtain ⟨p, hg, hnew⟩ := (e2 (e, out) (by rw [← e1]; exact hmem)).newParser
      exact ⟨p, out, (g2 e p hg).2, injectedValues_ok ha.entities ha.usage ha.words hv, hnew⟩
    · intro q hq
      refine e4 q fun ev hev p hg => hq ev.1 (g2 _ _ hg).1 p (g2 _ _ hg).2

theorem stemmerIs_order {π : Type} {env : InjectEnv π} {o : HashOrd} (o' : HashOrd) {fs : Fs} {i : Injector}
    {s : Option (Text → Text)} (h : StemmerIs env o fs i s) : StemmerIs env o' fs i s := by
  rcases h with h | ⟨h, r, h1, h2⟩
  · exact .inl h
  · obtain ⟨r', h3, h4, h5⟩ := loadEngineSharedResources_stemmer o' h1
    exact .inr ⟨h, r', h3, by rw [h2, h4, h5]⟩

/-- The outcome of an injection without interruption does not depend on iteration orders: if it succeeds with
some orders, it succeeds with all, and leaves the same disk. -/
theorem c44_order_independent {π : Type} (env : InjectEnv π) (o o' : HashOrd) (i : Injector) (fs fs' : Fs)
    (hn : i.entityValues.keys.Nodup) (hsep : ∀ d, Describes env fs i.dir d → SeparateDirs env d i)
    (h : i.inject env o (fun _ => none) fs = (.ok (), fs')) :
    i.inject env o' (fun _ => none) fs = (.ok (), fs') := by
  rcases inject_prepared (env := env) (o := o) (interrupts := fun _ => none) (i := i) (fs := fs) with ⟨_, h'⟩ | h'
  · rw [h] at h'; exact absurd rfl h'
  obtain ⟨info, builtin, custom, s, dirs, values, hp, hrun⟩ := h'
  obtain ⟨d, ha⟩ := agreesDesc info builtin custom
  have hd := (infos_iff hp.hinfo hp.hbuiltin hp.hcustom d).2 ha
  -- the preparation succeeds with the other orders
  have hdirs' : ∃ dirs', getEntityParsersDirs env o' info builtin custom i.entityValues = .ok dirs' := by
    refine mapOutcome_all_ok fun e he => ?_
    obtain ⟨_, h2, _⟩ := mapOutcome_pairs (key := fun e => e) hp.hdirs
    obtain ⟨p, h3, _⟩ := h2 e ((o.perm 0 _).mem_iff.2 ((o'.perm 0 _).mem_iff.1 he))
    exact ⟨(e, p), by rw [h3]; rfl⟩
  obtain ⟨dirs', hdirs'⟩ := hdirs'
  have hvalues' : ∃ values', mapOutcome (fun ev : Text × List Text => do
      let vs ← injectedValues env info custom s ev.1 ev.2
      Outcome.ok (ev.1, vs)) (o'.order 1 i.entityValues) = .ok values' := by
    refine mapOutcome_all_ok fun ev he => ?_
    obtain ⟨_, v2, _⟩ := hp.values_spec
    obtain ⟨out, h3, _⟩ := v2 ev ((o'.perm 1 _).mem_iff.1 he)
    exact ⟨(ev.1, out), by rw [h3]; rfl⟩
  obtain ⟨values', hvalues'⟩ := hvalues'
  have hp' : Prepared env o' fs i info builtin custom s dirs' values' :=
    ⟨hp.hinfo, hp.hbuiltin, hp.hcustom,
      injectStemmer_ok.2 (stemmerIs_order o' (injectStemmer_ok.1 hp.hstemmer)), hdirs', hvalues'⟩
  have hrun' : i.inject env o' (fun _ => none) fs
      = injectAll env (fun _ => none) i.fromVanilla dirs' (o'.order 2 values') 0 fs := by
    unfold Injector.inject
    rw [prepareInjection_ok.2 ⟨info, builtin, custom, s, hp'⟩]
  -- what both do
  obtain ⟨g1, g2⟩ := hp.dirs_get ha hn
  obtain ⟨g1', g2'⟩ := hp'.dirs_get ha hn
  obtain ⟨v1, v2, v3⟩ := hp.values_spec
  obtain ⟨v1', v2', v3'⟩ := hp'.values_spec
  have hsame : ∀ e, dirs.get e = dirs'.get e := by
    intro e
    by_cases he : e ∈ i.entityValues.keys
    · obtain ⟨p, hg⟩ := g1 e he
      obtain ⟨p', hg'⟩ := g1' e he
      rw [hg, hg', parserDir_unique (g2 _ _ hg).2 (g2' _ _ hg').2]
    · have h1 : dirs.get e = none := by
        cases hg : dirs.get e with
        | none => rfl
        | some p => exact absurd (g2 _ _ hg).1 he
      have h2 : dirs'.get e = none := by
        cases hg : dirs'.get e with
        | none => rfl
        | some p => exact absurd (g2' _ _ hg).1 he
      rw [h1, h2]
  have hvals : ∀ eo ∈ o'.order 2 values', eo ∈ o.order 2 values := by
    intro eo heo
    obtain ⟨vs, hm, hv⟩ := v3' eo heo
    obtain ⟨out, hv', hm'⟩ := v2 _ hm
    rw [hv] at hv'
    cases hv'
    exact hm'
  have hvals' : ∀ eo ∈ o.order 2 values, eo ∈ o'.order 2 values' := by
    intro eo heo
    obtain ⟨vs, hm, hv⟩ := v3 eo heo
    obtain ⟨out, hv', hm'⟩ := v2' _ hm
    rw [hv] at hv'
    cases hv'
    exact hm'
  have hs := separate_of (hsep d hd) g2
  have hs' := separate_of (hsep d hd) g2'
  obtain ⟨done, rest, e1, e2, e3, e4, -⟩ := injectAll_effect env (fun _ => none) i.fromVanilla dirs hs
    (o.order 2 values) (v1.nodup_iff.2 hn) 0 fs
  rw [← hrun, h] at e2 e3 e4
  obtain rfl := e3 rfl
  rw [List.append_nil] at e1
  have hok' : (i.inject env o' (fun _ => none) fs).1 = .ok () := by
    rw [hrun']
    refine injectAll_succeeds env _ (fun _ => rfl) _ _ hs' _ (v1'.nodup_iff.2 hn) 0 fs fun ev hev => ?_
    obtain ⟨p, parser, h1, h2, _⟩ := e2 ev (e1 ▸ hvals ev hev)
    exact ⟨p, parser, by rw [← hsame]; exact h1, h2⟩
  obtain ⟨done', rest', f1, f2, f3, f4, -⟩ := injectAll_effect env (fun _ => none) i.fromVanilla dirs' hs'
    (o'.order 2 values') (v1'.nodup_iff.2 hn) 0 fs
  rw [← hrun'] at f2 f3 f4
  obtain rfl := f3 hok'
  rw [List.append_nil] at f1
  refine Prod.ext hok' (funext fun q => ?_)
  by_cases hq : ∃ ev ∈ o.order 2 values, ∃ p, dirs.get ev.1 = some p ∧ resolve p <+: q
  · obtain ⟨ev, hev, p, hg, r, rfl⟩ := hq
    obtain ⟨p1, q1, h1, h2, h3⟩ := e2 ev (e1 ▸ hev)
    obtain ⟨p2, q2, h1', h2', h3'⟩ := f2 ev (f1 ▸ hvals' ev hev)
    rw [hg] at h1
    cases h1
    rw [← hsame, hg] at h1'
    cases h1'
    rw [h2] at h2'
    cases h2'
    rw [h3, h3']
  · push Not at hq
    rw [e4 q (fun ev hev p hg => hq ev (by simpa [e1] using hev) p hg),
      f4 q (fun ev hev p hg => hq ev (hvals ev (by simpa [f1] using hev)) p (by rw [hsame]; exact hg))]

/-! ### C45 -/

/-- **C45**: wherever the injection is interrupted (or fails), all parsers of the request but at most one are
in their old or in their new state, and what is outside of these parsers is unchanged.  Missing from the full
statement: the parser being rewritten, for which it is false (`c45_counterexample`). -/
theorem c45_at_most_one_partial {π : Type} (env : InjectEnv π) (o : HashOrd) (interrupts : Interrupts) (i : Injector)
    (fs : Fs) (d : EngineDesc) (hd : Describes env fs i.dir d)
    (hn : i.entityValues.keys.Nodup) (hsep : SeparateDirs env d i) :
    ∃ damaged : Option Text,
      (∀ e values, (e, values) ∈ i.entityValues → some e ≠ damaged → ∀ p, ParserDir env d e p →
        OldParser fs (i.inject env o interrupts fs).2 p ∨
        ∃ s out, StemmerIs env o fs i s ∧ ToInject env d s e values out ∧
          NewParser env i.fromVanilla fs (i.inject env o interrupts fs).2 p out) ∧
      ∀ q, (∀ e ∈ i.entityValues.keys, ∀ p, ParserDir env d e p → ¬ resolve p <+: q) →
        (i.inject env o interrupts fs).2 q = fs q := by
  rcases inject_prepared (env := env) (o := o) (interrupts := interrupts) (i := i) (fs := fs) with ⟨h', _⟩ | h'
  · rw [h']
    exact ⟨none, fun _ _ _ _ _ _ => .inl fun _ => rfl, fun _ _ => rfl⟩
  · obtain ⟨info, builtin, custom, s, dirs, values, hp, hrun⟩ := h'
    have ha := (infos_iff hp.hinfo hp.hbuiltin hp.hcustom d).1 hd
    obtain ⟨g1, g2⟩ := hp.dirs_get ha hn
    obtain ⟨v1, v2, v3⟩ := hp.values_spec
    have hnv : ((o.order 2 values).map Prod.fst).Nodup := v1.nodup_iff.2 hn
    obtain ⟨done, rest, e1, e2, -, e4, -⟩ := injectAll_effect env interrupts i.fromVanilla dirs
      (separate_of hsep g2) (o.order 2 values) hnv 0 fs
    rw [← hrun] at e2 e4
    refine ⟨rest.head?.map Prod.fst, ?_, ?_⟩
    · intro e vs hm hne p hpd
      obtain ⟨out, hv, hmem⟩ := v2 _ hm
      obtain ⟨p', hg⟩ := g1 e (List.mem_map_of_mem hm)
      obtain rfl := parserDir_unique hpd (g2 e p' hg).2
      rw [e1] at hmem
      rcases List.mem_append.1 hmem with hmem | hmem
      · obtain ⟨p'', hg'', hnew⟩ := (e2 (e, out) hmem).newParser
        rw [hg] at hg''
        cases hg''
        exact .inr ⟨s, out, injectStemmer_ok.1 hp.hstemmer,
          injectedValues_ok ha.entities ha.usage ha.words hv, hnew⟩
      · refine .inl fun q => e4 _ fun ev hev p'' hg'' => ?_
        refine separate_inside (separate_of hsep g2) ?_ hg hg'' q
        rintro rfl
        rw [e1] at hnv
        rcases List.mem_append.1 hev with hev | hev
        · rw [List.map_append, List.nodup_append] at hnv
          exact hnv.2.2 _ (List.mem_map_of_mem hev) _ (List.mem_map_of_mem (f := Prod.fst) hmem) rfl
        · cases rest with
          | nil => cases hmem
          | cons x rest =>
            have : ev = x := by simpa using hev
            subst this
            exact hne rfl
    · intro q hq
      exact e4 q fun ev hev p hg => hq ev.1 (g2 _ _ hg).1 p (g2 _ _ hg).2

/-- If no writing operation is interrupted, even when the injection fails, all parsers of the request are in their
old or in their new state. -/
theorem c45_not_interrupted {π : Type} (env : InjectEnv π) (o : HashOrd) (i : Injector)
    (fs : Fs) (d : EngineDesc) (hd : Describes env fs i.dir d)
    (hn : i.entityValues.keys.Nodup) (hsep : SeparateDirs env d i) (e : Text) (values : List Text)
    (hm : (e, values) ∈ i.entityValues) (p : Path) (hpd : ParserDir env d e p) :
    OldParser fs (i.inject env o (fun _ => none) fs).2 p ∨
    ∃ s out, StemmerIs env o fs i s ∧ ToInject env d s e values out ∧
      NewParser env i.fromVanilla fs (i.inject env o (fun _ => none) fs).2 p out := by
  rcases inject_prepared (env := env) (o := o) (interrupts := fun _ => none) (i := i) (fs := fs) with ⟨h', _⟩ | h'
  · rw [h']
    exact .inl fun _ => rfl
  · obtain ⟨info, builtin, custom, s, dirs, vals, hp, hrun⟩ := h'
    have ha := (infos_iff hp.hinfo hp.hbuiltin hp.hcustom d).1 hd
    obtain ⟨g1, g2⟩ := hp.dirs_get ha hn
    obtain ⟨v1, v2, v3⟩ := hp.values_spec
    have hnv : ((o.order 2 vals).map Prod.fst).Nodup := v1.nodup_iff.2 hn
    obtain ⟨done, rest, e1, e2, -, -, e5⟩ := injectAll_effect env (fun _ => none) i.fromVanilla dirs
      (separate_of hsep g2) (o.order 2 vals) hnv 0 fs
    rw [← hrun] at e2 e5
    obtain ⟨out, hv, hmem⟩ := v2 _ hm
    obtain ⟨p', hg⟩ := g1 e (List.mem_map_of_mem hm)
    obtain rfl := parserDir_unique hpd (g2 e p' hg).2
    rw [e1] at hmem
    rcases List.mem_append.1 hmem with hmem | hmem
    · obtain ⟨p'', hg'', hnew⟩ := (e2 (e, out) hmem).newParser
      rw [hg] at hg''
      cases hg''
      exact .inr ⟨s, out, injectStemmer_ok.1 hp.hstemmer,
        injectedValues_ok ha.entities ha.usage ha.words hv, hnew⟩
    · refine .inl fun q => e5 (fun _ => rfl) _ fun ev hev p'' hg'' => ?_
      refine separate_inside (separate_of hsep g2) ?_ hg hg'' q
      rintro rfl
      rw [e1, List.map_append, List.nodup_append] at hnv
      exact hnv.2.2 _ (List.mem_map_of_mem hev) _ (List.mem_map_of_mem (f := Prod.fst) hmem) rfl

/-- The parser being rewritten may be in neither state: killed after `remove_dir_all` and before `dump`, the
injector leaves an engine without the parser. -/
theorem c45_counterexample :
    ∃ (interrupts : Interrupts) (p : Path), ParserDir demoInjectEnv demoDesc "artist".toList p ∧
      ¬ OldParser demoInjectFs (demoInjector.inject demoInjectEnv HashOrd.insertion interrupts demoInjectFs).2 p ∧
      ¬ ∃ out, NewParser demoInjectEnv false demoInjectFs
        (demoInjector.inject demoInjectEnv HashOrd.insertion interrupts demoInjectFs).2 p out := by
  refine ⟨fun n => if n = 1 then some fun _ => none else none, ["m", "builtin", "gaz", "p0"].map String.toList,
    .inr ⟨by decide, by decide, by decide⟩, ?_, ?_⟩
  · intro h
    have := h ["v".toList]
    revert this
    decide +kernel
  · rintro ⟨out, old, new, _, _, h⟩
    have := h []
    revert this
    have h1 : (demoInjector.inject demoInjectEnv HashOrd.insertion (fun n => if n = 1 then some fun _ => none else none)
      demoInjectFs).2 (resolve (["m", "builtin", "gaz", "p0"].map String.toList) ++ []) = none := by decide +kernel
    rw [h1]
    intro h2
    cases h2

/-- An injection that fails may have changed the parsers of some entities: too many values for the second entity
(for this library) leave the first one changed. -/
theorem c45_not_atomic_counterexample :
    ∃ i : Injector, (i.inject demoInjectEnv HashOrd.insertion (fun _ => none) demoInjectFs).1 = .err (.external 313) ∧
      (i.inject demoInjectEnv HashOrd.insertion (fun _ => none) demoInjectFs).2 ≠ demoInjectFs := by
  refine ⟨(demoInjector.addValue "drink".toList "cola".toList).addValue "drink".toList "milk".toList,
    by decide +kernel, fun h => ?_⟩
  have := congrFun h (["m", "builtin", "gaz", "p0", "v"].map String.toList)
  revert this
  decide +kernel

/-! ### C46 -/

/-- **C46**: the values handed to the parsers are those of the specification. -/
theorem c46_values {π : Type} (env : InjectEnv π) (o : HashOrd) (i : Injector) (fs : Fs) (dirs : Map Text Path)
    (values : Map Text (List EntityValue)) (h : (prepareInjection env o i fs).1 = .ok (dirs, values)) :
    ∃ d s, Describes env fs i.dir d ∧ StemmerIs env o fs i s ∧
      (∀ e vs, (e, vs) ∈ i.entityValues → ∃ out, (e, out) ∈ values ∧ ToInject env d s e vs out) ∧
      ∀ e out, (e, out) ∈ values → ∃ vs, (e, vs) ∈ i.entityValues ∧ ToInject env d s e vs out := by
  obtain ⟨info, builtin, custom, s, hp⟩ := prepareInjection_ok.1 h
  obtain ⟨d, ha⟩ := agreesDesc info builtin custom
  obtain ⟨_, v2, v3⟩ := hp.values_spec
  have hperm := o.perm 2 values
  refine ⟨d, s, (infos_iff hp.hinfo hp.hbuiltin hp.hcustom d).2 ha, injectStemmer_ok.1 hp.hstemmer, ?_, ?_⟩
  · intro e vs hm
    obtain ⟨out, h1, h2⟩ := v2 _ hm
    exact ⟨out, hperm.mem_iff.1 h2, injectedValues_ok ha.entities ha.usage ha.words h1⟩
  · intro e out hm
    obtain ⟨vs, h1, h2⟩ := v3 (e, out) (hperm.mem_iff.2 hm)
    exact ⟨vs, h1, injectedValues_ok ha.entities ha.usage ha.words h2⟩

/-- No value is lost and the resolved value of every injected form is a text given by the user. -/
theorem c46_nothing_lost {π : Type} (env : InjectEnv π) (d : EngineDesc) (s : Option (Text → Text)) (e : Text)
    (values : List Text) (out : List EntityValue) (h : ToInject env d s e values out) :
    (∀ v ∈ values, ∃ x ∈ out, x.resolvedValue = v) ∧ ∀ x ∈ out, x.resolvedValue ∈ values := by
  unfold ToInject at h
  have hplain : ∀ x ∈ values.map (plainForm env), x.resolvedValue ∈ values := by
    intro x hx
    obtain ⟨v, hv, rfl⟩ := List.mem_map.1 hx
    exact hv
  have hstem : ∀ stem, ∀ x ∈ values.map (stemmedForm env d stem), x.resolvedValue ∈ values := by
    intro stem x hx
    obtain ⟨v, hv, rfl⟩ := List.mem_map.1 hx
    exact hv
  split at h
  · split at h
    · rcases h with ⟨rfl, rfl⟩ | ⟨stem, _, rfl⟩
      · simp
      · exact ⟨fun v hv => ⟨_, List.mem_map_of_mem hv, rfl⟩, hstem stem⟩
    · obtain ⟨_, h2, h3⟩ := h
      exact ⟨fun v hv => ⟨_, h3 v hv, rfl⟩, fun x hx => hplain x (h2.subset hx)⟩
    · rcases h with ⟨rfl, rfl⟩ | ⟨stem, _, _, h2, h3⟩
      · simp
      · refine ⟨fun v hv => ⟨_, (h3 v hv).1, rfl⟩, fun x hx => ?_⟩
        rcases List.mem_append.1 (h2.subset hx) with hx | hx
        · exact hplain x hx
        · exact hstem stem x hx
  · subst h
    exact ⟨fun v hv => ⟨_, List.mem_map_of_mem hv, rfl⟩, hplain⟩

/-- Requests made by a sequence of `add_value`: the values of an entity are those given for it, in order;
entities without values are absent; each entity has one list. -/
theorem c46_add_value (dir : Path) (calls : List (Text × Text)) :
    (∀ e, ((calls.foldl (fun i c => i.addValue c.1 c.2) (Injector.new dir)).entityValues.get e).getD []
      = (calls.filter fun c => c.1 = e).map Prod.snd) ∧
    (∀ e, e ∈ (calls.foldl (fun i c => i.addValue c.1 c.2) (Injector.new dir)).entityValues.keys ↔
      ∃ v, (e, v) ∈ calls) ∧
    (calls.foldl (fun i c => i.addValue c.1 c.2) (Injector.new dir)).entityValues.keys.Nodup := by
  have key : ∀ (i : Injector), i.entityValues.keys.Nodup →
      (∀ e, ((calls.foldl (fun i c => i.addValue c.1 c.2) i).entityValues.get e).getD []
        = (i.entityValues.get e).getD [] ++ (calls.filter fun c => c.1 = e).map Prod.snd) ∧
      (∀ e, e ∈ (calls.foldl (fun i c => i.addValue c.1 c.2) i).entityValues.keys ↔
        e ∈ i.entityValues.keys ∨ ∃ v, (e, v) ∈ calls) ∧
      (calls.foldl (fun i c => i.addValue c.1 c.2) i).entityValues.keys.Nodup := by
    induction calls with
    | nil => intro i hi; simpa using hi
    | cons c calls ih =>
      intro i hi
      obtain ⟨h1, h2, h3⟩ := ih (i.addValue c.1 c.2) (Map.keys_insert_nodup _ _ _ hi)
      rw [List.foldl_cons]
      refine ⟨fun e => ?_, fun e => ?_, h3⟩
      · rw [h1, Injector.addValue, Map.get_insert]
        by_cases he : e = c.1
        · subst he
          simp
        · have he' : ¬ c.1 = e := fun h => he h.symm
          simp [he, he']
      · rw [h2, Injector.addValue, Map.keys_insert_mem]
        constructor
        · rintro ((rfl | h) | ⟨v, h⟩)
          · exact .inr ⟨c.2, List.mem_cons_self⟩
          · exact .inl h
          · exact .inr ⟨v, List.mem_cons_of_mem _ h⟩
        · rintro (h | ⟨v, h⟩)
          · exact .inl (.inr h)
          · rcases List.mem_cons.1 h with rfl | h
            · exact .inl (.inl rfl)
            · exact .inr ⟨v, h⟩
  obtain ⟨h1, h2, h3⟩ := key (Injector.new dir) List.nodup_nil
  refine ⟨fun e => ?_, fun e => ?_, h3⟩
  · rw [h1]; rfl
  · rw [h2]
    constructor
    · rintro (h | h)
      · cases h
      · exact h
    · exact .inr

/-! ### Concrete cases -/

/-- The example is described by its description. -/
theorem demo_describes : Describes demoInjectEnv demoInjectFs demoInjector.dir demoDesc := by
  refine ⟨_, ⟨[1], by unfold FileAt; decide +kernel, rfl⟩, rfl, rfl, ⟨_, ⟨[30], by unfold FileAt; decide +kernel, rfl⟩, .inr
    ⟨_, rfl, _, ⟨[31], by unfold FileAt; decide +kernel, rfl⟩, rfl⟩⟩, ⟨_, ⟨[11], by unfold FileAt; decide +kernel, rfl⟩,
    rfl, _, ⟨[32], by unfold FileAt; decide +kernel, rfl⟩, rfl⟩⟩

/-- The injection of the example succeeds, and both parsers are changed. -/
example : (demoInjector.inject demoInjectEnv HashOrd.insertion (fun _ => none) demoInjectFs).1 = .ok () ∧
    (demoInjector.inject demoInjectEnv HashOrd.insertion (fun _ => none) demoInjectFs).2
      (["m", "builtin", "gaz", "p0", "v"].map String.toList) = some (.file [6]) ∧
    (demoInjector.inject demoInjectEnv HashOrd.insertion (fun _ => none) demoInjectFs).2
      (["m", "custom", "parser", "p1", "v"].map String.toList) = some (.file [9]) := by decide +kernel

/-- The directories of the example are separate, whatever description is taken. -/
example : ∀ d, Describes demoInjectEnv demoInjectFs demoInjector.dir d → SeparateDirs demoInjectEnv d demoInjector := by
  intro d hd
  obtain ⟨info, builtin, custom, h1, h2, h3⟩ := describes_infos hd
  have ha := (infos_iff h1 h2 h3 d).1 hd
  have ha' := (infos_iff h1 h2 h3 _).1 demo_describes
  have e1 : d.customEntities = demoDesc.customEntities := ha.entities.trans ha'.entities.symm
  have e2 : d.customParsers = demoDesc.customParsers := ha.customParsers.trans ha'.customParsers.symm
  have e3 : d.builtinParsers = demoDesc.builtinParsers := ha.builtinParsers.trans ha'.builtinParsers.symm
  unfold SeparateDirs ParserDir
  rw [e1, e2, e3]
  have hk : demoInjector.entityValues.keys = ["artist".toList, "drink".toList] := by decide
  rw [hk]
  have key : ∀ e ∈ ["artist".toList, "drink".toList], ∀ p : Path,
      (e ∈ demoDesc.customEntities ∧ demoDesc.customParsers.lookup e = some p) ∨
      (e ∉ demoDesc.customEntities ∧ demoInjectEnv.isGazetteerKind e = true ∧ demoDesc.builtinParsers.lookup e = some p) →
      (e = "artist".toList ∧ p = ["m", "builtin", "gaz", "p0"].map String.toList) ∨
      (e = "drink".toList ∧ p = ["m", "custom", "parser", "p1"].map String.toList) := by
    intro e he p hp
    rcases List.mem_cons.1 he with rfl | he
    · rcases hp with ⟨h, _⟩ | ⟨_, _, h⟩
      · exact absurd h (by decide)
      · exact .inl ⟨rfl, (Option.some.inj ((show _ = some _ by decide).symm.trans h)).symm⟩
    · obtain rfl := List.mem_singleton.1 he
      rcases hp with ⟨_, h⟩ | ⟨h, _⟩
      · exact .inr ⟨rfl, (Option.some.inj ((show _ = some _ by decide).symm.trans h)).symm⟩
      · exact absurd (by decide) h
  intro e he e' he' hne p p' hp hp'
  rcases key e he p hp with ⟨rfl, rfl⟩ | ⟨rfl, rfl⟩ <;> rcases key e' he' p' hp' with ⟨rfl, rfl⟩ | ⟨rfl, rfl⟩
  · exact absurd rfl hne
  · decide
  · decide
  · exact absurd rfl hne

/-- An entity that cannot be injected, after two that can: an error, and the disk is as before. -/
example : "number".toList ∈ (demoInjector.addValue "number".toList "six".toList).entityValues.keys ∧
    ¬ CanInject demoInjectEnv demoDesc "number".toList := by
  refine ⟨by decide, ?_⟩
  rintro ⟨p, ⟨h, _⟩ | ⟨_, h, _⟩⟩
  · exact absurd h (by decide)
  · exact absurd h (by decide)

/-- A stemmer is needed by parsers that use stems. -/
example : NeedsStemmer { demoDesc with usage := .withStems } demoInjector ∧
    StemmerIs demoInjectEnv HashOrd.insertion demoInjectFs (demoInjector.withResources none) none :=
  ⟨⟨by decide, "drink".toList, ["green tea".toList, "mate".toList], by decide, by decide, by decide⟩, .inl rfl⟩

/-- Both forms, without repetition: the second value is its own stem. -/
example : ToInject demoInjectEnv { demoDesc with usage := .withAndWithoutStems } (some (List.take 3)) "drink".toList
    ["green tea".toList, "tea".toList]
    [⟨"green tea".toList, "green tea".toList⟩, ⟨"tea".toList, "tea".toList⟩, ⟨"gre tea".toList, "green tea".toList⟩] := by
  unfold ToInject
  rw [if_pos (by decide)]
  refine .inr ⟨_, rfl, by decide, ?_, by decide⟩
  decide

/-- The preparation of the example. -/
example : ∃ dirs values, (prepareInjection demoInjectEnv HashOrd.insertion demoInjector demoInjectFs).1
    = .ok (dirs, values) := by
  have h : (prepareInjection demoInjectEnv HashOrd.insertion demoInjector demoInjectFs).1
    = .ok ([("artist".toList, ["m", "builtin", "gaz", "p0"].map String.toList),
        ("drink".toList, ["m", "custom", "parser", "p1"].map String.toList)],
      [("artist".toList, [⟨"Abba".toList, "Abba".toList⟩]), ("drink".toList,
        [⟨"green tea".toList, "green tea".toList⟩, ⟨"mate".toList, "mate".toList⟩])]) := by decide +kernel
  exact ⟨_, _, h⟩

end Snips
