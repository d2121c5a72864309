import Verif.Proofs.InjectMessages
import Verif.Props.C43_Injection
import Verif.Props.C89_Messages

/-! # C93: what the error of an injection says -/

namespace Snips

open Load

variable {π : Type}

/-- The messages are all that is added: apart from them, an injection does what C43 to C46 describe. -/
theorem c93_same (msg : MessageEnv) (env : InjectEnv π) (o : HashOrd) (interrupts : Interrupts) (i : Injector) (fs : Fs) :
    ((tinject msg env o interrupts i fs).1.outcome, (tinject msg env o interrupts i fs).2)
      = i.inject env o interrupts fs := by
  unfold tinject Injector.inject
  rw [← forget_prepareInjection msg env o i]
  simp only [TLoad.forget]
  cases h : (tprepareInjection msg env o i fs).1 with
  | ok dv => exact outcome_injectAll ..
  | err cs e => rfl
  | panic => rfl

section

variable {msg : MessageEnv} {env : InjectEnv π} {o : HashOrd} {interrupts : Interrupts} {i : Injector} {fs fs' : Fs}
  {messages : List Text} {root : Err}

/-- Where the preparation fails. -/
theorem prepare_err (h : (tprepareInjection msg env o i fs).1 = .err messages root) :
    CannotRead msg env fs i.dir messages root ∨
    ∃ d, Describes env fs i.dir d ∧
      ((∃ entity ∈ i.entityValues.keys, root = .entityNotInjectable entity ∧
        ∃ text, WhyNot env fs i.dir d entity text ∧ messages = ["Entity is not injectable: ".toList ++ text]) ∨
      ((∀ entity ∈ i.entityValues.keys, CanInject env d entity) ∧
        ((i.sharedStemmer = none ∧ ∃ contexts,
          (tloadEngineSharedResources msg env.load o i.dir fs).1 = .err contexts root ∧
          messages = ("Internal injection error: ".toList ++ "Could not load shared resources from ".toList ++
            msg.quote (pathText i.dir)) :: msg.messages contexts root) ∨
        (StemmerIs env o fs i none ∧ NeedsStemmer d i ∧
          messages = ["Internal injection error: ".toList ++ "found ".toList ++ usageName d.usage ++
            " parser usage but no stemmer in NLU engine.".toList])))) := by
  unfold tprepareInjection at h
  rcases TLoad.bind_err_cases h with h | ⟨info, h1, h⟩
  · exact .inl (engineInfo_err h)
  have h1 := forget_ok h1
  rw [forget_engineInfo] at h1
  rcases TLoad.bind_err_cases h with h | ⟨builtin, h2, h⟩
  · exact .inl (builtinInfo_err h1 h)
  have h2 := forget_ok h2
  rw [forget_builtinInfo] at h2
  rcases TLoad.bind_err_cases h with h | ⟨custom, h3, h⟩
  · exact .inl (customInfo_err h1 h)
  have h3 := forget_ok h3
  rw [forget_customInfo] at h3
  obtain ⟨d, ha⟩ := agreesDesc info builtin custom
  refine .inr ⟨d, (infos_iff h1 h2 h3 d).2 ha, ?_⟩
  rcases TLoad.bind_err_cases h with h | ⟨dirs, h4, h⟩
  · obtain ⟨entity, hm, h⟩ := TLoad.mapM_err h
    rcases TLoad.bind_err_cases h with h | ⟨_, _, h⟩
    · obtain ⟨he, text, hw, hcs⟩ := entityParserDir_why ha (hasGazetteers_iff h1 h2) h
      exact .inl ⟨entity, (o.perm 0 _).mem_iff.1 hm, he, text, hw, hcs⟩
    · cases h
  have h4 := forget_ok h4
  rw [forget_dirs, lift_ok_iff] at h4
  have hall : ∀ entity ∈ i.entityValues.keys, CanInject env d entity := fun entity he => by
    obtain ⟨_, h5, _⟩ := mapOutcome_pairs (key := fun e => e) h4
    obtain ⟨p, hp, _⟩ := h5 entity ((o.perm 0 _).mem_iff.2 he)
    exact ⟨p, (entityParserDir_ok_iff ha _ _).1 hp⟩
  refine .inr ⟨hall, ?_⟩
  rcases TLoad.bind_err_cases h with h | ⟨s, h5, h⟩
  · exact .inl (injectStemmer_err h)
  have h5 := forget_ok h5
  rw [forget_injectStemmer, injectStemmer_ok] at h5
  rcases TLoad.bind_err_cases h with h | ⟨vs, _, h⟩
  · obtain ⟨⟨entity, vs⟩, hm, h⟩ := TLoad.mapM_err h
    rcases TLoad.bind_err_cases h with h | ⟨_, _, h⟩
    · obtain ⟨rfl, h⟩ := created_err (show Report.created _ _ = _ from h)
      rcases injectedValues_total env info custom s entity vs with ⟨out, h'⟩ | ⟨_, hs, hu, hc, hv⟩
      · rw [h'] at h; cases h
      · subst hs
        refine .inr ⟨h5, ⟨ha.usage ▸ hu, entity, vs, (o.perm 1 _).mem_iff.1 hm, ha.entities ▸ hc, hv⟩, ?_⟩
        rw [internal_quoted, ha.usage]
        cases custom.usage <;> rfl
    · cases h
  · cases h

theorem inject_err (h : tinject msg env o interrupts i fs = (.err messages root, fs')) :
    ((tprepareInjection msg env o i fs).1 = .err messages root ∧ fs' = fs) ∨
    ∃ info builtin custom s dirs values, Prepared env o fs i info builtin custom s dirs values ∧
      tinjectAll msg env interrupts i.fromVanilla dirs (o.order 2 values) 0 fs = (.err messages root, fs') := by
  unfold tinject at h
  cases hp : (tprepareInjection msg env o i fs).1 with
  | err cs e => rw [hp] at h; cases h; exact .inl ⟨rfl, rfl⟩
  | panic => rw [hp] at h; cases h
  | ok dv =>
    rw [hp] at h
    have h1 := forget_ok hp
    rw [forget_prepareInjection] at h1
    obtain ⟨dirs, values⟩ := dv
    obtain ⟨info, builtin, custom, s, hp⟩ := prepareInjection_ok.1 h1
    exact .inr ⟨info, builtin, custom, s, dirs, values, hp, h⟩

end

/-- Everything that an error of an injection can say, and when:
* a document of the engine cannot be read: the first message names its path, the second is the reason;
* the language of the engine is not known: nothing more is said;
* an entity of the request cannot be injected: the only message names it with the right reason;
* the resources cannot be loaded: the first message names the engine, the others are those of the loading;
* there is no stemmer although one is needed: the only message gives the usage of stems;
* something goes wrong with the parser of an entity of the request: the first message names it, the second is the reason.
In all cases but the last, nothing has been written. -/
theorem c93_told (msg : MessageEnv) (env : InjectEnv π) (o : HashOrd) (interrupts : Interrupts) (i : Injector) (fs fs' : Fs)
    (messages : List Text) (root : Err) (hn : i.entityValues.keys.Nodup)
    (h : tinject msg env o interrupts i fs = (.err messages root, fs')) :
    (CannotRead msg env fs i.dir messages root ∧ fs' = fs) ∨
    ∃ d, Describes env fs i.dir d ∧
      ((∃ entity ∈ i.entityValues.keys, ¬CanInject env d entity ∧ fs' = fs ∧
        ∃ text, WhyNot env fs i.dir d entity text ∧ messages = ["Entity is not injectable: ".toList ++ text]) ∨
      ((∀ entity ∈ i.entityValues.keys, CanInject env d entity) ∧
        ((fs' = fs ∧ i.sharedStemmer = none ∧ ∃ contexts,
          (tloadEngineSharedResources msg env.load o i.dir fs).1 = .err contexts root ∧
          messages = ("Internal injection error: ".toList ++ "Could not load shared resources from ".toList ++
            msg.quote (pathText i.dir)) :: msg.messages contexts root) ∨
        (fs' = fs ∧ StemmerIs env o fs i none ∧ NeedsStemmer d i ∧
          messages = ["Internal injection error: ".toList ++ "found ".toList ++ usageName d.usage ++
            " parser usage but no stemmer in NLU engine.".toList]) ∨
        ∃ entity ∈ i.entityValues.keys, ∃ p, ParserDir env d entity p ∧ messages.tail = [msg.root root] ∧
          (SaysKept msg messages entity p ∨ SaysDamaged msg messages p)))) := by
  rcases inject_err h with ⟨h1, rfl⟩ | ⟨info, builtin, custom, s, dirs, values, hp, h1⟩
  · rcases prepare_err h1 with h2 | ⟨d, hd, h2⟩
    · exact .inl ⟨h2, rfl⟩
    · refine .inr ⟨d, hd, ?_⟩
      rcases h2 with ⟨entity, he, _, text, hw, hm⟩ | ⟨hall, h2⟩
      · exact .inl ⟨entity, he, whyNot_cannot hd hw, rfl, text, hw, hm⟩
      · rcases h2 with ⟨h3, h4⟩ | ⟨h3, h4, h5⟩
        · exact .inr ⟨hall, .inl ⟨rfl, h3, h4⟩⟩
        · exact .inr ⟨hall, .inr (.inl ⟨rfl, h3, h4, h5⟩)⟩
  · obtain ⟨d, ha⟩ := agreesDesc info builtin custom
    obtain ⟨g1, g2⟩ := hp.dirs_get ha hn
    obtain ⟨v1, _, _⟩ := hp.values_spec
    refine .inr ⟨d, (infos_iff hp.hinfo hp.hbuiltin hp.hcustom d).2 ha, .inr ⟨fun e he => ?_, .inr (.inr ?_)⟩⟩
    · obtain ⟨p, hg⟩ := g1 e he
      exact ⟨p, (g2 e p hg).2⟩
    · obtain ⟨ev, hm, dir, h2, h3, h4⟩ := injectAll_err h1
      exact ⟨ev.1, (g2 _ _ h2).1, dir, (g2 _ _ h2).2, h3, h4⟩

/-- If an entity of the request cannot be injected, the error says so of it or of another such entity, with the right reason and
nothing else. -/
theorem c93_not_injectable (msg : MessageEnv) (env : InjectEnv π) (o : HashOrd) (interrupts : Interrupts) (i : Injector)
    (fs : Fs) (d : EngineDesc) (hd : Describes env fs i.dir d) (hn : i.entityValues.keys.Nodup) (e : Text)
    (he : e ∈ i.entityValues.keys) (hbad : ¬CanInject env d e) :
    ∃ entity ∈ i.entityValues.keys, ¬CanInject env d entity ∧ ∃ text, WhyNot env fs i.dir d entity text ∧
      tinject msg env o interrupts i fs
        = (.err ["Entity is not injectable: ".toList ++ text] (.entityNotInjectable entity), fs) := by
  obtain ⟨e', _, _, h⟩ := c43_not_injectable env o interrupts i fs d hd e he hbad
  have hs := c93_same msg env o interrupts i fs
  rw [h] at hs
  rcases hr : tinject msg env o interrupts i fs with ⟨r, fs'⟩
  rw [hr] at hs
  cases r with
  | ok a => cases hs
  | panic => cases hs
  | err messages root =>
    obtain ⟨hs1, hs2⟩ := Prod.mk.inj hs
    simp only at hs2
    subst fs'
    obtain ⟨info, builtin, custom, h1, h2, h3⟩ := describes_infos hd
    have hu : ∀ d', Describes env fs i.dir d' → d' = d := fun d' hd' => by
      have a := (infos_iff h1 h2 h3 d).1 hd
      have b := (infos_iff h1 h2 h3 d').1 hd'
      obtain ⟨a1, a2, a3, a4, a5⟩ := a
      obtain ⟨b1, b2, b3, b4, b5⟩ := b
      cases d; cases d'
      simp only at *
      subst a1 a2 a3 a4 a5 b1 b2 b3 b4 b5
      rfl
    rcases inject_err hr with ⟨hp, -⟩ | ⟨info', builtin', custom', s, dirs, values, hp, _⟩
    · rcases prepare_err hp with h4 | ⟨d', hd', h4⟩
      · -- reading succeeds
        exfalso
        unfold tprepareInjection at hp
        rcases TLoad.bind_err_cases hp with hp | ⟨info', k1, hp⟩
        · have := congrArg Report.outcome hp
          have k : ((tgetEngineInfo msg env i.dir).forget fs).1 = _ := this
          rw [forget_engineInfo, h1] at k; cases k
        have k1 := forget_ok k1
        rw [forget_engineInfo, h1] at k1
        cases k1
        rcases TLoad.bind_err_cases hp with hp | ⟨builtin', k2, hp⟩
        · have := congrArg Report.outcome hp
          have k : ((tgetBuiltinInfo msg env info.builtinDir).forget fs).1 = _ := this
          rw [forget_builtinInfo, h2] at k; cases k
        have k2 := forget_ok k2
        rw [forget_builtinInfo, h2] at k2
        cases k2
        rcases TLoad.bind_err_cases hp with hp | ⟨custom', k3, hp⟩
        · have := congrArg Report.outcome hp
          have k : ((tgetCustomInfo msg env info.customDir).forget fs).1 = _ := this
          rw [forget_customInfo, h3] at k; cases k
        have k3 := forget_ok k3
        rw [forget_customInfo, h3] at k3
        cases k3
        have hg : ¬∃ dirs, getEntityParsersDirs env o info builtin custom i.entityValues = .ok dirs := by
          rintro ⟨dirs, h5⟩
          obtain ⟨_, h6, _⟩ := mapOutcome_pairs (key := fun e => e) h5
          obtain ⟨p, hp, _⟩ := h6 e ((o.perm 0 _).mem_iff.2 he)
          exact hbad ⟨p, (entityParserDir_ok_iff ((infos_iff h1 h2 h3 d).1 hd) _ _).1 hp⟩
        rcases TLoad.bind_err_cases hp with hp | ⟨dirs, k4, _⟩
        · obtain ⟨entity, _, hp⟩ := TLoad.mapM_err hp
          rcases TLoad.bind_err_cases hp with hp | ⟨_, _, hp⟩
          · obtain ⟨_, text, _, hm⟩ := entityParserDir_why ((infos_iff h1 h2 h3 d).1 hd) (hasGazetteers_iff h1 h2) hp
            subst hm
            rcases h4 with ⟨p, a, b, c, _, ⟨_, _, hm⟩ | ⟨_, _, _, hm⟩⟩ | ⟨_, _, _, hm⟩
            · exact absurd (congrArg List.length hm) (by simp)
            · exact absurd (congrArg List.length hm) (by simp)
            · have := (List.cons.inj hm).1
              rw [show "Entity is not injectable: ".toList = 'E' :: "ntity is not injectable: ".toList from rfl,
                show "Internal injection error: ".toList = 'I' :: "nternal injection error: ".toList from rfl] at this
              exact absurd (List.cons.inj this).1 (by decide)
          · cases hp
        · have k4 := forget_ok k4
          rw [forget_dirs, lift_ok_iff] at k4
          exact hg ⟨dirs, k4⟩
      · obtain rfl := hu d' hd'
        rcases h4 with ⟨entity, hm, hroot, text, hw, hmsg⟩ | ⟨hall, _⟩
        · refine ⟨entity, hm, whyNot_cannot hd hw, text, hw, ?_⟩
          rw [hmsg, hroot]
        · exact absurd (hall e he) hbad
    · exfalso
      obtain ⟨d', ha'⟩ := agreesDesc info' builtin' custom'
      obtain rfl := hu d' ((infos_iff hp.hinfo hp.hbuiltin hp.hcustom d').2 ha')
      obtain ⟨g1, g2⟩ := hp.dirs_get ha' hn
      obtain ⟨p, hg⟩ := g1 e he
      exact hbad ⟨p, (g2 e p hg).2⟩

/-- After a failed injection, the parser of an entity of the request is in its former or in its new state, unless the first
message says of its directory that it could not be removed or not be written. -/
theorem c93_damage (msg : MessageEnv) (env : InjectEnv π) (o : HashOrd) (interrupts : Interrupts) (i : Injector)
    (fs fs' : Fs) (messages : List Text) (root : Err) (d : EngineDesc) (hd : Describes env fs i.dir d)
    (hn : i.entityValues.keys.Nodup) (hsep : SeparateDirs env d i)
    (h : tinject msg env o interrupts i fs = (.err messages root, fs')) (e : Text) (values : List Text)
    (hm : (e, values) ∈ i.entityValues) (p : Path) (hpd : ParserDir env d e p) (hsay : ¬SaysDamaged msg messages p) :
    OldParser fs fs' p ∨
    ∃ s out, StemmerIs env o fs i s ∧ ToInject env d s e values out ∧ NewParser env i.fromVanilla fs fs' p out := by
  rcases inject_err h with ⟨_, rfl⟩ | ⟨info, builtin, custom, s, dirs, vals, hp, h1⟩
  · exact .inl fun _ => rfl
  · have ha := (infos_iff hp.hinfo hp.hbuiltin hp.hcustom d).1 hd
    obtain ⟨g1, g2⟩ := hp.dirs_get ha hn
    obtain ⟨v1, v2, v3⟩ := hp.values_spec
    have hnv : ((o.order 2 vals).map Prod.fst).Nodup := v1.nodup_iff.2 hn
    obtain ⟨out, hv, hmem⟩ := v2 _ hm
    obtain ⟨p', hg⟩ := g1 e (List.mem_map_of_mem hm)
    obtain rfl := parserDir_unique hpd (g2 e p' hg).2
    rcases injectAll_damage (separate_of hsep g2) hnv h1 (e, out) hmem p hg with h2 | h2 | h2
    · exact .inl h2
    · obtain ⟨p'', hg'', hnew⟩ := h2.newParser
      rw [hg] at hg''
      cases hg''
      exact .inr ⟨s, out, injectStemmer_ok.1 hp.hstemmer, injectedValues_ok ha.entities ha.usage ha.words hv, hnew⟩
    · exact absurd h2 hsay

/-- If the resources cannot be loaded behind a path where no file is, the messages of the loading name the path, unless it is
the metadata of the resources or a directory that a dependency loads (as for the loading of an engine, C89). -/
theorem c93_resources (msg : MessageEnv) (env : LoadEnv) (o : HashOrd) (dir : Path) (fs : Fs) (contexts : List Text)
    (root : Err) (before : List Path) (p : Path)
    (h : tloadEngineSharedResources msg env o dir fs = (.err contexts root, before ++ [p])) (hp : NoFile fs p) :
    Mentions (msg.messages contexts root) (msg.quote (pathText p)) ∨ ResourcesMetadataOf env dir fs p ∨
      DependencyDirOf env dir fs p := by
  have hq : Quoting msg (fun p cs => Mentions cs (msg.quote (pathText p)) ∨ ResourcesMetadataOf env dir fs p ∨
      DependencyDirOf env dir fs p) := fun p before after => .inl (mentions_around ..)
  have hb : Blames (fun p cs => Mentions cs (msg.quote (pathText p)) ∨ ResourcesMetadataOf env dir fs p ∨
      DependencyDirOf env dir fs p) fs (tloadEngineSharedResources msg env o dir fs) := by
    refine blames_bind (blames_file fun _ => hq ..) fun m hm => ?_
    have hm' := forget_ok hm
    rw [forget_file, Load.file_ok_iff] at hm'
    refine blames_bind (blames_lift ..) fun lang hl => blames_bind (blames_sharedResources hq _ _ _ _ _
      (fun cs => ?_) (fun cs => ?_) (fun c hc cs => ?_)) fun _ _ => blames_pure ..
    · refine .inr (.inl ⟨m, lang, hm', ?_, rfl⟩)
      have h1 := forget_ok hl
      rwa [forget_lift, Load.lift_ok_iff] at h1
    · exact .inr (.inr ⟨m, hm', .inl rfl⟩)
    · exact .inr (.inr ⟨m, hm', .inr ⟨c, hc, rfl⟩⟩)
  rcases hb.1 contexts root before p h hp with ⟨m, hm, ht⟩ | h1
  · exact .inl ⟨m, List.mem_append_left _ hm, ht⟩
  · exact .inr h1

/-! ### Examples -/

/-- The messages of an injection in the example. -/
def demoInjectTold (fs : Fs) (interrupts : Interrupts) (i : Injector) : Option (List Text) :=
  match (tinject demoMessages demoInjectEnv HashOrd.insertion interrupts i fs).1 with
  | .err messages _ => some messages
  | _ => none

/-- The injection of the example succeeds. -/
example : demoInjectTold demoInjectFs (fun _ => none) demoInjector = none := by decide +kernel

/-- An entity recognized by a grammar; an unknown one. -/
example : demoInjectTold demoInjectFs (fun _ => none) (demoInjector.addValue "number".toList "one".toList)
    = some ["Entity is not injectable: Entity injection is not allowed for grammar entities: 'number'".toList] := by
  decide +kernel

example : demoInjectTold demoInjectFs (fun _ => none) (demoInjector.addValue "x".toList "one".toList)
    = some ["Entity is not injectable: Unknown entity: 'x'".toList] := by decide +kernel

/-- Without the metadata of the builtin entity parser. -/
example : demoInjectTold (without demoInjectFs (demoPath ["builtin", "metadata.json"])) (fun _ => none) demoInjector
    = some ["Internal injection error: could not open builtin entity parser metadata file in \"/m/builtin/metadata.json\"".toList,
        "No such file or directory (os error 2)".toList] := by decide +kernel

/-- An interrupted writing. -/
example : demoInjectTold demoInjectFs (fun n => if n = 1 then some fun _ => none else none) demoInjector
    = some ["Internal injection error: failed to dump gazetteer parser in \"/m/builtin/gaz/p0\"".toList,
        "No such file or directory (os error 2)".toList] := by decide +kernel

end Snips
