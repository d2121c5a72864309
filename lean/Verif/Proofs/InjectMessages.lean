import Verif.Spec.InjectMessages
import Verif.Proofs.Messages
import Verif.Proofs.Injection

/-! Helpers for C93. -/

namespace Snips

variable {α β γ π : Type}

/-! ### Forgetting the messages -/

theorem outcome_created (t : Text) (o : Outcome α) : (Report.created t o).outcome = o := by cases o <;> rfl

theorem outcome_withRoot (msg : MessageEnv) (r : Report α) : (r.withRoot msg).outcome = r.outcome := by cases r <;> rfl

theorem forget_withRoot (msg : MessageEnv) (m : TLoad α) : (m.withRoot msg).forget = m.forget := by
  funext fs; simp only [TLoad.forget, TLoad.withRoot, outcome_withRoot]

theorem forget_report (r : Report α) : (TLoad.report r).forget = Load.lift r.outcome := rfl

theorem forget_injectFile (msg : MessageEnv) (p : Path) (a b : String) (d : List Nat → Outcome α) :
    (injectFile msg p a b d).forget = Load.file p d := by
  unfold injectFile; rw [forget_withRoot, forget_file]

theorem lift_bind (x : Outcome α) (f : α → Outcome β) :
    (Load.lift (x >>= f) : Load β) = Load.lift x >>= fun a => Load.lift (f a) := by
  cases x <;> rfl

theorem mapM_lift (g : α → Outcome β) (l : List α) : Load.mapM (fun a => Load.lift (g a)) l = Load.lift (mapOutcome g l) := by
  induction l with
  | nil => rfl
  | cons a l ih =>
    unfold Load.mapM mapOutcome
    rw [ih]
    cases h1 : g a with
    | err e => rfl
    | panic => rfl
    | ok b =>
      simp only
      cases h2 : mapOutcome g l <;> rfl

section

variable (msg : MessageEnv) (env : InjectEnv π)

theorem forget_engineInfo (dir : Path) : (tgetEngineInfo msg env dir).forget = getEngineInfo env dir := by
  simp only [tgetEngineInfo, getEngineInfo, forget_bind, forget_injectFile, forget_report, outcome_created, forget_pure]

theorem forget_builtinInfo (dir : Path) : (tgetBuiltinInfo msg env dir).forget = getBuiltinInfo env dir := by
  simp only [tgetBuiltinInfo, getBuiltinInfo, forget_bind, forget_injectFile]
  congr 1
  funext m
  cases m <;> simp only [forget_bind, forget_injectFile, forget_pure]

theorem forget_customInfo (dir : Path) : (tgetCustomInfo msg env dir).forget = getCustomInfo env dir := by
  simp only [tgetCustomInfo, getCustomInfo, forget_bind, forget_injectFile, forget_pure]

theorem outcome_entityParserDir (info : EngineInfo) (builtin : Option GazetteerInfo) (custom : CustomInfo) (entity : Text) :
    (tentityParserDir env info builtin custom entity).outcome = entityParserDir env info builtin custom entity := by
  unfold tentityParserDir entityParserDir GazetteerInfo.tdirOf
  split
  · exact outcome_created ..
  · split
    · cases builtin <;> exact outcome_created ..
    · split <;> exact outcome_created ..

theorem forget_dirs (o : HashOrd) (info : EngineInfo) (builtin : Option GazetteerInfo) (custom : CustomInfo)
    (values : Map Text (List Text)) :
    (tgetEntityParsersDirs env o info builtin custom values).forget
      = Load.lift (getEntityParsersDirs env o info builtin custom values) := by
  unfold tgetEntityParsersDirs getEntityParsersDirs
  rw [forget_mapM, ← mapM_lift]
  congr 1
  funext e
  rw [forget_bind, forget_report, outcome_entityParserDir, lift_bind]
  rfl

theorem forget_engineSharedResources (env : LoadEnv) (o : HashOrd) (dir : Path) :
    (tloadEngineSharedResources msg env o dir).forget = loadEngineSharedResources env o dir := by
  simp only [tloadEngineSharedResources, loadEngineSharedResources, forget_bind, forget_file, forget_resourcesOf]

theorem forget_injectStemmer (o : HashOrd) (i : Injector) : (tinjectStemmer msg env o i).forget = injectStemmer env o i := by
  unfold tinjectStemmer injectStemmer
  cases i.sharedStemmer <;>
    simp only [forget_bind, forget_withRoot, forget_context, forget_engineSharedResources, forget_pure]

theorem forget_prepareInjection (o : HashOrd) (i : Injector) :
    (tprepareInjection msg env o i).forget = prepareInjection env o i := by
  simp only [tprepareInjection, prepareInjection, forget_bind, forget_engineInfo, forget_builtinInfo, forget_customInfo,
    forget_dirs, forget_injectStemmer, forget_pure, forget_mapM, forget_report, outcome_created, ← mapM_lift, lift_bind]
  rfl

theorem outcome_injectEntity (interrupts : Interrupts) (fv : Bool) (dirs : Map Text Path) (entity : Text)
    (values : List EntityValue) (n : Nat) (fs : Fs) :
    ((tinjectEntity msg env interrupts fv dirs entity values n fs).1.outcome,
      (tinjectEntity msg env interrupts fv dirs entity values n fs).2)
      = injectEntity env interrupts fv dirs entity values n fs := by
  unfold tinjectEntity injectEntity
  cases dirs.get entity with
  | none => rfl
  | some dir =>
    simp only [updatedParser]
    cases h1 : env.fromFolder (subtree fs dir) with
    | err e => rfl
    | panic => rfl
    | ok parser =>
      show _ = (match env.injectNewValues parser values true fv with
        | .ok parser => replaceParser env interrupts n dir parser fs
        | .err e => (.err e, fs)
        | .panic => (.panic, fs))
      simp only
      cases h2 : env.injectNewValues parser values true fv with
      | err e => rfl
      | panic => rfl
      | ok parser =>
        simp only [replaceParser]
        rcases h3 : removeDirAll interrupts n dir fs with ⟨r, fs1⟩
        cases r with
        | err e => rfl
        | panic => rfl
        | ok u =>
          simp only
          rcases h4 : dumpParser env interrupts (n + 1) dir parser fs1 with ⟨r, fs2⟩
          cases r <;> rfl

theorem outcome_injectAll (interrupts : Interrupts) (fv : Bool) (dirs : Map Text Path)
    (l : List (Text × List EntityValue)) (n : Nat) (fs : Fs) :
    ((tinjectAll msg env interrupts fv dirs l n fs).1.outcome, (tinjectAll msg env interrupts fv dirs l n fs).2)
      = injectAll env interrupts fv dirs l n fs := by
  induction l generalizing n fs with
  | nil => rfl
  | cons ev l ih =>
    have h := outcome_injectEntity msg env interrupts fv dirs ev.1 ev.2 n fs
    unfold tinjectAll injectAll
    rw [← h]
    rcases hr : tinjectEntity msg env interrupts fv dirs ev.1 ev.2 n fs with ⟨r, fs1⟩
    cases r with
    | ok u => exact ih (n + 2) fs1
    | err cs e => rfl
    | panic => rfl

end

/-! ### Errors of the parts -/

theorem TLoad.bind_err_cases {m : TLoad α} {f : α → TLoad β} {fs : Fs} {cs : List Text} {e : Err}
    (h : ((m >>= f) fs).1 = .err cs e) :
    (m fs).1 = .err cs e ∨ ∃ a, (m fs).1 = .ok a ∧ (f a fs).1 = .err cs e := by
  have h' : (TLoad.bind m f fs).1 = .err cs e := h
  unfold TLoad.bind at h'
  rcases hm : m fs with ⟨r, t⟩
  rw [hm] at h'
  cases r with
  | ok a => exact .inr ⟨a, rfl, h'⟩
  | err cs' e' => cases h'; exact .inl rfl
  | panic => cases h'

theorem TLoad.mapM_err {f : α → TLoad β} {l : List α} {fs : Fs} {cs : List Text} {e : Err}
    (h : (TLoad.mapM f l fs).1 = .err cs e) : ∃ a ∈ l, (f a fs).1 = .err cs e := by
  induction l with
  | nil => cases h
  | cons a l ih =>
    rcases TLoad.bind_err_cases h with h | ⟨b, _, h⟩
    · exact ⟨a, List.mem_cons_self .., h⟩
    · rcases TLoad.bind_err_cases h with h | ⟨bs, _, h⟩
      · obtain ⟨x, hx, h⟩ := ih h
        exact ⟨x, List.mem_cons_of_mem _ hx, h⟩
      · cases h

theorem created_err {t : Text} {o : Outcome α} {cs : List Text} {e : Err} (h : Report.created t o = .err cs e) :
    cs = [t] ∧ o = .err e := by
  cases o with
  | ok a => cases h
  | panic => cases h
  | err e' => cases h; exact ⟨rfl, rfl⟩

theorem internal_around (a : String) (x : Text) :
    internalError (around a x "") = "Internal injection error: ".toList ++ a.toList ++ x := by
  unfold internalError around
  rw [show "".toList = [] from rfl, List.append_nil, List.append_assoc]

theorem internal_quoted (a b : String) (x : Text) :
    internalError (around a x b) = "Internal injection error: ".toList ++ a.toList ++ x ++ b.toList := by
  unfold internalError around
  simp only [List.append_assoc]

theorem injectFile_err {msg : MessageEnv} {p : Path} {a b : String} {d : List Nat → Outcome α} {fs : Fs} {cs : List Text}
    {e : Err} (h : (injectFile msg p a b d fs).1 = .err cs e) :
    Unread msg fs p a b (fun bytes e => d bytes = .err e) cs e := by
  unfold injectFile TLoad.withRoot TLoad.file at h
  simp only at h
  split at h
  · rename_i bytes hb
    simp only at h
    cases hd : d bytes with
    | ok x => rw [hd] at h; cases h
    | panic => rw [hd] at h; cases h
    | err e' =>
      rw [hd] at h
      cases h
      refine .inr ⟨bytes, hb, hd, ?_⟩
      rw [← internal_around]
      rfl
  · rename_i hn
    cases h
    refine .inl ⟨hn, rfl, ?_⟩
    rw [← internal_around]
    rfl

theorem tfile_ok {msg : MessageEnv} {p : Path} {a b : String} {d : List Nat → Outcome α} {fs : Fs} {x : α}
    (h : (injectFile msg p a b d fs).1 = .ok x) : Decodes fs p d x := by
  have h1 := forget_ok h
  rw [forget_injectFile] at h1
  exact Load.file_ok_iff.1 h1

section

variable {msg : MessageEnv} {env : InjectEnv π} {fs : Fs} {cs : List Text} {e : Err}

/-- Errors of the reading of the three documents. -/
theorem engineInfo_err {dir : Path} (h : (tgetEngineInfo msg env dir fs).1 = .err cs e) : CannotRead msg env fs dir cs e := by
  unfold tgetEngineInfo at h
  rcases TLoad.bind_err_cases h with h | ⟨m, hm, h⟩
  · exact .inl ⟨_, _, _, _, .engine, injectFile_err h⟩
  · rcases TLoad.bind_err_cases h with h | ⟨t, _, h⟩
    · obtain ⟨rfl, h'⟩ := created_err h
      exact .inr ⟨m, tfile_ok hm, h', rfl⟩
    · cases h

theorem engineInfo_decodes {dir : Path} {info : EngineInfo} (h : (getEngineInfo env dir fs).1 = .ok info) :
    ∃ m, Decodes fs (dir ++ ["nlu_engine.json".toList]) env.load.engine m ∧
      info.builtinDir = joinPath dir m.builtinEntityParser ∧ info.customDir = joinPath dir m.customEntityParser := by
  rw [getEngineInfo, Load.bind_ok_iff] at h
  obtain ⟨m, hm, h⟩ := h
  rw [Load.bind_ok_iff] at h
  obtain ⟨tok, _, h⟩ := h
  have := Load.pure_ok_iff.1 h
  subst this
  exact ⟨m, Load.file_ok_iff.1 hm, rfl, rfl⟩

theorem builtinInfo_err {dir : Path} {info : EngineInfo} (hi : (getEngineInfo env dir fs).1 = .ok info)
    (h : (tgetBuiltinInfo msg env info.builtinDir fs).1 = .err cs e) : CannotRead msg env fs dir cs e := by
  obtain ⟨m, hm, hb, _⟩ := engineInfo_decodes hi
  rw [hb] at h
  unfold tgetBuiltinInfo at h
  rcases TLoad.bind_err_cases h with h | ⟨sub, hs, h⟩
  · exact .inl ⟨_, _, _, _, .builtin m hm, injectFile_err h⟩
  · cases sub with
    | none => cases h
    | some name =>
      rcases TLoad.bind_err_cases h with h | ⟨t, _, h⟩
      · exact .inl ⟨_, _, _, _, .builtinGazetteers m name hm (tfile_ok hs), injectFile_err h⟩
      · cases h

theorem customInfo_err {dir : Path} {info : EngineInfo} (hi : (getEngineInfo env dir fs).1 = .ok info)
    (h : (tgetCustomInfo msg env info.customDir fs).1 = .err cs e) : CannotRead msg env fs dir cs e := by
  obtain ⟨m, hm, _, hb⟩ := engineInfo_decodes hi
  rw [hb] at h
  unfold tgetCustomInfo at h
  rcases TLoad.bind_err_cases h with h | ⟨c, hc, h⟩
  · exact .inl ⟨_, _, _, _, .custom m hm, injectFile_err h⟩
  · rcases TLoad.bind_err_cases h with h | ⟨t, _, h⟩
    · exact .inl ⟨_, _, _, _, .customGazetteers m c hm (tfile_ok hc), injectFile_err h⟩
    · cases h

theorem injectStemmer_err {o : HashOrd} {i : Injector} (h : (tinjectStemmer msg env o i fs).1 = .err cs e) :
    i.sharedStemmer = none ∧ ∃ contexts,
      (tloadEngineSharedResources msg env.load o i.dir fs).1 = .err contexts e ∧
      cs = ("Internal injection error: ".toList ++ "Could not load shared resources from ".toList ++
        msg.quote (pathText i.dir)) :: msg.messages contexts e := by
  unfold tinjectStemmer at h
  cases hs : i.sharedStemmer with
  | some s => rw [hs] at h; cases h
  | none =>
    rw [hs] at h
    simp only at h
    rcases TLoad.bind_err_cases h with h | ⟨m, _, h⟩
    · refine ⟨rfl, ?_⟩
      unfold TLoad.withRoot TLoad.context at h
      simp only at h
      cases hr : (tloadEngineSharedResources msg env.load o i.dir fs).1 with
      | ok a => rw [hr] at h; cases h
      | panic => rw [hr] at h; cases h
      | err cs' e' =>
        rw [hr] at h
        cases h
        refine ⟨cs', rfl, ?_⟩
        rw [← internal_around]; rfl
    · cases h

/-- The engine names a gazetteer parser exactly if the injector has found one. -/
theorem hasGazetteers_iff {dir : Path} {info : EngineInfo} {builtin : Option GazetteerInfo}
    (h1 : (getEngineInfo env dir fs).1 = .ok info) (h2 : (getBuiltinInfo env info.builtinDir fs).1 = .ok builtin) :
    HasGazetteers env fs dir ↔ builtin.isSome = true := by
  rw [getEngineInfo, Load.bind_ok_iff] at h1
  obtain ⟨m, hm, h1⟩ := h1
  rw [Load.bind_ok_iff] at h1
  obtain ⟨tok, htok, h1⟩ := h1
  have hinfo := Load.pure_ok_iff.1 h1
  subst hinfo
  have hm : Decodes fs _ _ m := Load.file_ok_iff.1 hm
  rw [getBuiltinInfo, Load.bind_ok_iff] at h2
  obtain ⟨sub, hsub, h2⟩ := h2
  have hsub : Decodes fs _ _ sub := Load.file_ok_iff.1 hsub
  constructor
  · rintro ⟨m', name, hm', hn⟩
    obtain rfl := decodes_unique hm hm'
    obtain rfl := decodes_unique hsub hn
    simp only at h2
    rw [Load.bind_ok_iff] at h2
    obtain ⟨g, _, h2⟩ := h2
    have := Load.pure_ok_iff.1 h2
    subst this
    rfl
  · intro hb
    cases sub with
    | none =>
      have := Load.pure_ok_iff.1 h2
      subst this
      cases hb
    | some name => exact ⟨m, name, hm, hsub⟩

theorem dirOf_none {g : GazetteerInfo} {entity : Text} (h : g.dirOf entity = .err e) :
    (g.parsers.map fun p => (p.1, joinPath g.dir p.2)).lookup entity = none ∧ e = .entityNotInjectable entity := by
  rcases dirOf_err g entity with ⟨p, hp⟩ | hp
  · rw [hp] at h; cases h
  · rw [hp] at h
    refine ⟨?_, by cases h; rfl⟩
    cases hl : (g.parsers.map fun p => (p.1, joinPath g.dir p.2)).lookup entity with
    | none => rfl
    | some p => rw [← dirOf_ok_iff] at hl; rw [hl] at hp; cases hp

/-- The reason given is the right one. -/
theorem entityParserDir_why {dir : Path} {d : EngineDesc} {info : EngineInfo} {builtin : Option GazetteerInfo}
    {custom : CustomInfo} {entity : Text} (ha : Agrees d info builtin custom)
    (hg : HasGazetteers env fs dir ↔ builtin.isSome = true)
    (h : tentityParserDir env info builtin custom entity = .err cs e) :
    e = .entityNotInjectable entity ∧
      ∃ text, WhyNot env fs dir d entity text ∧ cs = ["Entity is not injectable: ".toList ++ text] := by
  unfold tentityParserDir GazetteerInfo.tdirOf at h
  by_cases hc : entity ∈ info.customEntities
  · rw [if_pos (by simpa using hc)] at h
    obtain ⟨rfl, h'⟩ := created_err h
    obtain ⟨hl, he⟩ := dirOf_none h'
    exact ⟨he, _, .custom (ha.entities ▸ hc) (ha.customParsers ▸ hl), rfl⟩
  · rw [if_neg (by simpa using hc)] at h
    have hc' : entity ∉ d.customEntities := ha.entities ▸ hc
    cases hk : env.isGazetteerKind entity with
    | true =>
      rw [hk, if_pos rfl] at h
      cases builtin with
      | some g =>
        obtain ⟨rfl, h'⟩ := created_err h
        obtain ⟨hl, he⟩ := dirOf_none h'
        exact ⟨he, _, .builtin hc' hk (hg.2 rfl) (ha.builtinParsers ▸ hl), rfl⟩
      | none =>
        obtain ⟨rfl, h'⟩ := created_err h
        cases h'
        exact ⟨rfl, _, .noGazetteers hc' hk (fun hh => by cases hg.1 hh), rfl⟩
    | false =>
      rw [hk, if_neg (by simp)] at h
      cases hr : env.isGrammarKind entity with
      | true =>
        rw [hr, if_pos rfl] at h
        obtain ⟨rfl, h'⟩ := created_err h
        cases h'
        exact ⟨rfl, _, .grammar hc' hk hr, rfl⟩
      | false =>
        rw [hr, if_neg (by simp)] at h
        obtain ⟨rfl, h'⟩ := created_err h
        cases h'
        exact ⟨rfl, _, .unknown hc' hk hr, rfl⟩

/-- A reason is only given for an entity that cannot be injected. -/
theorem whyNot_cannot {dir : Path} {d : EngineDesc} {entity text : Text} (hd : Describes env fs dir d)
    (h : WhyNot env fs dir d entity text) : ¬CanInject env d entity := by
  rintro ⟨p, ⟨hc, hl⟩ | ⟨hc, hk, hl⟩⟩
  · cases h with
    | custom _ hl' => rw [hl] at hl'; cases hl'
    | builtin h | noGazetteers h | grammar h | unknown h => exact h hc
  · cases h with
    | custom h => exact hc h
    | builtin _ _ _ hl' => rw [hl] at hl'; cases hl'
    | grammar _ hk' | unknown _ hk' => rw [hk] at hk'; cases hk'
    | noGazetteers _ _ hg =>
      obtain ⟨m, hm, _, _, ⟨sub, hsub, hb⟩, _⟩ := hd
      rcases hb with ⟨_, hb⟩ | ⟨name, rfl, _⟩
      · rw [hb] at hl; cases hl
      · exact hg ⟨m, name, hm, hsub⟩

end

/-! ### The loop -/

section

variable {msg : MessageEnv} {env : InjectEnv π} {interrupts : Interrupts} {fv : Bool} {dirs : Map Text Path}

/-- An error of the body of the loop. -/
theorem injectEntity_err {entity : Text} {values : List EntityValue} {n : Nat} {fs fs' : Fs} {cs : List Text} {e : Err}
    (h : tinjectEntity msg env interrupts fv dirs entity values n fs = (.err cs e, fs')) :
    ∃ dir, dirs.get entity = some dir ∧ cs.tail = [msg.root e] ∧
      ((fs' = fs ∧ SaysKept msg cs entity dir) ∨ SaysDamaged msg cs dir) := by
  unfold tinjectEntity at h
  cases hd : dirs.get entity with
  | none => rw [hd] at h; cases h
  | some dir =>
    refine ⟨dir, rfl, ?_⟩
    rw [hd] at h
    simp only at h
    split at h
    · cases h
    · cases h; exact ⟨rfl, .inl ⟨rfl, .inl (congrArg some (internal_around ..))⟩⟩
    · split at h
      · cases h
      · cases h; exact ⟨rfl, .inl ⟨rfl, .inr (congrArg some (internal_quoted ..))⟩⟩
      · split at h
        · cases h
        · cases h; exact ⟨rfl, .inr (.inl (congrArg some (internal_around ..)))⟩
        · split at h
          · cases h
          · cases h; exact ⟨rfl, .inr (.inr (congrArg some (internal_around ..)))⟩
          · cases h

/-- An error of the loop is that of one of its entities. -/
theorem injectAll_err {l : List (Text × List EntityValue)} {n : Nat} {fs fs' : Fs} {cs : List Text} {e : Err}
    (h : tinjectAll msg env interrupts fv dirs l n fs = (.err cs e, fs')) :
    ∃ ev ∈ l, ∃ dir, dirs.get ev.1 = some dir ∧ cs.tail = [msg.root e] ∧
      (SaysKept msg cs ev.1 dir ∨ SaysDamaged msg cs dir) := by
  induction l generalizing n fs with
  | nil => cases h
  | cons ev l ih =>
    unfold tinjectAll at h
    rcases hr : tinjectEntity msg env interrupts fv dirs ev.1 ev.2 n fs with ⟨r, fs1⟩
    rw [hr] at h
    cases r with
    | panic => cases h
    | err cs' e' =>
      cases h
      obtain ⟨dir, h1, h2, h3⟩ := injectEntity_err hr
      exact ⟨ev, List.mem_cons_self .., dir, h1, h2, h3.imp And.right id⟩
    | ok u =>
      obtain ⟨ev', hm, rest⟩ := ih h
      exact ⟨ev', List.mem_cons_of_mem _ hm, rest⟩

/-- The parsers of the loop are in their former or in their new state, except the one that the message says to be
damaged. -/
theorem injectAll_damage (hs : Separate dirs) {l : List (Text × List EntityValue)} (hl : (l.map Prod.fst).Nodup) {n : Nat}
    {fs fs' : Fs} {cs : List Text} {e : Err} (h : tinjectAll msg env interrupts fv dirs l n fs = (.err cs e, fs')) :
    ∀ ev ∈ l, ∀ d, dirs.get ev.1 = some d → OldParser fs fs' d ∨ Rewritten env fv dirs fs fs' ev ∨ SaysDamaged msg cs d := by
  induction l generalizing n fs with
  | nil => cases h
  | cons ev l ih =>
    rw [List.map_cons, List.nodup_cons] at hl
    have hother : ∀ ev' ∈ l, ev'.1 ≠ ev.1 := fun ev' h' he => hl.1 (he ▸ List.mem_map_of_mem h')
    have hall := outcome_injectEntity msg env interrupts fv dirs ev.1 ev.2 n fs
    unfold tinjectAll at h
    rcases hr : tinjectEntity msg env interrupts fv dirs ev.1 ev.2 n fs with ⟨r, fs1⟩
    rw [hr] at h hall
    -- what the body does
    have hbody : ∃ dir, dirs.get ev.1 = some dir ∧ (∀ q, ¬resolve dir <+: q → fs1 q = fs q) ∧
        (r = .ok () → Rewritten env fv dirs fs fs1 ev) := by
      unfold injectEntity at hall
      cases hd : dirs.get ev.1 with
      | none => rw [hd] at hall; cases r <;> cases hall; cases h
      | some dir =>
        rw [hd] at hall
        simp only at hall
        refine ⟨dir, rfl, ?_⟩
        cases hu : updatedParser env fv ev.2 dir fs with
        | err e' => rw [hu] at hall; cases r <;> cases hall; exact ⟨fun _ _ => rfl, fun h => (nomatch h)⟩
        | panic => rw [hu] at hall; cases r <;> cases hall; exact ⟨fun _ _ => rfl, fun h => (nomatch h)⟩
        | ok parser =>
          rw [hu] at hall
          simp only at hall
          obtain ⟨r1, r2, _⟩ := replaceParser_effect env interrupts n dir parser fs
          rw [← hall] at r1 r2
          refine ⟨r1, fun hok => ?_⟩
          subst hok
          exact ⟨dir, parser, hd, hu, r2 rfl⟩
    obtain ⟨dir, hd, hout, hok⟩ := hbody
    have hold : ∀ ev' ∈ l, ∀ d', dirs.get ev'.1 = some d' → OldParser fs fs1 d' := fun ev' h' d' hd' q =>
      hout _ (separate_inside hs (hother ev' h') hd' hd q)
    cases r with
    | panic => cases h
    | err cs' e' =>
      cases h
      intro ev' hm d' hd'
      rcases List.mem_cons.1 hm with rfl | hm
      · rw [hd] at hd'
        cases hd'
        obtain ⟨dir', h1, _, h3⟩ := injectEntity_err hr
        rw [hd] at h1
        cases h1
        rcases h3 with ⟨rfl, _⟩ | h3
        · exact .inl fun _ => rfl
        · exact .inr (.inr h3)
      · exact .inl (hold ev' hm d' hd')
    | ok u =>
      have hrest := ih hl.2 h
      have hsame := outcome_injectAll msg env interrupts fv dirs l (n + 2) fs1
      simp only at h
      rw [h] at hsame
      obtain ⟨done, rest, e1, _, _, e4, _⟩ := injectAll_effect env interrupts fv dirs hs l hl.2 (n + 2) fs1
      rw [← hsame] at e4
      have hmem : ∀ ev' ∈ done ++ rest.take 1, ev' ∈ l := by
        intro ev' h'
        rw [e1]
        rcases List.mem_append.1 h' with h' | h'
        · exact List.mem_append_left _ h'
        · exact List.mem_append_right _ (List.mem_of_mem_take h')
      intro ev' hm d' hd'
      rcases List.mem_cons.1 hm with rfl | hm
      · obtain ⟨d1, parser, g1, g2, g3⟩ := hok rfl
        refine .inr (.inl ⟨d1, parser, g1, g2, fun q => ?_⟩)
        rw [← g3 q]
        exact e4 _ fun ev'' h'' d'' hd'' =>
          separate_inside hs (fun hh => hother ev'' (hmem _ h'') hh.symm) g1 hd'' q
      · have ho := hold ev' hm d' hd'
        rcases hrest ev' hm d' hd' with h1 | ⟨d1, parser, g1, g2, g3⟩ | h1
        · exact .inl fun q => (h1 q).trans (ho q)
        · rw [hd'] at g1
          cases g1
          exact .inr (.inl ⟨d', parser, hd', by rw [← g2]; exact (updatedParser_congr ho).symm, g3⟩)
        · exact .inr (.inr h1)

end

end Snips
