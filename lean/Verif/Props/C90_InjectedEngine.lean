import Verif.Proofs.InjectedEngine
import Verif.Spec.InjectionDemo

/-! # C90: an engine loaded after an injection is the former engine with the values injected in its entity parsers -/

namespace Snips

variable {π : Type}

/-- After a successful injection, the engine loaded from the directory is the one loaded before, in which the parsers of the
requested entities, custom and builtin, have had the requested values injected; dataset, intent parsers, resources and the
parsers of other entities are the same. -/
theorem c90_injected (env : InjectEnv π) (C : Composed env) (o o' : HashOrd) (interrupts : Interrupts) (i : Injector)
    (fs fs' : Fs) (d : EngineDesc) (e : LoadedEngine) (bytes : List Nat) (builtin custom : List (Text × π))
    (hd : Describes env fs i.dir d) (hn : i.entityValues.keys.Nodup) (hown : OwnDirs env o' fs i.dir d)
    (hload : (loadEngine env.load o' i.dir fs).1 = .ok e) (hparsers : EntityParsers env fs i.dir bytes builtin custom)
    (h : i.inject env o interrupts fs = (.ok (), fs')) :
    ∃ s builtin' custom', StemmerIs env o fs i s ∧
      List.Forall₂ (AfterInjection env d s i fun entity => entity ∉ d.customEntities ∧ env.isGazetteerKind entity = true)
        builtin builtin' ∧
      List.Forall₂ (AfterInjection env d s i fun entity => entity ∈ d.customEntities) custom custom' ∧
      EntityParsers env fs' i.dir bytes builtin' custom' ∧ Describes env fs' i.dir d ∧ OwnDirs env o' fs' i.dir d ∧
      (loadEngine env.load o' i.dir fs').1 =
        .ok ⟨e.dataset, e.parsers, ⟨e.ext.lower, e.ext.tokenize, C.builtin bytes builtin', C.custom custom'⟩⟩ := by
  have hsep : ∀ d', Describes env fs i.dir d' → SeparateDirs env d' i := by
    intro d' hd'
    obtain rfl := describes_unique hd hd'
    intro e1 _ e2 _ hne p1 p2 h1 h2
    exact (pairwise_apart hown.apart (parserDir_mem h1) (parserDir_mem h2) fun h => hne (Prod.mk.inj h).1).1
  obtain ⟨d', s, hd', hs, hnew, hkeep⟩ := c44_success env o interrupts i fs fs' hn hsep h
  obtain rfl := describes_unique hd hd'
  have hin : ∀ q, ¬ InParserDir d q → ∀ e ∈ i.entityValues.keys, ∀ p, ParserDir env d e p → ¬ resolve p <+: q :=
    fun q hq e _ p hp hpre => hq ⟨(e, p), parserDir_mem hp, hpre⟩
  have hout : ∀ q, ¬ InParserDir d q → fs' q = fs q := fun q hq => hkeep q (hin q hq)
  have hfile : ∀ {α : Type} {p : Path} {dec : List Nat → Outcome α} {a : α}, ¬ InParserDir d (resolve p) →
      (Decodes fs p dec a → Decodes fs' p dec a) := by
    rintro α p dec a hp ⟨b, hb, hdec⟩
    exact ⟨b, (hout _ hp).trans hb, hdec⟩
  obtain ⟨m, c, hm, hb, hc, hg⟩ := hparsers
  obtain ⟨m', hm', hlang, hents, ⟨sub, hsub, hbl⟩, c', hc', husage, hcl⟩ := id hd
  obtain rfl := decodes_unique hm hm'
  obtain rfl := decodes_unique hc hc'
  obtain ⟨own1, own2, own3⟩ := hown.gazetteers m hm
  have hpw := List.pairwise_append.1 hown.apart
  -- custom parsers
  obtain ⟨custom', hca, hcr⟩ := readsParsers_after (s := s) (mine := fun entity => entity ∈ d.customEntities) C.read_back
    hnew hkeep (hin _ (own1 c hc)) (fun x hx _ hmine => .inl ⟨hmine, lookup_nodup hown.custom hx⟩)
    (fun x hx hno e1 he1 p1 hp1 => by
      rcases id hp1 with ⟨h1, h2⟩ | ⟨_, _, h2⟩
      · refine pairwise_apart hpw.1 hx (mem_of_lookup h2) fun heq => hno ?_
        rw [heq]; exact ⟨he1, h1⟩
      · exact hpw.2.2 x hx _ (mem_of_lookup h2)) hcl hg
  -- builtin parsers
  obtain ⟨hb1, hb2⟩ := hb
  have hbmeta : FileAt fs (joinPath i.dir m.builtinEntityParser ++ ["metadata.json".toList]) bytes := by
    unfold FileAt; rw [resolve_metadata]; exact hb1
  have hsubeq : env.builtinMeta bytes = .ok sub := by
    obtain ⟨b', hb', hdec⟩ := hsub
    unfold FileAt at hb' hbmeta
    rw [hbmeta] at hb'
    cases hb'
    exact hdec
  have hbuiltin : ∃ builtin', List.Forall₂ (AfterInjection env d s i
      fun entity => entity ∉ d.customEntities ∧ env.isGazetteerKind entity = true) builtin builtin' ∧
      ReadsBuiltin env (fun q => fs' (resolve (joinPath i.dir m.builtinEntityParser) ++ q)) bytes builtin' := by
    rcases hb2 with ⟨h0, rfl⟩ | ⟨name, hname, hrel, hread⟩
    · exact ⟨[], .nil, (hout _ own2).trans hb1, .inl ⟨h0, rfl⟩⟩
    · have hpath : ∀ f : Fs, (fun q => (fun q => f (resolve (joinPath i.dir m.builtinEntityParser) ++ q))
          (pathComponents name ++ q)) = fun q => f (resolve (joinPath (joinPath i.dir m.builtinEntityParser) name) ++ q) := by
        intro f; funext q; simp only [resolve_join _ hrel, List.append_assoc]
      rw [hpath] at hread
      rw [hname] at hsubeq
      cases hsubeq
      rcases hbl with ⟨h0, _⟩ | ⟨name', h0, hlists⟩
      · cases h0
      cases h0
      obtain ⟨builtin', h1, h2⟩ := readsParsers_after (s := s)
        (mine := fun entity => entity ∉ d.customEntities ∧ env.isGazetteerKind entity = true) C.read_back
        hnew hkeep (hin _ (own3 bytes name hbmeta hname))
        (fun x hx _ hmine => .inr ⟨hmine.1, hmine.2, lookup_nodup hown.builtin hx⟩)
        (fun x hx hno e1 he1 p1 hp1 => by
          rcases id hp1 with ⟨_, h2⟩ | ⟨h1, h1', h2⟩
          · exact apart_symm (hpw.2.2 _ (mem_of_lookup h2) x hx)
          · refine pairwise_apart hpw.2.1 hx (mem_of_lookup h2) fun heq => hno ?_
            rw [heq]; exact ⟨he1, h1, h1'⟩) hlists hread
      exact ⟨builtin', h1, (hout _ own2).trans hb1, .inr ⟨name, hname, hrel, by rw [hpath]; exact h2⟩⟩
  obtain ⟨builtin', hba, hbr⟩ := hbuiltin
  obtain ⟨t1, t2⟩ := trace_engine hload hm
  have hm2 := hfile (hown.loaded _ t1) hm
  have hc2 := hfile (hown.loaded _ t2) hc
  have hgives := gives_engine (env := env.load) (o := o') (dir := i.dir) (fs := fs) (fs' := fs')
    (b := C.builtin bytes builtin') (g := C.custom custom')
    (fun m1 h1 => by obtain rfl := decodes_unique hm h1; exact C.builtin_reads _ _ _ hbr)
    (fun m1 c1 h1 h2 => by
      obtain rfl := decodes_unique hm h1
      obtain rfl := decodes_unique hc h2
      exact C.custom_reads _ _ hcr)
  obtain ⟨e', he', rfl⟩ := hgives e hload fun p hp => hout _ (hown.loaded p hp)
  refine ⟨s, builtin', custom', hs, hba, hca, ⟨m, c, hm2, hbr, hc2, hcr⟩, ?_, ?_, congrArg Prod.fst he'⟩
  · refine ⟨m, hm2, hlang, hents, ⟨sub, hfile (by rw [resolve_metadata]; exact own2) hsub, ?_⟩, c, hc2, husage, ?_⟩
    · rcases hbl with h0 | ⟨name, rfl, g, hg1, hg2⟩
      · exact .inl h0
      · exact .inr ⟨name, rfl, g, hfile (by rw [resolve_metadata]; exact own3 bytes name hbmeta hsubeq) hg1, hg2⟩
    · obtain ⟨g, hg1, hg2⟩ := hcl
      exact ⟨g, hfile (by rw [resolve_metadata]; exact own1 c hc) hg1, hg2⟩
  · refine ⟨hown.apart, hown.custom, hown.builtin, fun p hp => hown.loaded p (by rw [he'] at hp; exact hp), fun m2 h2 => ?_⟩
    obtain rfl := decodes_unique hm2 h2
    refine ⟨fun c2 h2 => ?_, own2, fun bytes2 name hb2 hname => own3 bytes2 name ?_ hname⟩
    · obtain rfl := decodes_unique hc2 h2
      exact own1 c hc
    · unfold FileAt at hb2 ⊢
      rw [← hb2, hout]
      rw [resolve_metadata]
      exact own2

/-- The engine before the injection has the parsers that were in its directories. -/
theorem c90_before (env : InjectEnv π) (C : Composed env) (o : HashOrd) (dir : Path) (fs : Fs) (e : LoadedEngine)
    (bytes : List Nat) (builtin custom : List (Text × π)) (hload : (loadEngine env.load o dir fs).1 = .ok e)
    (hparsers : EntityParsers env fs dir bytes builtin custom) :
    e.ext.builtinRaw = C.builtin bytes builtin ∧ e.ext.gazetteer = C.custom custom := by
  obtain ⟨m, c, hm, hb, hc, hg⟩ := hparsers
  have hgives := gives_engine (env := env.load) (o := o) (dir := dir) (fs := fs) (fs' := fs)
    (b := C.builtin bytes builtin) (g := C.custom custom)
    (fun m1 h1 => by obtain rfl := decodes_unique hm h1; exact C.builtin_reads _ _ _ hb)
    (fun m1 c1 h1 h2 => by
      obtain rfl := decodes_unique hm h1
      obtain rfl := decodes_unique hc h2
      exact C.custom_reads _ _ hg)
  obtain ⟨e', he', he⟩ := hgives e hload fun _ _ => rfl
  have he' := (congrArg Prod.fst he').symm.trans hload
  cases he'
  exact ⟨congrArg (fun e => e.ext.builtinRaw) he, congrArg (fun e => e.ext.gazetteer) he⟩

/-! ### Example -/

/-- The parsers listed in a directory. -/
def readParsers (env : InjectEnv π) (sub : Fs) : Outcome (List (Text × π)) :=
  match sub ["metadata.json".toList] with
  | some (.file bytes) => do
    let g ← env.gazetteerMeta bytes
    mapOutcome (fun n : Text × Text => do
      let p ← env.fromFolder (fun q => sub (pathComponents n.2 ++ q))
      .ok (n.1, p)) g.parsers
  | _ => .err (.external 320)

/-- The builtin parser in a directory. -/
def readBuiltin (env : InjectEnv π) (sub : Fs) : Outcome (List (Text × π)) :=
  match sub ["metadata.json".toList] with
  | some (.file bytes) => do
    match ← env.builtinMeta bytes with
    | none => .ok []
    | some name => readParsers env fun q => sub (pathComponents name ++ q)
  | _ => .err (.external 320)

theorem readParsers_of {env : InjectEnv π} {sub : Fs} {ps : List (Text × π)} (h : ReadsParsers env sub ps) :
    readParsers env sub = .ok ps := by
  obtain ⟨bytes, g, hb, hg, hf⟩ := h
  have key : ∀ (ns : List (Text × Text)) (qs : List (Text × π)),
      List.Forall₂ (fun (n : Text × Text) (p : Text × π) => RelativeName n.2 ∧ p.1 = n.1 ∧
        env.fromFolder (fun q => sub (pathComponents n.2 ++ q)) = .ok p.2) ns qs →
      mapOutcome (fun n : Text × Text => do
        let p ← env.fromFolder (fun q => sub (pathComponents n.2 ++ q))
        Outcome.ok (n.1, p)) ns = .ok qs := by
    intro ns qs h
    induction h with
    | nil => rfl
    | @cons n p ns qs hp _ ih =>
      unfold mapOutcome
      rw [ih, hp.2.2, ← hp.2.1]
      rfl
  unfold readParsers
  rw [hb]
  simp only
  rw [hg]
  exact key _ _ hf

/-- The library of the examples, which finds every entity in any text, in a range as long as its parser is large. -/
def demoComposedEnv : InjectEnv Nat :=
  { demoInjectEnv with
    load := { demoLoadEnv with
      gazetteerParser := fun sub => do
        let ps ← readParsers demoInjectEnv sub
        .ok fun text _ _ => .ok (ps.map fun p => ⟨text, text, [], ⟨0, p.2⟩, p.1⟩)
      builtinParser := fun sub => do
        let ps ← readBuiltin demoInjectEnv sub
        .ok fun _ _ _ _ => .ok (ps.map fun p => ⟨p.1, ⟨0, p.2⟩, .builtin p.2, [], 0⟩) } }

/-- It loads directories as the injector supposes. -/
def demoComposed : Composed demoComposedEnv where
  custom ps := fun text _ _ => .ok (ps.map fun p => ⟨text, text, [], ⟨0, p.2⟩, p.1⟩)
  builtin _ ps := fun _ _ _ _ => .ok (ps.map fun p => ⟨p.1, ⟨0, p.2⟩, .builtin p.2, [], 0⟩)
  custom_reads sub ps h := by
    show (do
      let ps ← readParsers demoInjectEnv sub
      Outcome.ok _) = _
    rw [readParsers_of (env := demoInjectEnv) h]
    rfl
  builtin_reads sub bytes ps h := by
    have hr : readBuiltin demoInjectEnv sub = .ok ps := by
      obtain ⟨h1, h2⟩ := h
      unfold readBuiltin
      rw [h1]
      simp only
      rcases h2 with ⟨h2, rfl⟩ | ⟨name, h2, _, h3⟩
      · rw [show demoInjectEnv.builtinMeta bytes = _ from h2]; rfl
      · rw [show demoInjectEnv.builtinMeta bytes = _ from h2]
        exact readParsers_of (env := demoInjectEnv) (sub := fun q => sub (pathComponents name ++ q)) h3
    show (do
      let ps ← readBuiltin demoInjectEnv sub
      Outcome.ok _) = _
    rw [hr]
    rfl
  read_back p := rfl

theorem demo_composed_describes : Describes demoComposedEnv demoInjectFs demoInjector.dir demoDesc := by
  refine ⟨_, ⟨[1], by unfold FileAt; decide +kernel, rfl⟩, rfl, rfl, ⟨_, ⟨[30], by unfold FileAt; decide +kernel, rfl⟩, .inr
    ⟨_, rfl, _, ⟨[31], by unfold FileAt; decide +kernel, rfl⟩, rfl⟩⟩, ⟨_, ⟨[11], by unfold FileAt; decide +kernel, rfl⟩,
    rfl, _, ⟨[32], by unfold FileAt; decide +kernel, rfl⟩, rfl⟩⟩

instance (d : EngineDesc) (q : Path) : Decidable (InParserDir d q) := by unfold InParserDir; infer_instance

instance : DecidableRel Apart := fun a b => by unfold Apart; infer_instance

theorem demo_own : OwnDirs demoComposedEnv HashOrd.insertion demoInjectFs demoInjector.dir demoDesc where
  apart := by decide +kernel
  custom := by decide
  builtin := by decide
  loaded := by decide +kernel
  gazetteers m hm := by
    obtain rfl := decodes_unique hm ⟨[1], by unfold FileAt; decide +kernel, rfl⟩
    refine ⟨fun c hc => ?_, by decide +kernel, fun bytes name hb hname => ?_⟩
    · obtain rfl := decodes_unique hc ⟨[11], by unfold FileAt; decide +kernel, rfl⟩
      decide +kernel
    · have : bytes = [30] := by
        unfold FileAt at hb
        have h : demoInjectFs (resolve (demoInjector.dir ++ ["builtin".toList, "metadata.json".toList])) = some (.file [30]) := by
          decide +kernel
        exact (Node.file.inj (Option.some.inj (h.symm.trans hb))).symm
      subst this
      cases hname
      decide +kernel

theorem demo_entityParsers : EntityParsers demoComposedEnv demoInjectFs demoInjector.dir [30] [("artist".toList, 5)]
    [("drink".toList, 7)] := by
  have hrel : ∀ t : Text, t.head? ≠ some '/' → ['.', '.'] ∉ splitSlash t → RelativeName t := fun _ h1 h2 => ⟨h1, h2⟩
  refine ⟨_, _, ⟨[1], by unfold FileAt; decide +kernel, rfl⟩, ⟨by decide +kernel, .inr ⟨_, rfl, hrel _ (by decide) (by decide),
    [31], _, by decide +kernel, rfl, .cons ⟨hrel _ (by decide) (by decide), rfl, by decide +kernel⟩ .nil⟩⟩,
    ⟨[11], by unfold FileAt; decide +kernel, rfl⟩, [32], _, by decide +kernel, rfl,
    .cons ⟨hrel _ (by decide) (by decide), rfl, by decide +kernel⟩ .nil⟩

theorem demo_composed_loads :
    ∃ e, (loadEngine demoComposedEnv.load HashOrd.insertion demoInjector.dir demoInjectFs).1 = .ok e := by
  have h : ((loadEngine demoComposedEnv.load HashOrd.insertion ["m".toList] demoInjectFs).1.map fun _ => ()) = .ok () := by
    decide +kernel
  cases he : (loadEngine demoComposedEnv.load HashOrd.insertion ["m".toList] demoInjectFs).1 with
  | ok e => exact ⟨e, he⟩
  | err x => rw [he] at h; cases h
  | panic => rw [he] at h; cases h

/-- The hypotheses can be met: the engine of the example before and after the injection of two drinks. -/
example : ∃ e fs' e', (loadEngine demoComposedEnv.load HashOrd.insertion demoInjector.dir demoInjectFs).1 = .ok e ∧
    e.ext.gazetteer [] none 0 = .ok [⟨[], [], [], ⟨0, 7⟩, "drink".toList⟩] ∧
    demoInjector.inject demoComposedEnv HashOrd.insertion (fun _ => none) demoInjectFs = (.ok (), fs') ∧
    (loadEngine demoComposedEnv.load HashOrd.insertion demoInjector.dir fs').1 = .ok e' ∧
    e'.ext.gazetteer [] none 0 = .ok [⟨[], [], [], ⟨0, 9⟩, "drink".toList⟩] ∧ e'.parsers = e.parsers := by
  obtain ⟨e, he⟩ := demo_composed_loads
  have h2 : (demoInjector.inject demoComposedEnv HashOrd.insertion (fun _ => none) demoInjectFs).1 = .ok () := by
    decide +kernel
  have hi := Prod.ext (x := demoInjector.inject demoComposedEnv HashOrd.insertion (fun _ => none) demoInjectFs)
    (y := (.ok (), (demoInjector.inject demoComposedEnv HashOrd.insertion (fun _ => none) demoInjectFs).2)) h2 rfl
  obtain ⟨s, builtin', custom', _, _, hc, _, _, _, he'⟩ := c90_injected demoComposedEnv demoComposed HashOrd.insertion
    HashOrd.insertion (fun _ => none) demoInjector demoInjectFs _ demoDesc e [30] _ _ demo_composed_describes (by decide)
    demo_own he demo_entityParsers hi
  refine ⟨e, _, _, he, ?_, hi, he', ?_, rfl⟩
  · rw [(c90_before demoComposedEnv demoComposed _ _ _ e [30] _ _ he demo_entityParsers).2]; rfl
  match custom', hc with
  | [b], .cons hb .nil =>
    obtain ⟨hb1, ⟨values, out, hv, _, hto, hin⟩ | ⟨hno, _⟩⟩ := hb
    · have hvals : values = ["green tea".toList, "mate".toList] := by
        have : demoInjector.entityValues
            = [("artist".toList, ["Abba".toList]), ("drink".toList, ["green tea".toList, "mate".toList])] := by decide
        rw [this] at hv
        rcases List.mem_cons.1 hv with h | h
        · exact absurd (Prod.mk.inj h).1 (by decide)
        · exact (Prod.mk.inj (List.mem_singleton.1 h)).2
      subst hvals
      unfold ToInject at hto
      rw [if_pos (by decide)] at hto
      obtain ⟨_, hsub, hall⟩ := hto
      have hlen : out.length = 2 := by
        refine Nat.le_antisymm hsub.length_le ?_
        refine List.Nodup.length_le_of_subset (l₁ := [plainForm demoComposedEnv "green tea".toList,
          plainForm demoComposedEnv "mate".toList]) ?_ ?_
        · decide
        · intro x hx
          rcases List.mem_cons.1 hx with rfl | hx
          · exact hall _ (by decide)
          · rw [List.mem_singleton.1 hx]; exact hall _ (by decide)
      have hb2 : b.2 = 9 := by
        have hin' : (if out.length > 3 then Outcome.err (.external 313) else Outcome.ok (7 + out.length)) = .ok b.2 := hin
        rw [hlen] at hin'
        exact (Outcome.ok.inj hin').symm
      obtain ⟨n, k⟩ := b
      simp only at hb1 hb2
      subst hb1 hb2
      rfl
    · exact absurd ⟨by decide, by decide⟩ hno

end Snips
