import Verif.Proofs.Injections

/-! # C91: injections one after another -/

namespace Snips

variable {π : Type}

/-- **C91**: after any number of successful injections, the engine is the one of the trained model with all values injected,
request by request; stems are those of the model as it was before the first injection. -/
theorem c91_chain (env : InjectEnv π) (C : Composed env) (o o' : HashOrd) (is : List (Injector × Interrupts)) (dir : Path)
    (fs fs' : Fs) (d : EngineDesc) (e : LoadedEngine) (bytes : List Nat) (builtin custom : List (Text × π))
    (hdir : ∀ i ∈ is, i.1.dir = dir) (hn : ∀ i ∈ is, i.1.entityValues.keys.Nodup)
    (hd : Describes env fs dir d) (hown : OwnDirs env o' fs dir d)
    (hload : (loadEngine env.load o' dir fs).1 = .ok e) (hparsers : EntityParsers env fs dir bytes builtin custom)
    (h : InTurn env o is fs fs') :
    ∃ ss builtin' custom', List.Forall₂ (fun i s => StemmerIs env o fs i.1 s) is ss ∧
      List.Forall₂ (AfterInjections env d (fun entity => entity ∉ d.customEntities ∧ env.isGazetteerKind entity = true)
        ((is.map Prod.fst).zip ss)) builtin builtin' ∧
      List.Forall₂ (AfterInjections env d (fun entity => entity ∈ d.customEntities) ((is.map Prod.fst).zip ss)) custom custom' ∧
      EntityParsers env fs' dir bytes builtin' custom' ∧ Describes env fs' dir d ∧ OwnDirs env o' fs' dir d ∧
      (loadEngine env.load o' dir fs').1 =
        .ok ⟨e.dataset, e.parsers, ⟨e.ext.lower, e.ext.tokenize, C.builtin bytes builtin', C.custom custom'⟩⟩ := by
  induction is generalizing fs e builtin custom with
  | nil =>
    obtain rfl : fs' = fs := h
    obtain ⟨h1, h2⟩ := c90_before env C o' dir fs' e bytes builtin custom hload hparsers
    refine ⟨[], builtin, custom, .nil, ?_, ?_, hparsers, hd, hown, ?_⟩
    · exact List.forall₂_same.2 fun _ _ => rfl
    · exact List.forall₂_same.2 fun _ _ => rfl
    · rw [hload, ← h1, ← h2]
  | cons i is ih =>
    obtain ⟨fs1, h1, h⟩ := h
    obtain rfl := hdir i (List.mem_cons_self ..)
    obtain ⟨s, b1, c1, hs, hb, hc, hp1, hd1, hown1, hl1⟩ := c90_injected env C o o' i.2 i.1 fs fs1 d e bytes builtin custom hd
      (hn i (List.mem_cons_self ..)) hown hload hparsers h1
    obtain ⟨ss, b2, c2, hss, hb2, hc2, hp2, hd2, hown2, hl2⟩ := ih fs1 _ b1 c1 (fun j hj => hdir j (List.mem_cons_of_mem _ hj))
      (fun j hj => hn j (List.mem_cons_of_mem _ hj)) hd1 hown1 hl1 hp1 h
    have hout := inject_outside hd (hn i (List.mem_cons_self ..)) hown h1
    have hback : ∀ (l : List (Injector × Interrupts)) (ts : List (Option (Text → Text))), (∀ j ∈ l, j.1.dir = i.1.dir) →
        List.Forall₂ (fun i s => StemmerIs env o fs1 i.1 s) l ts → List.Forall₂ (fun i s => StemmerIs env o fs i.1 s) l ts := by
      intro l ts hl hf
      induction hf with
      | nil => exact .nil
      | @cons j t l ts hj _ ih =>
        exact .cons (stemmerIs_after C (hl j (List.mem_cons_self ..)) hl1 hown1 hparsers (fun q hq => (hout q hq).symm) hj)
          (ih fun j hj => hl j (List.mem_cons_of_mem _ hj))
    refine ⟨s :: ss, b2, c2, .cons hs (hback _ _ (fun j hj => hdir j (List.mem_cons_of_mem _ hj)) hss), ?_, ?_, hp2, hd2, hown2,
      hl2⟩
    · exact forall₂_comp (fun _ b _ h1 h2 => ⟨b, h1, h2⟩) hb hb2
    · exact forall₂_comp (fun _ b _ h1 h2 => ⟨b, h1, h2⟩) hc hc2

/-- **C91**: a request can be split by entities: the parts succeed one after the other exactly if the whole does, and leave
the same disk. -/
theorem c91_parts (env : InjectEnv π) (C : Composed env) (o1 o2 o3 o' : HashOrd) (i j k : Injector)
    (fs fs' : Fs) (d : EngineDesc) (e : LoadedEngine) (bytes : List Nat) (builtin custom : List (Text × π))
    (ht : Together i j k) (hn : k.entityValues.keys.Nodup)
    (hd : Describes env fs k.dir d) (hown : OwnDirs env o' fs k.dir d)
    (hload : (loadEngine env.load o' k.dir fs).1 = .ok e) (hparsers : EntityParsers env fs k.dir bytes builtin custom) :
    k.inject env o1 (fun _ => none) fs = (.ok (), fs') ↔
      ∃ fs1, i.inject env o2 (fun _ => none) fs = (.ok (), fs1) ∧ j.inject env o3 (fun _ => none) fs1 = (.ok (), fs') := by
  classical
  have hkeys : k.entityValues.keys.Perm (i.entityValues.keys ++ j.entityValues.keys) := by
    have := ht.values.map Prod.fst
    rw [List.map_append] at this
    exact this
  obtain ⟨hni, hnj, hdisj⟩ := List.nodup_append.1 (hkeys.nodup_iff.1 hn)
  have hdi : Describes env fs i.dir d := by rw [ht.dir.1]; exact hd
  have howni : OwnDirs env o' fs i.dir d := by rw [ht.dir.1]; exact hown
  have hloadi : (loadEngine env.load o' i.dir fs).1 = .ok e := by rw [ht.dir.1]; exact hload
  have hparsersi : EntityParsers env fs i.dir bytes builtin custom := by rw [ht.dir.1]; exact hparsers
  have hij : j.dir = i.dir := ht.dir.2.trans ht.dir.1.symm
  -- after the first part
  have hafter : ∀ {fs1}, i.inject env o2 (fun _ => none) fs = (.ok (), fs1) → Describes env fs1 j.dir d ∧
      ∀ o s, StemmerIs env o fs j s → StemmerIs env o fs1 j s := by
    intro fs1 h1
    obtain ⟨_, b1, c1, _, _, _, hp1, hd1, _, _⟩ := c90_injected env C o2 o' _ i fs fs1 d e bytes builtin custom hdi hni howni
      hloadi hparsersi h1
    rw [hij]
    exact ⟨hd1, fun o s hs => stemmerIs_after C hij hloadi howni hp1 (inject_outside hdi hni howni h1) hs⟩
  have hseps : ∀ l, SeparateDirs env d l := separateDirs_of hown
  have hnotin : ∀ e1 ∈ i.entityValues.keys, ∀ e2 ∈ j.entityValues.keys, ∀ p1 p2, ParserDir env d e1 p1 → ParserDir env d e2 p2 →
      Apart (e1, p1) (e2, p2) := fun e1 h1 e2 h2 p1 p2 hp1 hp2 =>
    pairwise_apart hown.apart (parserDir_mem hp1) (parserDir_mem hp2) fun h => hdisj _ h1 _ h2 (Prod.mk.inj h).1
  constructor
  · intro h
    obtain ⟨s, hs, hnew, hkeep⟩ := (inject_ok_iff hd hn (hseps k)).1 h
    have hsi : ∀ o, StemmerIs env o fs i s := fun o => stemmerIs_congr ht.dir.1.symm ht.stemmer.1.symm (stemmerIs_order o hs)
    have hsj : ∀ o, StemmerIs env o fs j s := fun o => stemmerIs_congr ht.dir.2.symm ht.stemmer.2.symm (stemmerIs_order o hs)
    let fs1 : Fs := fun q => if ∃ e ∈ i.entityValues.keys, ∃ p, ParserDir env d e p ∧ resolve p <+: q then fs' q else fs q
    have hi : i.inject env o2 (fun _ => none) fs = (.ok (), fs1) := by
      refine (inject_ok_iff hdi hni (hseps i)).2 ⟨s, hsi o2, fun ev hev => ?_, fun q hq => ?_⟩
      · obtain ⟨p, out, parser, a1, a2, a3, a4⟩ := hnew ev (ht.values.mem_iff.2 (List.mem_append_left _ hev))
        refine ⟨p, out, parser, a1, a2, by rw [ht.vanilla.1]; exact a3, fun q => ?_⟩
        show (if _ then _ else _) = _
        rw [if_pos ⟨ev.1, mem_keys hev, p, a1, List.prefix_append _ _⟩, a4]
      · show (if _ then _ else _) = _
        rw [if_neg]
        rintro ⟨e1, he1, p, hp, hpre⟩
        exact hq e1 he1 p hp hpre
    obtain ⟨hd1, hs1⟩ := hafter hi
    refine ⟨fs1, hi, (inject_ok_iff hd1 hnj (hseps j)).2 ⟨s, hs1 o3 s (hsj o3), fun ev hev => ?_, fun q hq => ?_⟩⟩
    · obtain ⟨p, out, parser, a1, a2, a3, a4⟩ := hnew ev (ht.values.mem_iff.2 (List.mem_append_right _ hev))
      refine ⟨p, out, parser, a1, a2, ?_, a4⟩
      rw [ht.vanilla.2, updatedParser_congr (fs := fs), a3]
      intro q
      show (if _ then _ else _) = _
      rw [if_neg]
      rintro ⟨e1, he1, p1, hp1, hpre⟩
      exact apart_outside (apart_symm (hnotin e1 he1 _ (mem_keys hev) p1 p hp1 a1)) q hpre
    · show _ = if _ then _ else _
      split
      · rfl
      · rename_i hno
        refine hkeep q fun e1 he1 p hp hpre => ?_
        rcases List.mem_append.1 (hkeys.mem_iff.1 he1) with he1 | he1
        · exact hno ⟨e1, he1, p, hp, hpre⟩
        · exact hq e1 he1 p hp hpre
  · rintro ⟨fs1, hi, hj⟩
    obtain ⟨hd1, hs1⟩ := hafter hi
    obtain ⟨s, hs, hnew, hkeep⟩ := (inject_ok_iff hdi hni (hseps i)).1 hi
    obtain ⟨s', hs', hnew', hkeep'⟩ := (inject_ok_iff hd1 hnj (hseps j)).1 hj
    obtain rfl : s' = s := stemmerIs_unique hs'
      (hs1 o3 s (stemmerIs_congr hij.symm (ht.stemmer.1.trans ht.stemmer.2.symm) (stemmerIs_order o3 hs)))
    refine (inject_ok_iff hd hn (hseps k)).2 ⟨s', stemmerIs_congr ht.dir.1 ht.stemmer.1 (stemmerIs_order o1 hs), fun ev hev => ?_,
      fun q hq => ?_⟩
    · rcases List.mem_append.1 (ht.values.mem_iff.1 hev) with hev | hev
      · obtain ⟨p, out, parser, a1, a2, a3, a4⟩ := hnew ev hev
        refine ⟨p, out, parser, a1, a2, by rw [← ht.vanilla.1]; exact a3, fun q => ?_⟩
        rw [← a4, hkeep']
        intro e2 he2 p2 hp2
        exact apart_outside (hnotin _ (mem_keys hev) e2 he2 p p2 a1 hp2) q
      · obtain ⟨p, out, parser, a1, a2, a3, a4⟩ := hnew' ev hev
        refine ⟨p, out, parser, a1, a2, ?_, a4⟩
        rw [← ht.vanilla.2, ← a3, updatedParser_congr]
        intro q
        refine (hkeep _ fun e1 he1 p1 hp1 => ?_).symm
        exact apart_outside (apart_symm (hnotin e1 he1 _ (mem_keys hev) p1 p hp1 a1)) q
    · rw [hkeep' q fun e1 he1 => hq e1 (hkeys.mem_iff.2 (List.mem_append_right _ he1)),
        hkeep q fun e1 he1 => hq e1 (hkeys.mem_iff.2 (List.mem_append_left _ he1))]

/-- **C91**: requests for different entities can be made in any order. -/
theorem c91_commute (env : InjectEnv π) (C : Composed env) (o1 o2 o3 o4 o' : HashOrd) (i j : Injector)
    (fs fs1 fs' : Fs) (d : EngineDesc) (e : LoadedEngine) (bytes : List Nat) (builtin custom : List (Text × π))
    (hdir : j.dir = i.dir) (hn : (i.entityValues.keys ++ j.entityValues.keys).Nodup)
    (hd : Describes env fs i.dir d) (hown : OwnDirs env o' fs i.dir d)
    (hload : (loadEngine env.load o' i.dir fs).1 = .ok e) (hparsers : EntityParsers env fs i.dir bytes builtin custom)
    (h1 : i.inject env o1 (fun _ => none) fs = (.ok (), fs1)) (h2 : j.inject env o2 (fun _ => none) fs1 = (.ok (), fs')) :
    ∃ fs2, j.inject env o3 (fun _ => none) fs = (.ok (), fs2) ∧ i.inject env o4 (fun _ => none) fs2 = (.ok (), fs') := by
  classical
  obtain ⟨hni, hnj, hdisj⟩ := List.nodup_append.1 hn
  have hseps : ∀ l, SeparateDirs env d l := separateDirs_of hown
  have hnotin : ∀ e1 ∈ i.entityValues.keys, ∀ e2 ∈ j.entityValues.keys, ∀ p1 p2, ParserDir env d e1 p1 → ParserDir env d e2 p2 →
      Apart (e1, p1) (e2, p2) := fun e1 h1 e2 h2 p1 p2 hp1 hp2 =>
    pairwise_apart hown.apart (parserDir_mem hp1) (parserDir_mem hp2) fun h => hdisj _ h1 _ h2 (Prod.mk.inj h).1
  obtain ⟨_, _, _, _, _, _, _, hd1, hown1, hl1⟩ := c90_injected env C o1 o' _ i fs fs1 d e bytes builtin custom hd hni hown
    hload hparsers h1
  have hout := inject_outside hd hni hown h1
  obtain ⟨s, hs, hnew, hkeep⟩ := (inject_ok_iff hd hni (hseps i)).1 h1
  obtain ⟨s', hs', hnew', hkeep'⟩ := (inject_ok_iff (by rw [hdir]; exact hd1) hnj (hseps j)).1 h2
  have hsj : StemmerIs env o3 fs j s' := stemmerIs_order o3
    (stemmerIs_after C hdir hl1 hown1 hparsers (fun q hq => (hout q hq).symm) hs')
  let fs2 : Fs := fun q => if ∃ e ∈ j.entityValues.keys, ∃ p, ParserDir env d e p ∧ resolve p <+: q then fs' q else fs q
  have hj : j.inject env o3 (fun _ => none) fs = (.ok (), fs2) := by
    refine (inject_ok_iff (by rw [hdir]; exact hd) hnj (hseps j)).2 ⟨s', hsj, fun ev hev => ?_, fun q hq => ?_⟩
    · obtain ⟨p, out, parser, a1, a2, a3, a4⟩ := hnew' ev hev
      refine ⟨p, out, parser, a1, a2, ?_, fun q => ?_⟩
      · rw [← a3, updatedParser_congr]
        intro q
        refine (hkeep _ fun e1 he1 p1 hp1 => ?_).symm
        exact apart_outside (apart_symm (hnotin e1 he1 _ (mem_keys hev) p1 p hp1 a1)) q
      · show (if _ then _ else _) = _
        rw [if_pos ⟨ev.1, mem_keys hev, p, a1, List.prefix_append _ _⟩, a4]
    · show (if _ then _ else _) = _
      rw [if_neg]
      rintro ⟨e1, he1, p, hp, hpre⟩
      exact hq e1 he1 p hp hpre
  refine ⟨fs2, hj, ?_⟩
  obtain ⟨_, _, _, _, _, _, hp2, hd2, _, _⟩ := c90_injected env C o3 o' _ j fs fs2 d e bytes builtin custom (by rw [hdir]; exact hd) hnj
    (by rw [hdir]; exact hown) (by rw [hdir]; exact hload) (by rw [hdir]; exact hparsers) hj
  have hout2 := inject_outside (by rw [hdir]; exact hd) hnj (by rw [hdir]; exact hown) hj
  have hsi : StemmerIs env o4 fs2 i s := stemmerIs_order o4 (stemmerIs_after C rfl hload hown (by rw [← hdir]; exact hp2) hout2 hs)
  refine (inject_ok_iff (by rw [← hdir]; exact hd2) hni (hseps i)).2 ⟨s, hsi, fun ev hev => ?_, fun q hq => ?_⟩
  · obtain ⟨p, out, parser, a1, a2, a3, a4⟩ := hnew ev hev
    have hno : ∀ q, ¬ ∃ e ∈ j.entityValues.keys, ∃ p', ParserDir env d e p' ∧ resolve p' <+: resolve p ++ q := by
      rintro q ⟨e2, he2, p2, hp2, hpre⟩
      exact apart_outside (hnotin _ (mem_keys hev) e2 he2 p p2 a1 hp2) q hpre
    refine ⟨p, out, parser, a1, a2, ?_, fun q => ?_⟩
    · rw [← a3, updatedParser_congr]
      intro q
      show (if _ then _ else _) = _
      rw [if_neg (hno q)]
    · rw [← a4, hkeep']
      exact fun e2 he2 p2 hp2 hpre => hno q ⟨e2, he2, p2, hp2, hpre⟩
  · show _ = if _ then _ else _
    split
    · rfl
    · rename_i hno
      rw [hkeep' q fun e1 he1 p hp hpre => hno ⟨e1, he1, p, hp, hpre⟩]
      exact hkeep q hq

/-! ### Example -/

/-- Only the artists of the request, or only the drinks. -/
def demoPart (entity : Text) : Injector :=
  { demoInjector with entityValues := demoInjector.entityValues.filter fun ev => ev.1 = entity }

theorem demo_together : Together (demoPart "artist".toList) (demoPart "drink".toList) demoInjector :=
  ⟨⟨rfl, rfl⟩, ⟨rfl, rfl⟩, ⟨rfl, rfl⟩, by decide⟩

theorem demo_injected :
    (demoInjector.inject demoComposedEnv HashOrd.insertion (fun _ => none) demoInjectFs).1 = .ok () := by
  decide +kernel

/-- The hypotheses can be met: the request of the example in two parts, in both orders. -/
example : ∃ fs1 fs2 fs',
    (demoPart "artist".toList).inject demoComposedEnv HashOrd.insertion (fun _ => none) demoInjectFs = (.ok (), fs1) ∧
    (demoPart "drink".toList).inject demoComposedEnv HashOrd.insertion (fun _ => none) fs1 = (.ok (), fs') ∧
    (demoPart "drink".toList).inject demoComposedEnv HashOrd.insertion (fun _ => none) demoInjectFs = (.ok (), fs2) ∧
    (demoPart "artist".toList).inject demoComposedEnv HashOrd.insertion (fun _ => none) fs2 = (.ok (), fs') ∧
    fs' ≠ demoInjectFs := by
  obtain ⟨e, he⟩ := demo_composed_loads
  have hk := Prod.ext (x := demoInjector.inject demoComposedEnv HashOrd.insertion (fun _ => none) demoInjectFs)
    (y := (.ok (), (demoInjector.inject demoComposedEnv HashOrd.insertion (fun _ => none) demoInjectFs).2)) demo_injected rfl
  have hne : (demoInjector.inject demoComposedEnv HashOrd.insertion (fun _ => none) demoInjectFs).2 ≠ demoInjectFs := by
    intro h
    have := congrFun h (["m", "builtin", "gaz", "p0", "v"].map String.toList)
    revert this
    decide +kernel
  generalize (demoInjector.inject demoComposedEnv HashOrd.insertion (fun _ => none) demoInjectFs).2 = fs' at hk hne
  obtain ⟨fs1, h1, h2⟩ := (c91_parts demoComposedEnv demoComposed HashOrd.insertion HashOrd.insertion HashOrd.insertion
    HashOrd.insertion _ _ demoInjector demoInjectFs fs' demoDesc e _ _ _ demo_together (by decide) demo_composed_describes
    demo_own he demo_entityParsers).1 hk
  obtain ⟨fs2, h3, h4⟩ := c91_commute demoComposedEnv demoComposed HashOrd.insertion HashOrd.insertion HashOrd.insertion
    HashOrd.insertion HashOrd.insertion (demoPart "artist".toList) (demoPart "drink".toList) demoInjectFs fs1 fs' demoDesc e _ _ _
    rfl (by decide) demo_composed_describes demo_own he demo_entityParsers h1 h2
  exact ⟨fs1, fs2, fs', h1, h2, h3, h4, hne⟩

/-- The hypotheses of `c91_chain` can be met: the drinks are injected twice. -/
example : ∃ fs' e', InTurn demoComposedEnv HashOrd.insertion [(demoInjector, fun _ => none), (demoPart "drink".toList, fun _ => none)]
    demoInjectFs fs' ∧ (loadEngine demoComposedEnv.load HashOrd.insertion ["m".toList] fs').1 = .ok e' := by
  obtain ⟨e, he⟩ := demo_composed_loads
  have h2 : ((demoPart "drink".toList).inject demoComposedEnv HashOrd.insertion (fun _ => none)
      (demoInjector.inject demoComposedEnv HashOrd.insertion (fun _ => none) demoInjectFs).2).1 = .ok () := by
    decide +kernel
  have hturn : InTurn demoComposedEnv HashOrd.insertion [(demoInjector, fun _ => none), (demoPart "drink".toList, fun _ => none)]
      demoInjectFs _ := ⟨_, Prod.ext demo_injected rfl, _, Prod.ext h2 rfl, rfl⟩
  obtain ⟨_, _, _, _, _, _, _, _, _, h⟩ := c91_chain demoComposedEnv demoComposed HashOrd.insertion HashOrd.insertion _ ["m".toList]
    demoInjectFs _ demoDesc e _ _ _ (by decide) (by decide) demo_composed_describes demo_own he demo_entityParsers hturn
  exact ⟨_, _, hturn, h⟩

end Snips
