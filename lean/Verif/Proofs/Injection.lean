import Verif.Spec.Injection
import Verif.Proofs.Loading
import Verif.Proofs.Tags
import Verif.Props.C34_Combinations

/-! Lemmas on injection. -/

namespace Snips

open Load

/-! ### Values -/

theorem joinWith_eq_intercalate (sep : Text) (l : List Text) : joinWith sep l = List.intercalate sep l := by
  induction l with
  | nil => rfl
  | cons a l ih =>
    cases l with
    | nil => simp [joinWith]
    | cons b l => simp only [joinWith, List.intercalate_cons_cons, ih]

theorem unique_nodup {α : Type} [DecidableEq α] (l : List α) : (unique l).Nodup := by
  induction l with
  | nil => exact List.nodup_nil
  | cons a l ih =>
    rw [unique, List.nodup_cons]
    exact ⟨by simp, ih.filter _⟩

theorem unique_sublist {α : Type} [DecidableEq α] (l : List α) : (unique l).Sublist l := by
  induction l with
  | nil => exact List.Sublist.refl _
  | cons a l ih => exact (List.filter_sublist.trans ih).cons₂ a

theorem mapOutcome_const_err {α β : Type} {f : α → Outcome β} {l : List α} {e : Err} (hf : ∀ a, f a = .err e)
    (hl : l ≠ []) : mapOutcome f l = .err e := by
  cases l with
  | nil => exact absurd rfl hl
  | cons a l => unfold mapOutcome; rw [hf]

theorem mapOutcome_map {α β : Type} {f : α → Outcome β} {g : α → β} (hf : ∀ a, f a = .ok (g a)) (l : List α) :
    mapOutcome f l = .ok (l.map g) := by
  induction l with
  | nil => rfl
  | cons a l ih => unfold mapOutcome; rw [hf, ih]; rfl

theorem stemOne_some (tok : Text → List Text) (stem : Text → Text) (v : EntityValue) :
    stemOne tok (some stem) v = .ok ⟨List.intercalate [' '] ((tok v.rawValue).map stem), v.resolvedValue⟩ := by
  rw [← joinWith_eq_intercalate]; rfl

theorem stemOne_none (tok : Text → List Text) (v : EntityValue) : stemOne tok none v = .err (.site 44) := rfl

/-- The values computed for an entity are those of the specification. -/
theorem injectedValues_ok {π : Type} {env : InjectEnv π} {info : EngineInfo} {custom : CustomInfo} {d : EngineDesc}
    (h1 : d.customEntities = info.customEntities) (h2 : d.usage = custom.usage) (h3 : d.words = info.tokenizeLight)
    {s : Option (Text → Text)} {entity : Text} {values : List Text} {out : List EntityValue}
    (h : injectedValues env info custom s entity values = .ok out) : ToInject env d s entity values out := by
  unfold injectedValues at h
  unfold ToInject
  rw [h1]
  have hnorm : normalizeEntityValue env values = values.map (plainForm env) := rfl
  have hstem : ∀ stem, (values.map (plainForm env)).map
      (fun v => (⟨List.intercalate [' '] ((info.tokenizeLight v.rawValue).map stem), v.resolvedValue⟩ : EntityValue))
      = values.map (stemmedForm env d stem) := by
    intro stem
    rw [List.map_map]
    apply List.map_congr_left
    intro v _
    simp only [Function.comp, plainForm, stemmedForm, h3]
  by_cases hc : entity ∈ info.customEntities
  · rw [if_pos (by simpa using hc)] at h
    rw [if_pos hc, h2]
    unfold stemEntityValue at h
    rw [hnorm] at h
    cases hu : custom.usage with
    | withStems =>
      rw [hu] at h
      simp only at h ⊢
      cases s with
      | some stem =>
        rw [mapOutcome_map (stemOne_some _ stem), hstem] at h
        cases h
        exact .inr ⟨stem, rfl, rfl⟩
      | none =>
        by_cases hv : values = []
        · subst hv; cases h; exact .inl ⟨rfl, rfl⟩
        · rw [mapOutcome_const_err (stemOne_none _) (by simpa using hv)] at h; cases h
    | withoutStems =>
      rw [hu] at h
      simp only [List.append_nil] at h ⊢
      cases h
      refine ⟨unique_nodup _, unique_sublist _, fun v hv => mem_unique.2 (List.mem_map_of_mem hv)⟩
    | withAndWithoutStems =>
      rw [hu] at h
      simp only at h ⊢
      cases s with
      | some stem =>
        rw [mapOutcome_map (stemOne_some _ stem), hstem] at h
        cases h
        refine .inr ⟨stem, rfl, unique_nodup _, unique_sublist _, fun v hv => ⟨?_, ?_⟩⟩
        · exact mem_unique.2 (List.mem_append_left _ (List.mem_map_of_mem hv))
        · exact mem_unique.2 (List.mem_append_right _ (List.mem_map_of_mem hv))
      | none =>
        by_cases hv : values = []
        · subst hv; cases h; exact .inl ⟨rfl, rfl⟩
        · rw [mapOutcome_const_err (stemOne_none _) (by simpa using hv)] at h; cases h
  · rw [if_neg (by simpa using hc)] at h
    rw [if_neg hc]
    cases h
    rfl

/-- The computation only fails for lack of a stemmer. -/
theorem injectedValues_total {π : Type} (env : InjectEnv π) (info : EngineInfo) (custom : CustomInfo)
    (s : Option (Text → Text)) (entity : Text) (values : List Text) :
    (∃ out, injectedValues env info custom s entity values = .ok out) ∨
    (injectedValues env info custom s entity values = .err (.site 44) ∧ s = none ∧ custom.usage ≠ .withoutStems ∧
      entity ∈ info.customEntities ∧ values ≠ []) := by
  unfold injectedValues
  by_cases hc : entity ∈ info.customEntities
  · rw [if_pos (by simpa using hc)]
    unfold stemEntityValue
    cases hu : custom.usage with
    | withStems =>
      simp only
      cases s with
      | some stem => exact .inl ⟨_, mapOutcome_map (stemOne_some _ stem) _⟩
      | none =>
        by_cases hv : values = []
        · subst hv; exact .inl ⟨_, rfl⟩
        · rw [mapOutcome_const_err (stemOne_none _) (by simpa [normalizeEntityValue] using hv)]
          exact .inr ⟨rfl, rfl, by simp, hc, hv⟩
    | withoutStems => exact .inl ⟨_, rfl⟩
    | withAndWithoutStems =>
      simp only
      cases s with
      | some stem =>
        rw [mapOutcome_map (stemOne_some _ stem)]
        exact .inl ⟨_, rfl⟩
      | none =>
        by_cases hv : values = []
        · subst hv; exact .inl ⟨_, rfl⟩
        · rw [mapOutcome_const_err (stemOne_none _) (by simpa [normalizeEntityValue] using hv)]
          exact .inr ⟨rfl, rfl, by simp, hc, hv⟩
  · rw [if_neg (by simpa using hc)]
    exact .inl ⟨_, rfl⟩

/-! ### Reading -/

theorem decodes_unique {α : Type} {fs : Fs} {p : Path} {decode : List Nat → Outcome α} {a a' : α}
    (h : Decodes fs p decode a) (h' : Decodes fs p decode a') : a = a' := by
  obtain ⟨b, hb, hd⟩ := h
  obtain ⟨b', hb', hd'⟩ := h'
  unfold FileAt at hb hb'
  rw [hb] at hb'
  cases hb'
  rw [hd] at hd'
  cases hd'
  rfl

/-- The information gathered by the injector agrees with a description. -/
structure Agrees (d : EngineDesc) (info : EngineInfo) (builtin : Option GazetteerInfo) (custom : CustomInfo) : Prop where
  words : d.words = info.tokenizeLight
  entities : d.customEntities = info.customEntities
  usage : d.usage = custom.usage
  customParsers : d.customParsers = custom.gazetteer.parsers.map fun p => (p.1, joinPath custom.gazetteer.dir p.2)
  builtinParsers : d.builtinParsers = match builtin with
    | some g => g.parsers.map fun p => (p.1, joinPath g.dir p.2)
    | none => []

/-- The three readings succeed exactly on directories that have a description. -/
theorem infos_iff {π : Type} {env : InjectEnv π} {fs : Fs} {dir : Path} {info : EngineInfo}
    {builtin : Option GazetteerInfo} {custom : CustomInfo} (h1 : (getEngineInfo env dir fs).1 = .ok info)
    (h2 : (getBuiltinInfo env info.builtinDir fs).1 = .ok builtin)
    (h3 : (getCustomInfo env info.customDir fs).1 = .ok custom) (d : EngineDesc) :
    Describes env fs dir d ↔ Agrees d info builtin custom := by
  rw [getEngineInfo, Load.bind_ok_iff] at h1
  obtain ⟨m, hm, h1⟩ := h1
  rw [Load.bind_ok_iff] at h1
  obtain ⟨tok, htok, h1⟩ := h1
  have hinfo := pure_ok_iff.1 h1
  rw [lift_ok_iff] at htok
  have hm : Decodes fs _ _ m := file_ok_iff.1 hm
  rw [getBuiltinInfo, Load.bind_ok_iff] at h2
  obtain ⟨sub, hsub, h2⟩ := h2
  have hsub : Decodes fs _ _ sub := file_ok_iff.1 hsub
  rw [getCustomInfo, Load.bind_ok_iff] at h3
  obtain ⟨c, hc, h3⟩ := h3
  have hc : Decodes fs _ _ c := file_ok_iff.1 hc
  rw [Load.bind_ok_iff] at h3
  obtain ⟨g, hg, h3⟩ := h3
  have hg : Decodes fs _ _ g := file_ok_iff.1 hg
  have hcustom := pure_ok_iff.1 h3
  subst hinfo
  subst hcustom
  simp only at hsub hc hg h2
  constructor
  · rintro ⟨m', hm', hl, he, ⟨sub', hsub', hb⟩, c', hc', hu', g', hg', hp⟩
    obtain rfl := decodes_unique hm hm'
    obtain rfl := decodes_unique hsub hsub'
    obtain rfl := decodes_unique hc hc'
    obtain rfl := decodes_unique hg hg'
    rw [htok] at hl
    cases hl
    refine ⟨rfl, he, ?_, hp, ?_⟩
    · exact hu'
    · rcases hb with ⟨rfl, hb⟩ | ⟨name, rfl, gb, hgb, hb⟩
      · have := pure_ok_iff.1 h2
        subst this
        exact hb
      · simp only at h2
        rw [Load.bind_ok_iff] at h2
        obtain ⟨gb', hgb', h2⟩ := h2
        have := pure_ok_iff.1 h2
        subst this
        obtain rfl := decodes_unique hgb (file_ok_iff.1 hgb')
        exact hb
  · rintro ⟨a1, a2, a3, a4, a5⟩
    refine ⟨m, hm, by rw [htok, a1], a2, ⟨sub, hsub, ?_⟩, c, hc, ?_, g, hg, a4⟩
    · cases sub with
      | none =>
        have := pure_ok_iff.1 h2
        subst this
        exact .inl ⟨rfl, a5⟩
      | some name =>
        simp only at h2
        rw [Load.bind_ok_iff] at h2
        obtain ⟨gb', hgb', h2⟩ := h2
        have := pure_ok_iff.1 h2
        subst this
        exact .inr ⟨name, rfl, gb', file_ok_iff.1 hgb', a5⟩
    · exact a3

theorem describes_infos {π : Type} {env : InjectEnv π} {fs : Fs} {dir : Path} {d : EngineDesc}
    (h : Describes env fs dir d) : ∃ info builtin custom, (getEngineInfo env dir fs).1 = .ok info ∧
      (getBuiltinInfo env info.builtinDir fs).1 = .ok builtin ∧
      (getCustomInfo env info.customDir fs).1 = .ok custom := by
  obtain ⟨m, hm, hl, he, ⟨sub, hsub, hb⟩, c, hc, hu, g, hg, hp⟩ := h
  have h2 : ∃ builtin, (getBuiltinInfo env (joinPath dir m.builtinEntityParser) fs).1 = .ok builtin := by
    rcases hb with ⟨rfl, hb⟩ | ⟨name, rfl, gb, hgb, hb⟩
    · exact ⟨none, by rw [getBuiltinInfo, Load.bind_ok_iff]; exact ⟨none, file_ok_iff.2 hsub, rfl⟩⟩
    · refine ⟨some ⟨joinPath (joinPath dir m.builtinEntityParser) name, gb.parsers⟩, ?_⟩
      rw [getBuiltinInfo, Load.bind_ok_iff]
      refine ⟨some name, file_ok_iff.2 hsub, ?_⟩
      simp only
      rw [Load.bind_ok_iff]
      exact ⟨gb, file_ok_iff.2 hgb, pure_ok_iff.2 rfl⟩
  obtain ⟨builtin, h2⟩ := h2
  refine ⟨⟨d.words, joinPath dir m.builtinEntityParser, joinPath dir m.customEntityParser, m.dataset.entities.keys⟩,
    builtin, ⟨⟨joinPath (joinPath dir m.customEntityParser) c.parserDirectory, g.parsers⟩, c.usage⟩, ?_, h2, ?_⟩
  · rw [getEngineInfo, Load.bind_ok_iff]
    refine ⟨m, file_ok_iff.2 hm, ?_⟩
    rw [Load.bind_ok_iff]
    exact ⟨d.words, lift_ok_iff.2 hl, pure_ok_iff.2 rfl⟩
  · rw [getCustomInfo, Load.bind_ok_iff]
    refine ⟨c, file_ok_iff.2 hc, ?_⟩
    rw [Load.bind_ok_iff]
    exact ⟨g, file_ok_iff.2 hg, pure_ok_iff.2 rfl⟩

theorem dirOf_ok_iff (g : GazetteerInfo) (entity : Text) (p : Path) :
    g.dirOf entity = .ok p ↔ (g.parsers.map fun p => (p.1, joinPath g.dir p.2)).lookup entity = some p := by
  unfold GazetteerInfo.dirOf
  induction g.parsers with
  | nil => simp
  | cons x l ih =>
    rw [List.map_cons, List.lookup_cons, List.find?_cons]
    by_cases hx : x.1 = entity
    · subst hx
      simp
    · have h1 : (entity == x.1) = false := by
        rw [beq_eq_false_iff_ne]; exact fun h => hx h.symm
      simp only [hx, decide_false, h1]
      exact ih

theorem dirOf_err (g : GazetteerInfo) (entity : Text) :
    (∃ p, g.dirOf entity = .ok p) ∨ g.dirOf entity = .err (.entityNotInjectable entity) := by
  unfold GazetteerInfo.dirOf
  split
  · exact .inl ⟨_, rfl⟩
  · exact .inr rfl

theorem entityParserDir_ok_iff {π : Type} {env : InjectEnv π} {d : EngineDesc} {info : EngineInfo}
    {builtin : Option GazetteerInfo} {custom : CustomInfo} (ha : Agrees d info builtin custom) (entity : Text)
    (p : Path) : entityParserDir env info builtin custom entity = .ok p ↔ ParserDir env d entity p := by
  unfold entityParserDir ParserDir
  rw [ha.entities, ha.customParsers, ha.builtinParsers]
  by_cases hc : entity ∈ info.customEntities
  · rw [if_pos (by simpa using hc), dirOf_ok_iff]
    simp [hc]
  · rw [if_neg (by simpa using hc)]
    by_cases hk : env.isGazetteerKind entity = true
    · rw [if_pos hk]
      cases builtin with
      | some g => simp only; rw [dirOf_ok_iff]; simp [hc, hk]
      | none => simp [hc]
    · rw [if_neg hk]
      simp [hc, hk]

theorem entityParserDir_err {π : Type} (env : InjectEnv π) (info : EngineInfo)
    (builtin : Option GazetteerInfo) (custom : CustomInfo) (entity : Text) :
    (∃ p, entityParserDir env info builtin custom entity = .ok p) ∨
    entityParserDir env info builtin custom entity = .err (.entityNotInjectable entity) := by
  unfold entityParserDir
  split
  · exact dirOf_err _ _
  · split
    · split
      · exact dirOf_err _ _
      · exact .inr rfl
    · split <;> exact .inr rfl

/-! ### Lists of outcomes -/

/-- The first error of a list of computations. -/
theorem mapOutcome_cases {α β : Type} {f : α → Outcome β} (l : List α)
    (hf : ∀ a ∈ l, f a ≠ .panic) :
    (∃ bs, mapOutcome f l = .ok bs) ∨ ∃ a ∈ l, ∃ e, f a = .err e ∧ mapOutcome f l = .err e := by
  induction l with
  | nil => exact .inl ⟨[], rfl⟩
  | cons a l ih =>
    unfold mapOutcome
    cases ha : f a with
    | panic => exact absurd ha (hf a List.mem_cons_self)
    | err e => exact .inr ⟨a, List.mem_cons_self, e, ha, rfl⟩
    | ok b =>
      rcases ih fun a h => hf a (List.mem_cons_of_mem _ h) with ⟨bs, h⟩ | ⟨a', h', e, he, h⟩
      · simp only; rw [h]; exact .inl ⟨_, rfl⟩
      · simp only; rw [h]; exact .inr ⟨a', List.mem_cons_of_mem _ h', e, he, rfl⟩

/-- Success of a list of computations with results paired to their keys. -/
theorem mapOutcome_pairs {κ α β : Type} {key : α → κ} {f : α → Outcome β} {l : List α} {m : List (κ × β)}
    (h : mapOutcome (fun a => do
      let b ← f a
      .ok (key a, b)) l = .ok m) :
    m.map Prod.fst = l.map key ∧ (∀ a ∈ l, ∃ b, f a = .ok b ∧ (key a, b) ∈ m) ∧
      ∀ kb ∈ m, ∃ a ∈ l, key a = kb.1 ∧ f a = .ok kb.2 := by
  rw [mapOutcome_ok_iff] at h
  induction h with
  | nil => simp
  | @cons a kb l m hr _ ih =>
    obtain ⟨b, hb, e⟩ := Outcome.bind_ok_iff'.1 hr
    cases e
    obtain ⟨i1, i2, i3⟩ := ih
    refine ⟨by simp [i1], ?_, ?_⟩
    · intro x hx
      rcases List.mem_cons.1 hx with rfl | hx
      · exact ⟨b, hb, List.mem_cons_self⟩
      · obtain ⟨b', h1, h2⟩ := i2 x hx
        exact ⟨b', h1, List.mem_cons_of_mem _ h2⟩
    · intro x hx
      rcases List.mem_cons.1 hx with rfl | hx
      · exact ⟨a, List.mem_cons_self, rfl, hb⟩
      · obtain ⟨a', h1, h2⟩ := i3 x hx
        exact ⟨a', List.mem_cons_of_mem _ h1, h2⟩

/-! ### Writing -/

theorem graft_inside (fs sub : Fs) (p : Path) (q : Path) : graft fs p sub (resolve p ++ q) = sub q := by
  unfold graft
  rw [if_pos (List.prefix_append _ _), List.drop_left]

theorem graft_outside {fs sub : Fs} {p q : Path} (h : ¬ resolve p <+: q) : graft fs p sub q = fs q := by
  unfold graft
  rw [if_neg h]

theorem updatedParser_congr {π : Type} {env : InjectEnv π} {fv : Bool} {vs : List EntityValue} {p : Path}
    {fs fs' : Fs} (h : ∀ q, fs' (resolve p ++ q) = fs (resolve p ++ q)) :
    updatedParser env fv vs p fs' = updatedParser env fv vs p fs := by
  unfold updatedParser
  have : subtree fs' p = subtree fs p := funext h
  rw [this]

/-- Effect of the rewriting of one parser: only its directory changes, and on success it has the dumped
parser. -/
theorem replaceParser_effect {π : Type} (env : InjectEnv π) (interrupts : Interrupts) (n : Nat) (dir : Path)
    (parser : π) (fs : Fs) :
    (∀ q, ¬ resolve dir <+: q → (replaceParser env interrupts n dir parser fs).2 q = fs q) ∧
    ((replaceParser env interrupts n dir parser fs).1 = .ok () →
      ∀ q, (replaceParser env interrupts n dir parser fs).2 (resolve dir ++ q) = env.dump parser q) ∧
    ((∀ k, interrupts k = none) → (replaceParser env interrupts n dir parser fs).1 = .ok ()) := by
  unfold replaceParser removeDirAll
  cases h1 : interrupts n with
  | some left =>
    refine ⟨fun q hq => graft_outside hq, fun h => (nomatch h), fun h => ?_⟩
    rw [h] at h1; cases h1
  | none =>
    simp only
    unfold dumpParser
    cases h2 : interrupts (n + 1) with
    | some left =>
      refine ⟨fun q hq => ?_, fun h => (nomatch h), fun h => ?_⟩
      · simp only; rw [graft_outside hq, graft_outside hq]
      · rw [h] at h2; cases h2
    | none =>
      refine ⟨fun q hq => ?_, fun _ q => graft_inside _ _ _ _, fun _ => rfl⟩
      simp only; rw [graft_outside hq, graft_outside hq]

/-- What an entity of the loop becomes. -/
def Rewritten {π : Type} (env : InjectEnv π) (fv : Bool) (dirs : Map Text Path) (fs fs' : Fs)
    (ev : Text × List EntityValue) : Prop :=
  ∃ dir parser, dirs.get ev.1 = some dir ∧ updatedParser env fv ev.2 dir fs = .ok parser ∧
    ∀ q, fs' (resolve dir ++ q) = env.dump parser q

/-- The directories of distinct entities are separate. -/
def Separate (dirs : Map Text Path) : Prop :=
  ∀ e e' d d', e ≠ e' → dirs.get e = some d → dirs.get e' = some d' → ¬ resolve d <+: resolve d'

theorem separate_inside {dirs : Map Text Path} (hs : Separate dirs) {e e' : Text} {d d' : Path} (hne : e ≠ e')
    (h : dirs.get e = some d) (h' : dirs.get e' = some d') (q : Path) : ¬ resolve d' <+: resolve d ++ q := by
  intro hp
  rcases List.prefix_or_prefix_of_prefix hp (List.prefix_append (resolve d) q) with hx | hx
  · exact hs e' e d' d (fun h => hne h.symm) h' h hx
  · exact hs e e' d d' hne h h' hx

/-- The loop stops somewhere: the parsers before that point are new, those after it are untouched, and so is
everything that is not inside of the directories handled. -/
theorem injectAll_effect {π : Type} (env : InjectEnv π) (interrupts : Interrupts) (fv : Bool) (dirs : Map Text Path)
    (hs : Separate dirs) (l : List (Text × List EntityValue)) (hl : (l.map Prod.fst).Nodup) (n : Nat) (fs : Fs) :
    ∃ done rest, l = done ++ rest ∧
      (∀ ev ∈ done, Rewritten env fv dirs fs (injectAll env interrupts fv dirs l n fs).2 ev) ∧
      ((injectAll env interrupts fv dirs l n fs).1 = .ok () → rest = []) ∧
      (∀ q, (∀ ev ∈ done ++ rest.take 1, ∀ d, dirs.get ev.1 = some d → ¬ resolve d <+: q) →
        (injectAll env interrupts fv dirs l n fs).2 q = fs q) ∧
      ((∀ k, interrupts k = none) → ∀ q, (∀ ev ∈ done, ∀ d, dirs.get ev.1 = some d → ¬ resolve d <+: q) →
        (injectAll env interrupts fv dirs l n fs).2 q = fs q) := by
  induction l generalizing n fs with
  | nil => exact ⟨[], [], rfl, by simp, fun _ => rfl, fun _ _ => rfl, fun _ _ _ => rfl⟩
  | cons ev l ih =>
    unfold injectAll injectEntity
    cases hd : dirs.get ev.1 with
    | none => exact ⟨[], ev :: l, rfl, by simp, fun h => (nomatch h), fun _ _ => rfl, fun _ _ _ => rfl⟩
    | some dir =>
      simp only
      cases hu : updatedParser env fv ev.2 dir fs with
      | err e => exact ⟨[], ev :: l, rfl, by simp, fun h => (nomatch h), fun _ _ => rfl, fun _ _ _ => rfl⟩
      | panic => exact ⟨[], ev :: l, rfl, by simp, fun h => (nomatch h), fun _ _ => rfl, fun _ _ _ => rfl⟩
      | ok parser =>
        simp only
        obtain ⟨r1, r2, r3⟩ := replaceParser_effect env interrupts n dir parser fs
        rcases hr : replaceParser env interrupts n dir parser fs with ⟨res, fs1⟩
        rw [hr] at r1 r2 r3
        have hstop : ∀ q, (∀ ev' ∈ [] ++ (ev :: l).take 1, ∀ d, dirs.get ev'.1 = some d → ¬ resolve d <+: q) →
            fs1 q = fs q := fun q hq => r1 q (hq ev (by simp) dir hd)
        cases res with
        | err e => exact ⟨[], ev :: l, rfl, by simp, fun h => (nomatch h), hstop, fun h => (nomatch r3 h)⟩
        | panic => exact ⟨[], ev :: l, rfl, by simp, fun h => (nomatch h), hstop, fun h => (nomatch r3 h)⟩
        | ok u =>
          simp only
          rw [List.map_cons, List.nodup_cons] at hl
          obtain ⟨done, rest, e1, e2, e3, e4, e5⟩ := ih hl.2 (n + 2) fs1
          have hother : ∀ ev' ∈ l, ev'.1 ≠ ev.1 := fun ev' h' he => hl.1 (he ▸ List.mem_map_of_mem h')
          have hmem : ∀ ev' ∈ done ++ rest.take 1, ev' ∈ l := by
            intro ev' h'
            rw [e1]
            rcases List.mem_append.1 h' with h' | h'
            · exact List.mem_append_left _ h'
            · exact List.mem_append_right _ (List.mem_of_mem_take h')
          refine ⟨ev :: done, rest, by rw [e1]; rfl, ?_, e3, ?_, ?_⟩
          · intro ev' h'
            rcases List.mem_cons.1 h' with rfl | h'
            · refine ⟨dir, parser, hd, hu, fun q => ?_⟩
              rw [e4 _ ?_]
              · exact r2 rfl q
              · intro ev'' h'' d'' hd''
                exact separate_inside hs (fun h => hother ev'' (hmem _ h'') h.symm) hd hd'' q
            · obtain ⟨d', p', h1, h2, h3⟩ := e2 ev' h'
              refine ⟨d', p', h1, ?_, h3⟩
              rw [← h2]
              refine (updatedParser_congr fun q => r1 _ ?_).symm
              exact separate_inside hs (hother ev' (by rw [e1]; exact List.mem_append_left _ h')) h1 hd q
          · intro q hq
            rw [e4 q ?_]
            · exact r1 q (hq ev (by simp) dir hd)
            · exact fun ev' h' => hq ev' (List.mem_cons_of_mem _ h')
          · intro hi q hq
            rw [e5 hi q ?_]
            · exact r1 q (hq ev (by simp) dir hd)
            · exact fun ev' h' => hq ev' (List.mem_cons_of_mem _ h')

/-- Without interruption, the loop succeeds if all the parsers can be read and updated. -/
theorem injectAll_succeeds {π : Type} (env : InjectEnv π) (interrupts : Interrupts) (hi : ∀ k, interrupts k = none)
    (fv : Bool) (dirs : Map Text Path) (hs : Separate dirs) (l : List (Text × List EntityValue))
    (hl : (l.map Prod.fst).Nodup) (n : Nat) (fs : Fs)
    (h : ∀ ev ∈ l, ∃ dir parser, dirs.get ev.1 = some dir ∧ updatedParser env fv ev.2 dir fs = .ok parser) :
    (injectAll env interrupts fv dirs l n fs).1 = .ok () := by
  induction l generalizing n fs with
  | nil => rfl
  | cons ev l ih =>
    unfold injectAll injectEntity
    obtain ⟨dir, parser, hd, hu⟩ := h ev List.mem_cons_self
    rw [hd]
    simp only
    rw [hu]
    simp only
    obtain ⟨r1, r2, r3⟩ := replaceParser_effect env interrupts n dir parser fs
    rcases hr : replaceParser env interrupts n dir parser fs with ⟨res, fs1⟩
    rw [hr] at r1 r2 r3
    have := r3 hi
    simp only at this
    subst this
    simp only
    rw [List.map_cons, List.nodup_cons] at hl
    refine ih hl.2 _ _ fun ev' h' => ?_
    obtain ⟨d', p', h1, h2⟩ := h ev' (List.mem_cons_of_mem _ h')
    refine ⟨d', p', h1, ?_⟩
    rw [← h2]
    refine updatedParser_congr fun q => r1 _ ?_
    have hne : ev'.1 ≠ ev.1 := fun he => hl.1 (he ▸ List.mem_map_of_mem h')
    exact separate_inside hs hne h1 hd q

end Snips

namespace Snips

open Load

/-! ### Independence of the hash orders -/

theorem mapOutcome_all_ok {α β : Type} {f : α → Outcome β} {l : List α} (h : ∀ a ∈ l, ∃ b, f a = .ok b) :
    ∃ bs, mapOutcome f l = .ok bs := by
  rcases mapOutcome_cases (f := f) l (fun a ha hp => by obtain ⟨b, hb⟩ := h a ha; rw [hb] at hp; cases hp) with h' | h'
  · exact h'
  · obtain ⟨a, ha, e, he, _⟩ := h'
    obtain ⟨b, hb⟩ := h a ha
    rw [hb] at he
    cases he

theorem loadTextual_shape (hash : Text → Int) (records : List (Outcome (List Text))) (m m' : Map Int Text) :
    (∃ w, WordClusterer.loadTextual hash records m = .ok w) → ∃ w, WordClusterer.loadTextual hash records m' = .ok w := by
  induction records generalizing m m' with
  | nil => exact fun _ => ⟨_, rfl⟩
  | cons r records ih =>
    rintro ⟨w, h⟩
    unfold WordClusterer.loadTextual at h ⊢
    obtain ⟨el, h1, h⟩ := Outcome.bind_ok_iff'.1 h
    obtain ⟨word, h2, h⟩ := Outcome.bind_ok_iff'.1 h
    obtain ⟨cl, h3, h⟩ := Outcome.bind_ok_iff'.1 h
    obtain ⟨w', hw⟩ := ih (m := m.insert (hash word) cl) (m' := m'.insert (hash word) cl) ⟨w, h⟩
    refine ⟨w', Outcome.bind_ok_iff'.2 ⟨el, h1, Outcome.bind_ok_iff'.2 ⟨word, h2, Outcome.bind_ok_iff'.2 ⟨cl, h3, hw⟩⟩⟩⟩

theorem loadNumeric_shape (hash : Text → Int) (o o' : HashOrd) (records : List (Outcome (List Text))) (m : Map Int Nat) :
    (∃ w, WordClusterer.loadNumeric hash o records m = .ok w) → ∃ w, WordClusterer.loadNumeric hash o' records m = .ok w := by
  induction records generalizing m with
  | nil => exact fun _ => ⟨_, rfl⟩
  | cons r records ih =>
    rintro ⟨w, h⟩
    unfold WordClusterer.loadNumeric at h ⊢
    obtain ⟨el, h1, h⟩ := Outcome.bind_ok_iff'.1 h
    obtain ⟨word, h2, h⟩ := Outcome.bind_ok_iff'.1 h
    obtain ⟨cl, h3, h⟩ := Outcome.bind_ok_iff'.1 h
    have : ∃ w', (match parseU16 cl with
        | some n => WordClusterer.loadNumeric hash o' records (m.insert (hash word) n)
        | none => WordClusterer.loadTextual hash records
          ((WordClusterer.toTextual o' m).insert (hash word) cl)) = .ok w' := by
      cases hp : parseU16 cl with
      | some n =>
        rw [hp] at h
        exact ih _ ⟨w, h⟩
      | none =>
        rw [hp] at h
        exact loadTextual_shape hash records _ _ ⟨w, h⟩
    obtain ⟨w', hw⟩ := this
    exact ⟨w', Outcome.bind_ok_iff'.2 ⟨el, h1, Outcome.bind_ok_iff'.2 ⟨word, h2, Outcome.bind_ok_iff'.2 ⟨cl, h3, hw⟩⟩⟩⟩

theorem loadClusterersFrom_shape (fns : TextFns) (o o' : HashOrd) (dir : Path) (fs : Fs)
    (names : List Text) (m m' : Map Text WordClusterer) :
    (∃ r, (loadClusterersFrom fns o dir names m fs).1 = .ok r) →
    ∃ r, (loadClusterersFrom fns o' dir names m' fs).1 = .ok r := by
  induction names generalizing m m' with
  | nil => exact fun _ => ⟨m', rfl⟩
  | cons n names ih =>
    rintro ⟨r, h⟩
    unfold loadClusterersFrom at h ⊢
    obtain ⟨c, h1, h⟩ := Load.bind_ok_iff.1 h
    obtain ⟨b, hb, hd⟩ := file_ok_iff.1 h1
    obtain ⟨c', hd'⟩ := loadNumeric_shape fns.hashStr o o' (csvRecords 9 false b) [] ⟨c, hd⟩
    obtain ⟨r', hr⟩ := ih (m := m.insert n c) (m' := m'.insert n c') ⟨r, h⟩
    exact ⟨r', Load.bind_ok_iff.2 ⟨c', file_ok_iff.2 ⟨b, hb, hd'⟩, hr⟩⟩

/-- Whether the resources can be loaded, and their stemmer, do not depend on hash orders. -/
theorem loadEngineSharedResources_stemmer {env : LoadEnv} {o : HashOrd} (o' : HashOrd) {dir : Path} {fs : Fs}
    {r : TextFns × Resources × Ext} (h : (loadEngineSharedResources env o dir fs).1 = .ok r) :
    ∃ r', (loadEngineSharedResources env o' dir fs).1 = .ok r' ∧ r'.1 = r.1 ∧ r'.2.1.stemmer = r.2.1.stemmer := by
  unfold loadEngineSharedResources at h ⊢
  obtain ⟨m, h1, h⟩ := Load.bind_ok_iff.1 h
  unfold loadResourcesOf at h
  obtain ⟨lang, h2, h⟩ := Load.bind_ok_iff.1 h
  obtain ⟨res, h3, h⟩ := Load.bind_ok_iff.1 h
  have := pure_ok_iff.1 h
  subst this
  unfold loadSharedResources at h3
  obtain ⟨rm, g1, h3⟩ := Load.bind_ok_iff.1 h3
  obtain ⟨st, g2, h3⟩ := Load.bind_ok_iff.1 h3
  obtain ⟨gz, g3, h3⟩ := Load.bind_ok_iff.1 h3
  obtain ⟨cl, g4, h3⟩ := Load.bind_ok_iff.1 h3
  obtain ⟨sw, g5, h3⟩ := Load.bind_ok_iff.1 h3
  obtain ⟨bp, g6, h3⟩ := Load.bind_ok_iff.1 h3
  obtain ⟨cp, g7, h3⟩ := Load.bind_ok_iff.1 h3
  have := pure_ok_iff.1 h3
  subst this
  obtain ⟨cl', g4'⟩ := loadClusterersFrom_shape lang.2 o o' _ fs _ [] [] ⟨cl, g4⟩
  refine ⟨(lang.2, ⟨gz, st, cl', sw⟩, ⟨lang.2.lower, cp.1, bp, cp.2⟩), Load.bind_ok_iff.2 ⟨m, h1, ?_⟩, rfl, rfl⟩
  unfold loadResourcesOf
  refine Load.bind_ok_iff.2 ⟨lang, h2, Load.bind_ok_iff.2 ⟨_, ?_, pure_ok_iff.2 rfl⟩⟩
  unfold loadSharedResources
  exact Load.bind_ok_iff.2 ⟨rm, g1, Load.bind_ok_iff.2 ⟨st, g2, Load.bind_ok_iff.2 ⟨gz, g3,
    Load.bind_ok_iff.2 ⟨cl', g4', Load.bind_ok_iff.2 ⟨sw, g5, Load.bind_ok_iff.2 ⟨bp, g6,
    Load.bind_ok_iff.2 ⟨cp, g7, pure_ok_iff.2 rfl⟩⟩⟩⟩⟩⟩⟩

end Snips
