import Verif.Spec.InjectedEngine
import Verif.Proofs.Relocation
import Verif.Props.C43_Injection

/-! Helpers for C90. -/

namespace Snips

open Load

variable {α β π : Type}

/-! ### Computations that depend only on the files they read -/

/-- On another disk with the same files where it read, the computation does the same. -/
structure FilesOnly (m : Load α) : Prop where
  same : ∀ fs fs' : Fs, (∀ p ∈ (m fs).2, fs' (resolve p) = fs (resolve p)) → m fs' = m fs

theorem filesOnly_pure (a : α) : FilesOnly (Pure.pure a : Load α) := ⟨fun _ _ _ => rfl⟩

theorem filesOnly_lift (o : Outcome α) : FilesOnly (Load.lift o) := ⟨fun _ _ _ => rfl⟩

theorem filesOnly_file (p : Path) (d : List Nat → Outcome α) : FilesOnly (Load.file p d) := by
  refine ⟨fun fs fs' h => ?_⟩
  have hp : p ∈ (Load.file p d fs).2 := by
    unfold Load.file; split <;> exact List.mem_singleton.2 rfl
  unfold Load.file
  rw [h p hp]

theorem filesOnly_bind {m : Load α} {f : α → Load β} (hm : FilesOnly m) (hf : ∀ a, FilesOnly (f a)) :
    FilesOnly (m >>= f) := by
  refine ⟨fun fs fs' h => ?_⟩
  rcases hr : m fs with ⟨r, t⟩
  cases r with
  | ok a =>
    rw [bind_ok hr] at h ⊢
    have h1 : m fs' = m fs := hm.same fs fs' fun p hp => h p (List.mem_append_left _ (by rw [hr] at hp; exact hp))
    rw [bind_ok (h1.trans hr), (hf a).same fs fs' fun p hp => h p (List.mem_append_right _ hp)]
  | err e =>
    rw [bind_err hr] at h ⊢
    exact bind_err ((hm.same fs fs' fun p hp => h p (by rw [hr] at hp; exact hp)).trans hr)
  | panic =>
    have hb : ∀ g : Fs, m g = (.panic, t) → (m >>= f) g = (.panic, t) := by
      intro g hg; rw [bind_def]; unfold Load.bind; rw [hg]
    rw [hb fs hr] at h ⊢
    exact hb fs' ((hm.same fs fs' fun p hp => h p (by rw [hr] at hp; exact hp)).trans hr)

theorem filesOnly_mapM {f : α → Load β} (hf : ∀ a, FilesOnly (f a)) : ∀ l, FilesOnly (Load.mapM f l)
  | [] => filesOnly_pure _
  | a :: l => filesOnly_bind (hf a) fun _ => filesOnly_bind (filesOnly_mapM hf l) fun _ => filesOnly_pure _

theorem filesOnly_stemmer (fns : TextFns) (dir : Path) (m : ResourcesJson) : FilesOnly (loadStemmer fns dir m) := by
  unfold loadStemmer
  cases m.stems with
  | none => exact filesOnly_pure _
  | some s => exact filesOnly_bind (filesOnly_file ..) fun _ => filesOnly_pure _

theorem filesOnly_gazetteersFrom (fns : TextFns) (dir : Path) : ∀ (l : List Text) (m : Map Text Gazetteer),
    FilesOnly (loadGazetteersFrom fns dir l m)
  | [], _ => filesOnly_pure _
  | _ :: rest, _ => filesOnly_bind (filesOnly_file ..) fun _ => filesOnly_gazetteersFrom fns dir rest _

theorem filesOnly_clusterersFrom (fns : TextFns) (o : HashOrd) (dir : Path) :
    ∀ (l : List Text) (m : Map Text WordClusterer), FilesOnly (loadClusterersFrom fns o dir l m)
  | [], _ => filesOnly_pure _
  | _ :: rest, _ => filesOnly_bind (filesOnly_file ..) fun _ => filesOnly_clusterersFrom fns o dir rest _

theorem filesOnly_stopWords (dir : Path) (m : ResourcesJson) : FilesOnly (loadStopWords dir m) := by
  unfold loadStopWords
  cases m.stopWords with
  | none => exact filesOnly_pure _
  | some s => exact filesOnly_file ..

theorem filesOnly_cooc (env : LoadEnv) (o : HashOrd) (path : Path) (name : Option Text) :
    FilesOnly (loadCooc env o path name) := by
  unfold loadCooc
  cases name with
  | none => exact filesOnly_pure _
  | some n => exact filesOnly_bind (filesOnly_file ..) fun _ => filesOnly_bind (filesOnly_lift _) fun _ => filesOnly_pure _

theorem filesOnly_featurizer (env : LoadEnv) (fns : TextFns) (o : HashOrd) (r : Resources) (path : Path) :
    FilesOnly (loadFeaturizer env fns o r path) :=
  filesOnly_bind (filesOnly_file ..) fun _ => filesOnly_bind (filesOnly_file ..) fun _ =>
    filesOnly_bind (filesOnly_lift _) fun _ => filesOnly_bind (filesOnly_cooc ..) fun _ => filesOnly_pure _

theorem filesOnly_optFeaturizer (env : LoadEnv) (fns : TextFns) (o : HashOrd) (r : Resources) (path : Path)
    (name : Option Text) : FilesOnly (loadOptFeaturizer env fns o r path name) := by
  unfold loadOptFeaturizer
  cases name with
  | none => exact filesOnly_pure _
  | some n => exact filesOnly_bind (filesOnly_featurizer ..) fun _ => filesOnly_pure _

theorem filesOnly_logReg (env : LoadEnv) (fns : TextFns) (o : HashOrd) (r : Resources) (path : Path) :
    FilesOnly (loadLogRegClassifier env fns o r path) :=
  filesOnly_bind (filesOnly_file ..) fun _ => filesOnly_bind (filesOnly_optFeaturizer ..) fun _ =>
    filesOnly_bind (filesOnly_lift _) fun _ => filesOnly_pure _

theorem filesOnly_classifier (env : LoadEnv) (fns : TextFns) (o : HashOrd) (r : Resources) (path : Path) :
    FilesOnly (buildIntentClassifier env fns o r path) := by
  refine filesOnly_bind (filesOnly_file ..) fun kind => ?_
  split
  · exact filesOnly_logReg ..
  · exact filesOnly_lift _

theorem filesOnly_tagger (env : LoadEnv) (fns : TextFns) (r : Resources) (path : Path) (m : SlotFillerJson) :
    FilesOnly (loadTagger env fns r path m) := by
  unfold loadTagger
  cases m.crfModelFile with
  | none => exact filesOnly_pure _
  | some n => exact filesOnly_bind (filesOnly_file ..) fun _ => filesOnly_bind (filesOnly_lift _) fun _ => filesOnly_pure _

theorem filesOnly_crf (env : LoadEnv) (fns : TextFns) (r : Resources) (path : Path) :
    FilesOnly (loadCrfSlotFiller env fns r path) :=
  filesOnly_bind (filesOnly_file ..) fun _ => filesOnly_bind (filesOnly_lift _) fun _ =>
    filesOnly_bind (filesOnly_tagger ..) fun _ => filesOnly_bind (filesOnly_lift _) fun _ => filesOnly_pure _

theorem filesOnly_slotFiller (env : LoadEnv) (fns : TextFns) (r : Resources) (path : Path) :
    FilesOnly (buildSlotFiller env fns r path) := by
  refine filesOnly_bind (filesOnly_file ..) fun kind => ?_
  split
  · exact filesOnly_crf ..
  · exact filesOnly_lift _

theorem filesOnly_probabilistic (env : LoadEnv) (fns : TextFns) (o : HashOrd) (r : Resources) (path : Path) :
    FilesOnly (loadProbabilistic env fns o r path) :=
  filesOnly_bind (filesOnly_file ..) fun _ => filesOnly_bind (filesOnly_classifier ..) fun _ =>
    filesOnly_bind (filesOnly_mapM (fun _ => filesOnly_bind (filesOnly_slotFiller ..) fun _ => filesOnly_pure _) _) fun _ =>
    filesOnly_pure _

theorem filesOnly_parser (env : LoadEnv) (fns : TextFns) (o : HashOrd) (r : Resources) (kind : UnitKind) (path : Path) :
    FilesOnly (buildIntentParser env fns o r kind path) := by
  unfold buildIntentParser
  split
  · exact filesOnly_bind (filesOnly_file ..) fun _ => filesOnly_lift _
  · exact filesOnly_bind (filesOnly_file ..) fun _ => filesOnly_lift _
  · exact filesOnly_probabilistic ..
  · exact filesOnly_lift _

theorem filesOnly_intentParser (env : LoadEnv) (fns : TextFns) (o : HashOrd) (r : Resources) (dir : Path) (name : Text) :
    FilesOnly (loadIntentParser env fns o r dir name) :=
  filesOnly_bind (filesOnly_file ..) fun _ => filesOnly_parser ..

theorem filesOnly_model (env : LoadEnv) (dir : Path) : FilesOnly (loadModel env dir) := by
  refine filesOnly_bind (filesOnly_bind (filesOnly_file ..) fun v => ?_) fun _ => filesOnly_file ..
  split
  · exact filesOnly_lift _
  · exact filesOnly_pure _

/-! ### Engines with other extraction engines -/

/-- `m` gives `a` on the first disk and `a'` on the second, reading the same files, as far as the second has the files that
were read. -/
def LoadsTo (fs fs' : Fs) (m m' : Load α) (R : α → α → Prop) : Prop :=
  ∀ a, (m fs).1 = .ok a → (∀ p ∈ (m fs).2, fs' (resolve p) = fs (resolve p)) → ∃ a', m' fs' = (.ok a', (m fs).2) ∧ R a a'

theorem FilesOnly.gives {m : Load α} (h : FilesOnly m) (fs fs' : Fs) : LoadsTo fs fs' m m Eq :=
  fun a ha hp => ⟨a, by rw [h.same fs fs' hp]; exact Prod.ext ha rfl, rfl⟩

theorem gives_bind {fs fs' : Fs} {m m' : Load α} {f f' : α → Load β} {R : α → α → Prop} {S : β → β → Prop}
    (hm : LoadsTo fs fs' m m' R) (hf : ∀ a a', (m fs).1 = .ok a → R a a' → LoadsTo fs fs' (f a) (f' a') S) :
    LoadsTo fs fs' (m >>= f) (m' >>= f') S := by
  intro b hb hp
  obtain ⟨a, ha, hb⟩ := bind_ok_iff.1 hb
  rw [bind_ok (Prod.ext ha rfl)] at hp ⊢
  obtain ⟨a', ha', hR⟩ := hm a ha fun p h => hp p (List.mem_append_left _ h)
  obtain ⟨b', hb', hS⟩ := hf a a' ha hR b hb fun p h => hp p (List.mem_append_right _ h)
  exact ⟨b', by rw [bind_ok ha', hb'], hS⟩

theorem gives_bind_eq {fs fs' : Fs} {m : Load α} {f f' : α → Load β} {S : β → β → Prop}
    (hm : FilesOnly m) (hf : ∀ a, (m fs).1 = .ok a → LoadsTo fs fs' (f a) (f' a) S) : LoadsTo fs fs' (m >>= f) (m >>= f') S :=
  gives_bind (hm.gives fs fs') fun a _ ha h => h ▸ hf a ha

theorem gives_pure {fs fs' : Fs} {a a' : α} {R : α → α → Prop} (h : R a a') :
    LoadsTo fs fs' (Pure.pure a : Load α) (Pure.pure a') R := by
  intro b hb _
  obtain rfl := pure_ok_iff.1 hb
  exact ⟨a', rfl, h⟩

theorem gives_directory {fs fs' : Fs} {p : Path} {d : Fs → Outcome α} {a' : α} (h : d (fun q => fs' (resolve p ++ q)) = .ok a') :
    LoadsTo fs fs' (Load.directory p d) (Load.directory p d) fun _ x => x = a' :=
  fun _ _ _ => ⟨a', Prod.ext h rfl, rfl⟩

/-- The shared resources are loaded from the second disk with what the dependencies make of their directories there. -/
theorem gives_resources {env : LoadEnv} {o : HashOrd} {dir : Path} {fs fs' : Fs} {m : EngineJson}
    {b : Nat → Text → Option (List Kind) → Nat → Outcome (List BuiltinEntity)}
    {g : Text → Option (List Text) → Nat → Outcome (List CustomEntity)}
    (hb : env.builtinParser (fun q => fs' (resolve (joinPath dir m.builtinEntityParser) ++ q)) = .ok b)
    (hg : ∀ c, Decodes fs (joinPath dir m.customEntityParser ++ ["metadata.json".toList]) env.customParser c →
      env.gazetteerParser (fun q => fs' (resolve (joinPath (joinPath dir m.customEntityParser) c.parserDirectory) ++ q)) = .ok g) :
    LoadsTo fs fs' (loadResourcesOf env o dir m) (loadResourcesOf env o dir m) fun r r' =>
      r' = (r.1, r.2.1, { r.2.2 with builtinRaw := b, gazetteer := g }) := by
  refine gives_bind_eq (filesOnly_lift _) fun lang _ => ?_
  refine gives_bind (R := fun r r' => r' = (r.1, { r.2 with builtinRaw := b, gazetteer := g })) ?_ ?_
  · refine gives_bind_eq (filesOnly_file ..) fun _ _ => gives_bind_eq (filesOnly_stemmer ..) fun _ _ =>
      gives_bind_eq (filesOnly_gazetteersFrom ..) fun _ _ => gives_bind_eq (filesOnly_clusterersFrom ..) fun _ _ =>
      gives_bind_eq (filesOnly_stopWords ..) fun _ _ => gives_bind (gives_directory hb) fun b0 b' _ hb' => ?_
    refine gives_bind (R := fun c c' => c' = (c.1, g)) ?_ ?_
    · refine gives_bind_eq (filesOnly_file ..) fun c hc => gives_bind_eq (filesOnly_lift _) fun _ _ =>
        gives_bind (gives_directory (hg c (file_ok_iff.1 hc))) fun _ _ _ h => gives_pure (by rw [h])
    · intro c c' _ hc
      exact gives_pure (by rw [hc, hb'])
  · intro r r' _ hr
    exact gives_pure (by rw [hr])

/-- The engine is loaded from the second disk with what the dependencies make of their directories there. -/
theorem gives_engine {env : LoadEnv} {o : HashOrd} {dir : Path} {fs fs' : Fs}
    {b : Nat → Text → Option (List Kind) → Nat → Outcome (List BuiltinEntity)}
    {g : Text → Option (List Text) → Nat → Outcome (List CustomEntity)}
    (hb : ∀ m, Decodes fs (dir ++ ["nlu_engine.json".toList]) env.engine m →
      env.builtinParser (fun q => fs' (resolve (joinPath dir m.builtinEntityParser) ++ q)) = .ok b)
    (hg : ∀ m c, Decodes fs (dir ++ ["nlu_engine.json".toList]) env.engine m →
      Decodes fs (joinPath dir m.customEntityParser ++ ["metadata.json".toList]) env.customParser c →
      env.gazetteerParser (fun q => fs' (resolve (joinPath (joinPath dir m.customEntityParser) c.parserDirectory) ++ q)) = .ok g) :
    LoadsTo fs fs' (loadEngine env o dir) (loadEngine env o dir) fun e e' =>
      e' = { e with ext := { e.ext with builtinRaw := b, gazetteer := g } } := by
  refine gives_bind_eq (filesOnly_model ..) fun m hm => ?_
  have hm' : Decodes fs (dir ++ ["nlu_engine.json".toList]) env.engine m := by
    unfold loadModel at hm
    obtain ⟨_, _, h⟩ := bind_ok_iff.1 hm
    exact file_ok_iff.1 h
  refine gives_bind (gives_resources (hb m hm') fun c hc => hg m c hm' hc) ?_
  intro r r' _ hr
  subst hr
  exact gives_bind_eq (filesOnly_mapM (fun _ => filesOnly_intentParser ..) _) fun ps _ => gives_pure rfl

/-! ### Paths and lists -/

theorem resolve_append_plain (p : Path) {r : Path} (h : PlainPath r) : resolve (p ++ r) = resolve p ++ r := by
  have : ∀ (acc q : Path), PlainPath q →
      q.foldl (fun acc c => if c = dotDot then acc.dropLast else acc ++ [c]) acc = acc ++ q := by
    intro acc q hq
    induction q generalizing acc with
    | nil => simp
    | cons c q ih =>
      have h1 : c ≠ dotDot := fun h => hq (by rw [h]; exact List.mem_cons_self ..)
      rw [List.foldl_cons, if_neg h1, ih _ fun h => hq (List.mem_cons_of_mem _ h)]
      simp
  unfold resolve
  rw [List.foldl_append, this _ r h]

theorem resolve_join (p : Path) {n : Text} (h : RelativeName n) : resolve (joinPath p n) = resolve p ++ pathComponents n := by
  rw [joinPath_plain h, resolve_append_plain p (pathComponents_plain h)]

theorem resolve_metadata (p : Path) : resolve (p ++ ["metadata.json".toList]) = resolve p ++ ["metadata.json".toList] :=
  resolve_append_plain p (by unfold PlainPath; decide)

theorem mem_of_lookup {β : Type} : ∀ {l : List (Text × β)} {k : Text} {v : β}, l.lookup k = some v → (k, v) ∈ l
  | (k', v') :: l, k, v, h => by
    rw [List.lookup_cons] at h
    by_cases hk : k = k'
    · subst hk
      simp only [BEq.rfl, Option.some.injEq] at h
      exact h ▸ List.mem_cons_self ..
    · rw [show (k == k') = false by simpa using hk] at h
      exact List.mem_cons_of_mem _ (mem_of_lookup h)

theorem lookup_nodup {β : Type} : ∀ {l : List (Text × β)} {x : Text × β}, (l.map Prod.fst).Nodup → x ∈ l →
    l.lookup x.1 = some x.2
  | (k, v) :: l, x, hn, hx => by
    rw [List.map_cons, List.nodup_cons] at hn
    rcases List.mem_cons.1 hx with rfl | hx
    · simp [List.lookup]
    · have hne : x.1 ≠ k := fun h => hn.1 (List.mem_map.2 ⟨x, hx, h⟩)
      rw [List.lookup_cons, show (x.1 == k) = false by simpa using hne]
      exact lookup_nodup hn.2 hx

theorem describes_unique {env : InjectEnv π} {fs : Fs} {dir : Path} {d d' : EngineDesc} (h : Describes env fs dir d)
    (h' : Describes env fs dir d') : d = d' := by
  obtain ⟨info, builtin, custom, h1, h2, h3⟩ := describes_infos h
  have a := (infos_iff h1 h2 h3 d).1 h
  have a' := (infos_iff h1 h2 h3 d').1 h'
  obtain ⟨w, e, u, c, b⟩ := d
  obtain ⟨w', e', u', c', b'⟩ := d'
  have e1 := a.words.trans a'.words.symm
  have e2 := a.entities.trans a'.entities.symm
  have e3 := a.usage.trans a'.usage.symm
  have e4 := a.customParsers.trans a'.customParsers.symm
  have e5 := a.builtinParsers.trans a'.builtinParsers.symm
  simp only at e1 e2 e3 e4 e5
  subst e1 e2 e3 e4 e5
  rfl

theorem parserDir_mem {env : InjectEnv π} {d : EngineDesc} {e : Text} {p : Path} (h : ParserDir env d e p) :
    (e, p) ∈ d.customParsers ++ d.builtinParsers := by
  rcases h with ⟨_, h⟩ | ⟨_, _, h⟩
  · exact List.mem_append_left _ (mem_of_lookup h)
  · exact List.mem_append_right _ (mem_of_lookup h)

theorem apart_symm {a b : Text × Path} (h : Apart a b) : Apart b a := ⟨h.2, h.1⟩

theorem apart_outside {a b : Text × Path} (h : Apart a b) (q : Path) : ¬ resolve b.2 <+: resolve a.2 ++ q := by
  intro h1
  rcases List.prefix_or_prefix_of_prefix (List.prefix_append (resolve a.2) q) h1 with h2 | h2
  · exact h.1 h2
  · exact h.2 h2

theorem pairwise_apart {l : List (Text × Path)} (h : l.Pairwise Apart) {a b : Text × Path} (ha : a ∈ l) (hb : b ∈ l)
    (hne : a ≠ b) : Apart a b :=
  haveI : Std.Symm Apart := ⟨fun _ _ => apart_symm⟩
  h.forall ha hb hne

/-! ### What is read after an injection -/

section

variable {env : InjectEnv π} {d : EngineDesc} {s : Option (Text → Text)} {i : Injector} {fs fs' : Fs}

/-- Parsers listed in a directory, before and after. -/
theorem readsParsers_after (back : ∀ p, env.fromFolder (env.dump p) = .ok p) {G : Path} {mine : Text → Prop}
    {L : List (Text × Path)}
    (hnew : ∀ e values, (e, values) ∈ i.entityValues → ∃ p out, ParserDir env d e p ∧ ToInject env d s e values out ∧
      NewParser env i.fromVanilla fs fs' p out)
    (hkeep : ∀ q, (∀ e ∈ i.entityValues.keys, ∀ p, ParserDir env d e p → ¬ resolve p <+: q) → fs' q = fs q)
    (hmeta : ∀ e ∈ i.entityValues.keys, ∀ p, ParserDir env d e p → ¬ resolve p <+: resolve G ++ ["metadata.json".toList])
    (hmine : ∀ x ∈ L, x.1 ∈ i.entityValues.keys → mine x.1 → ParserDir env d x.1 x.2)
    (hother : ∀ x ∈ L, ¬(x.1 ∈ i.entityValues.keys ∧ mine x.1) → ∀ e ∈ i.entityValues.keys, ∀ p, ParserDir env d e p →
      Apart x (e, p))
    (hL : ListsParsers env fs G L) {ps : List (Text × π)} (hr : ReadsParsers env (fun q => fs (resolve G ++ q)) ps) :
    ∃ ps', List.Forall₂ (AfterInjection env d s i mine) ps ps' ∧ ReadsParsers env (fun q => fs' (resolve G ++ q)) ps' := by
  obtain ⟨bytes, g, hb, hg, hps⟩ := hr
  obtain ⟨g', hg', rfl⟩ := hL
  obtain rfl : g' = g := decodes_unique hg' ⟨bytes, by unfold FileAt; rw [resolve_metadata]; exact hb, hg⟩
  have key : ∀ (ns : List (Text × Text)) (qs : List (Text × π)),
      (∀ n ∈ ns, (n.1, joinPath G n.2) ∈ g'.parsers.map fun p => (p.1, joinPath G p.2)) →
      List.Forall₂ (fun (n : Text × Text) (p : Text × π) => RelativeName n.2 ∧ p.1 = n.1 ∧
        env.fromFolder (fun q => fs (resolve G ++ (pathComponents n.2 ++ q))) = .ok p.2) ns qs →
      ∃ qs', List.Forall₂ (AfterInjection env d s i mine) qs qs' ∧
        List.Forall₂ (fun (n : Text × Text) (p : Text × π) => RelativeName n.2 ∧ p.1 = n.1 ∧
          env.fromFolder (fun q => fs' (resolve G ++ (pathComponents n.2 ++ q))) = .ok p.2) ns qs' := by
    intro ns qs hns h
    induction h with
    | nil => exact ⟨[], .nil, .nil⟩
    | @cons n p ns qs hp _ ih =>
      obtain ⟨qs', h1, h2⟩ := ih fun x hx => hns x (List.mem_cons_of_mem _ hx)
      obtain ⟨hrel, hname, hread⟩ := hp
      have hpath : ∀ (f : Fs), (fun q => f (resolve G ++ (pathComponents n.2 ++ q)))
          = fun q => f (resolve (joinPath G n.2) ++ q) := by
        intro f; funext q; rw [resolve_join G hrel, List.append_assoc]
      rw [hpath] at hread
      have hmem := hns n (List.mem_cons_self ..)
      by_cases haff : n.1 ∈ i.entityValues.keys ∧ mine n.1
      · obtain ⟨ev, hev, hek⟩ := List.mem_map.1 haff.1
        obtain ⟨e, values⟩ := ev
        simp only at hek
        subst hek
        obtain ⟨p', out, hd', hto, old, new, ho, hi, hn'⟩ := hnew n.1 values hev
        obtain rfl := parserDir_unique hd' (hmine _ hmem haff.1 haff.2)
        rw [hread] at ho
        cases ho
        refine ⟨(n.1, new) :: qs', .cons ⟨hname.symm, .inl ⟨values, out, ?_, ?_, ?_, hi⟩⟩ h1, .cons ⟨hrel, rfl, ?_⟩ h2⟩
        · rw [hname]; exact hev
        · rw [hname]; exact haff.2
        · rw [hname]; exact hto
        · rw [hpath, show (fun q => fs' (resolve (joinPath G n.2) ++ q)) = env.dump new from funext hn']
          exact back new
      · refine ⟨p :: qs', .cons ⟨rfl, .inr ⟨by rw [hname]; exact haff, rfl⟩⟩ h1, .cons ⟨hrel, hname, ?_⟩ h2⟩
        rw [hpath, show (fun q => fs' (resolve (joinPath G n.2) ++ q)) = fun q => fs (resolve (joinPath G n.2) ++ q) from
          funext fun q => hkeep _ fun e he p' hp' => apart_outside (hother _ hmem haff e he p' hp') q]
        exact hread
  obtain ⟨ps', h1, h2⟩ := key g'.parsers ps (fun n hn => List.mem_map.2 ⟨n, hn, rfl⟩) hps
  exact ⟨ps', h1, bytes, g', (hkeep _ hmeta).trans hb, hg, h2⟩

end

/-! ### Files that the loader reads -/

theorem trace_left {m : Load α} {f : α → Load β} {fs : Fs} {p : Path} (h : p ∈ (m fs).2) : p ∈ ((m >>= f) fs).2 := by
  rw [bind_def]
  unfold Load.bind
  rcases hr : m fs with ⟨r, t⟩
  rw [hr] at h
  cases r with
  | ok a => exact List.mem_append_left _ h
  | err e => exact h
  | panic => exact h

theorem trace_right {m : Load α} {f : α → Load β} {fs : Fs} {p : Path} {a : α} (ha : (m fs).1 = .ok a)
    (h : p ∈ (f a fs).2) : p ∈ ((m >>= f) fs).2 := by
  rw [bind_ok (Prod.ext ha rfl)]
  exact List.mem_append_right _ h

theorem trace_file {p : Path} {d : List Nat → Outcome α} {fs : Fs} : p ∈ (Load.file p d fs).2 := by
  unfold Load.file; split <;> exact List.mem_singleton.2 rfl

theorem trace_engine {env : LoadEnv} {o : HashOrd} {dir : Path} {fs : Fs} {e : LoadedEngine}
    (h : (loadEngine env o dir fs).1 = .ok e) {m : EngineJson} (hm : Decodes fs (dir ++ ["nlu_engine.json".toList]) env.engine m) :
    dir ++ ["nlu_engine.json".toList] ∈ (loadEngine env o dir fs).2 ∧
    joinPath dir m.customEntityParser ++ ["metadata.json".toList] ∈ (loadEngine env o dir fs).2 := by
  refine ⟨trace_left (trace_left (trace_left trace_file)), ?_⟩
  obtain ⟨m', hm', h⟩ := bind_ok_iff.1 h
  have h1 : Decodes fs (dir ++ ["nlu_engine.json".toList]) env.engine m' := by
    unfold loadModel at hm'
    obtain ⟨_, _, h⟩ := bind_ok_iff.1 hm'
    exact file_ok_iff.1 h
  obtain rfl := decodes_unique hm h1
  refine trace_right hm' (trace_left ?_)
  obtain ⟨r, hr, _⟩ := bind_ok_iff.1 h
  obtain ⟨lang, hl, hr⟩ := bind_ok_iff.1 hr
  refine trace_right hl (trace_left ?_)
  obtain ⟨r', hr, _⟩ := bind_ok_iff.1 hr
  obtain ⟨a1, h1, hr⟩ := bind_ok_iff.1 hr
  refine trace_right h1 ?_
  obtain ⟨a2, h2, hr⟩ := bind_ok_iff.1 hr
  refine trace_right h2 ?_
  obtain ⟨a3, h3, hr⟩ := bind_ok_iff.1 hr
  refine trace_right h3 ?_
  obtain ⟨a4, h4, hr⟩ := bind_ok_iff.1 hr
  refine trace_right h4 ?_
  obtain ⟨a5, h5, hr⟩ := bind_ok_iff.1 hr
  refine trace_right h5 ?_
  obtain ⟨a6, h6, hr⟩ := bind_ok_iff.1 hr
  exact trace_right h6 (trace_left (trace_left trace_file))

end Snips
