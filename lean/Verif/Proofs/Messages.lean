import Verif.Spec.Messages
import Verif.Proofs.Loading

/-! Helpers for C89. -/

namespace Snips

variable {α β : Type}

/-- Forgetting the messages. -/
def TLoad.forget (m : TLoad α) : Load α := fun fs => ((m fs).1.outcome, (m fs).2)

theorem outcome_of (o : Outcome α) : (Report.of o).outcome = o := by cases o <;> rfl

theorem outcome_context (t : Text) (r : Report α) : (r.context t).outcome = r.outcome := by cases r <;> rfl

theorem outcome_contextOpt (t : Option Text) (r : Report α) : (r.contextOpt t).outcome = r.outcome := by
  cases t with
  | none => rfl
  | some t => exact outcome_context t r

theorem forget_pure (a : α) : (Pure.pure a : TLoad α).forget = Pure.pure a := rfl

theorem forget_bind (m : TLoad α) (f : α → TLoad β) : (m >>= f).forget = m.forget >>= fun a => (f a).forget := by
  funext fs
  show ((TLoad.bind m f fs).1.outcome, (TLoad.bind m f fs).2) = Load.bind m.forget (fun a => (f a).forget) fs
  unfold TLoad.bind Load.bind TLoad.forget
  rcases h : m fs with ⟨r, t⟩
  cases r <;> rfl

theorem forget_lift (o : Outcome α) : (TLoad.lift o).forget = Load.lift o := by
  funext fs; simp only [TLoad.forget, TLoad.lift, Load.lift, outcome_of]

theorem forget_file (p : Path) (a b : Option Text) (d : List Nat → Outcome α) :
    (TLoad.file p a b d).forget = Load.file p d := by
  funext fs
  simp only [TLoad.forget, TLoad.file, Load.file]
  split
  · rename_i bytes h
    simp only [outcome_contextOpt, outcome_of, h]
  · rename_i h
    rw [outcome_contextOpt]
    split
    · rename_i bytes hb; exact absurd hb (h bytes)
    · rfl

theorem forget_directory (p : Path) (d : Fs → Outcome α) : (TLoad.directory p d).forget = Load.directory p d := by
  funext fs; simp only [TLoad.forget, TLoad.directory, Load.directory, outcome_of]

theorem forget_context (t : Text) (m : TLoad α) : (m.context t).forget = m.forget := by
  funext fs; simp only [TLoad.forget, TLoad.context, outcome_context]

theorem forget_mapM (f : α → TLoad β) (l : List α) : (TLoad.mapM f l).forget = Load.mapM (fun a => (f a).forget) l := by
  induction l with
  | nil => rfl
  | cons a l ih =>
    simp only [TLoad.mapM, Load.mapM, forget_bind, ih]
    rfl

section

variable (msg : MessageEnv) (env : LoadEnv)

theorem forget_stemmer (fns : TextFns) (dir : Path) (m : ResourcesJson) :
    (tloadStemmer msg fns dir m).forget = loadStemmer fns dir m := by
  unfold tloadStemmer loadStemmer
  cases m.stems <;> simp only [forget_bind, forget_file, forget_pure]

theorem forget_gazetteers (fns : TextFns) (dir : Path) : ∀ (l : List Text) (m : Map Text Gazetteer),
    (tloadGazetteersFrom msg fns dir l m).forget = loadGazetteersFrom fns dir l m
  | [], _ => rfl
  | name :: rest, m => by
    simp only [tloadGazetteersFrom, loadGazetteersFrom, forget_bind, forget_file, forget_gazetteers fns dir rest]

theorem forget_clusterers (fns : TextFns) (o : HashOrd) (dir : Path) : ∀ (l : List Text) (m : Map Text WordClusterer),
    (tloadClusterersFrom msg fns o dir l m).forget = loadClusterersFrom fns o dir l m
  | [], _ => rfl
  | name :: rest, m => by
    simp only [tloadClusterersFrom, loadClusterersFrom, forget_bind, forget_file, forget_clusterers fns o dir rest]

theorem forget_stopWords (dir : Path) (m : ResourcesJson) :
    (tloadStopWords msg dir m).forget = loadStopWords dir m := by
  unfold tloadStopWords loadStopWords
  cases m.stopWords <;> simp only [forget_file, forget_pure]

theorem forget_customParser (path : Path) : (tloadCustomParser msg env path).forget = loadCustomParser env path := by
  simp only [tloadCustomParser, loadCustomParser, forget_bind, forget_file, forget_lift, forget_directory, forget_pure]

theorem forget_sharedResources (fns : TextFns) (o : HashOrd) (dir b c : Path) :
    (tloadSharedResources msg env fns o dir b c).forget = loadSharedResources env fns o dir b c := by
  simp only [tloadSharedResources, loadSharedResources, forget_bind, forget_file, forget_directory, forget_pure,
    forget_stemmer, forget_gazetteers, forget_clusterers, forget_stopWords, forget_customParser, loadGazetteers,
    loadClusterers]

theorem forget_resourcesOf (o : HashOrd) (dir : Path) (m : EngineJson) :
    (tloadResourcesOf msg env o dir m).forget = loadResourcesOf env o dir m := by
  simp only [tloadResourcesOf, loadResourcesOf, forget_bind, forget_lift, forget_pure, forget_sharedResources]

theorem forget_cooc (o : HashOrd) (path : Path) (name : Option Text) :
    (tloadCooc msg env o path name).forget = loadCooc env o path name := by
  unfold tloadCooc loadCooc
  cases name <;> simp only [forget_bind, forget_file, forget_lift, forget_pure]

theorem forget_featurizer (fns : TextFns) (o : HashOrd) (r : Resources) (path : Path) :
    (tloadFeaturizer msg env fns o r path).forget = loadFeaturizer env fns o r path := by
  simp only [tloadFeaturizer, loadFeaturizer, forget_bind, forget_file, forget_lift, forget_pure, forget_cooc]

theorem forget_optFeaturizer (fns : TextFns) (o : HashOrd) (r : Resources) (path : Path) (name : Option Text) :
    (tloadOptFeaturizer msg env fns o r path name).forget = loadOptFeaturizer env fns o r path name := by
  unfold tloadOptFeaturizer loadOptFeaturizer
  cases name <;> simp only [forget_bind, forget_pure, forget_featurizer]

theorem forget_logReg (fns : TextFns) (o : HashOrd) (r : Resources) (path : Path) :
    (tloadLogRegClassifier msg env fns o r path).forget = loadLogRegClassifier env fns o r path := by
  simp only [tloadLogRegClassifier, loadLogRegClassifier, forget_bind, forget_file, forget_lift, forget_pure,
    forget_optFeaturizer]

theorem forget_classifier (fns : TextFns) (o : HashOrd) (r : Resources) (path : Path) :
    (tbuildIntentClassifier msg env fns o r path).forget = buildIntentClassifier env fns o r path := by
  simp only [tbuildIntentClassifier, buildIntentClassifier, forget_bind, forget_file]
  congr 1
  funext kind
  cases kind <;> simp only [forget_lift, forget_logReg]

theorem forget_tagger (fns : TextFns) (r : Resources) (path : Path) (m : SlotFillerJson) :
    (tloadTagger msg env fns r path m).forget = loadTagger env fns r path m := by
  unfold tloadTagger loadTagger
  cases m.crfModelFile <;> simp only [forget_bind, forget_file, forget_lift, forget_pure]

theorem forget_crf (fns : TextFns) (r : Resources) (path : Path) :
    (tloadCrfSlotFiller msg env fns r path).forget = loadCrfSlotFiller env fns r path := by
  simp only [tloadCrfSlotFiller, loadCrfSlotFiller, forget_bind, forget_file, forget_lift, forget_pure, forget_tagger]

theorem forget_slotFiller (fns : TextFns) (r : Resources) (path : Path) :
    (tbuildSlotFiller msg env fns r path).forget = buildSlotFiller env fns r path := by
  simp only [tbuildSlotFiller, buildSlotFiller, forget_bind, forget_file]
  congr 1
  funext kind
  cases kind <;> simp only [forget_lift, forget_crf]

theorem forget_probabilistic (fns : TextFns) (o : HashOrd) (r : Resources) (path : Path) :
    (tloadProbabilistic msg env fns o r path).forget = loadProbabilistic env fns o r path := by
  simp only [tloadProbabilistic, loadProbabilistic, forget_bind, forget_file, forget_pure, forget_classifier,
    forget_mapM, forget_slotFiller]

theorem forget_parser (fns : TextFns) (o : HashOrd) (r : Resources) (kind : UnitKind) (path : Path) :
    (tbuildIntentParser msg env fns o r kind path).forget = buildIntentParser env fns o r kind path := by
  unfold tbuildIntentParser buildIntentParser
  cases kind <;> simp only [forget_bind, forget_file, forget_lift, forget_probabilistic]

theorem forget_version (path : Path) : (tcheckModelVersion env path).forget = checkModelVersion env path := by
  simp only [tcheckModelVersion, checkModelVersion, forget_bind, forget_file]
  congr 1
  funext v
  split <;> simp only [forget_lift, forget_pure]

theorem forget_model (dir : Path) : (tloadModel msg env dir).forget = loadModel env dir := by
  simp only [tloadModel, loadModel, forget_bind, forget_file, forget_context, forget_version]

theorem forget_intentParser (fns : TextFns) (o : HashOrd) (r : Resources) (dir : Path) (name : Text) :
    (tloadIntentParser msg env fns o r dir name).forget = loadIntentParser env fns o r dir name := by
  simp only [tloadIntentParser, loadIntentParser, forget_bind, forget_file, forget_parser]

theorem forget_engine (o : HashOrd) (dir : Path) : (tloadEngine msg env o dir).forget = loadEngine env o dir := by
  simp only [tloadEngine, loadEngine, forget_bind, forget_pure, forget_model, forget_resourcesOf, forget_mapM,
    forget_intentParser]

end

namespace TLoad

theorem bind_err {m : TLoad α} {f : α → TLoad β} {fs : Fs} {cs : List Text} {e : Err} {t : List Path}
    (h : m fs = (.err cs e, t)) : (m >>= f) fs = (.err cs e, t) := by
  show TLoad.bind m f fs = _
  unfold TLoad.bind; rw [h]

theorem bind_ok {m : TLoad α} {f : α → TLoad β} {fs : Fs} {a : α} {t : List Path}
    (h : m fs = (.ok a, t)) : (m >>= f) fs = ((f a fs).1, t ++ (f a fs).2) := by
  show TLoad.bind m f fs = _
  unfold TLoad.bind; rw [h]

theorem file_found {p : Path} {a b : Option Text} {d : List Nat → Outcome α} {fs : Fs} {bytes : List Nat}
    (h : FileAt fs p bytes) : file p a b d fs = ((Report.of (d bytes)).contextOpt b, [p]) := by
  unfold file; rw [show fs (resolve p) = _ from h]

theorem file_missing {p : Path} {a b : Option Text} {d : List Nat → Outcome α} {fs : Fs} (h : NoFile fs p) :
    file p a b d fs = ((Report.of (.err (.external 210))).contextOpt a, [p]) := by
  unfold file
  split
  · rename_i bytes hb; exact absurd hb (h bytes)
  · rfl

theorem context_err {m : TLoad α} {fs : Fs} {cs : List Text} {e : Err} {t : List Path} {text : Text}
    (h : m fs = (.err cs e, t)) : m.context text fs = (.err (text :: cs) e, t) := by
  unfold context; rw [h]; rfl

theorem context_ok {m : TLoad α} {fs : Fs} {a : α} {t : List Path} {text : Text}
    (h : m fs = (.ok a, t)) : m.context text fs = (.ok a, t) := by
  unfold context; rw [h]; rfl

end TLoad

/-! ### Which file a failing computation read last -/

/-- A run that fails behind a path without file says what `N` demands of its messages; one that succeeds behind such a path
can be followed by any messages. -/
def Blames (N : Path → List Text → Prop) (fs : Fs) (r : Report α × List Path) : Prop :=
  (∀ cs e t p, r = (.err cs e, t ++ [p]) → NoFile fs p → N p cs) ∧
  (∀ a t p, r = (.ok a, t ++ [p]) → NoFile fs p → ∀ cs, N p cs)

theorem blames_pure (N : Path → List Text → Prop) (fs : Fs) (a : α) : Blames N fs ((Pure.pure a : TLoad α) fs) := by
  refine ⟨fun cs e t p h => ?_, fun b t p h => ?_⟩
  · cases (Prod.mk.inj h).1
  · exact absurd (Prod.mk.inj h).2 (by simp)

theorem blames_lift (N : Path → List Text → Prop) (fs : Fs) (o : Outcome α) : Blames N fs (TLoad.lift o fs) :=
  ⟨fun _ _ t p h => absurd (Prod.mk.inj h).2 (by simp), fun _ t p h => absurd (Prod.mk.inj h).2 (by simp)⟩

theorem blames_file {N : Path → List Text → Prop} {fs : Fs} {p : Path} {opening decoding : Option Text}
    {d : List Nat → Outcome α} (h : NoFile fs p → N p opening.toList) :
    Blames N fs (TLoad.file p opening decoding d fs) := by
  have hfile : ∀ bytes, fs (resolve p) = some (.file bytes) → ¬NoFile fs p := fun bytes hb hn => hn bytes hb
  unfold TLoad.file
  refine ⟨fun cs e t q hr hn => ?_, fun a t q hr hn => ?_⟩
  all_goals
    split at hr
    · rename_i bytes hb
      obtain ⟨_, h2⟩ := Prod.mk.inj hr
      have : t = [] ∧ p = q := by
        cases t with
        | nil => exact ⟨rfl, (List.cons.inj h2).1⟩
        | cons x t => exact absurd (congrArg List.length h2) (by simp)
      exact absurd hn (this.2 ▸ hfile bytes hb)
    · obtain ⟨h1, h2⟩ := Prod.mk.inj hr
      have : p = q := by
        cases t with
        | nil => exact (List.cons.inj h2).1
        | cons x t => exact absurd (congrArg List.length h2) (by simp)
      subst this
      first
        | (have hN := h hn
           cases opening with
           | none => cases h1; exact hN
           | some o => cases h1; exact hN)
        | (cases opening <;> cases h1)

theorem blames_directory {N : Path → List Text → Prop} {fs : Fs} {p : Path} {d : Fs → Outcome α} (h : ∀ cs, N p cs) :
    Blames N fs (TLoad.directory p d fs) := by
  unfold TLoad.directory
  refine ⟨fun cs e t q hr _ => ?_, fun a t q hr _ cs => ?_⟩
  all_goals
    have : p = q := by
      obtain ⟨_, h2⟩ := Prod.mk.inj hr
      cases t with
      | nil => exact (List.cons.inj h2).1
      | cons x t => exact absurd (congrArg List.length h2) (by simp)
    exact this ▸ h _

theorem blames_bind {N : Path → List Text → Prop} {fs : Fs} {m : TLoad α} {f : α → TLoad β} (hm : Blames N fs (m fs))
    (hf : ∀ a, (m fs).1 = .ok a → Blames N fs (f a fs)) : Blames N fs ((m >>= f) fs) := by
  show Blames N fs (TLoad.bind m f fs)
  unfold TLoad.bind
  rcases hr : m fs with ⟨r, t⟩
  rw [hr] at hm hf
  cases r with
  | panic => exact ⟨fun _ _ _ _ h => (by cases (Prod.mk.inj h).1),
      fun _ _ _ h => (by cases (Prod.mk.inj h).1)⟩
  | err cs e =>
    refine ⟨fun cs' e' t' p h hn => ?_, fun _ _ _ h => (by cases (Prod.mk.inj h).1)⟩
    obtain ⟨h1, h2⟩ := Prod.mk.inj h
    cases h1
    exact hm.1 cs e t' p (by rw [h2]) hn
  | ok a =>
    have hfa := hf a rfl
    have key : ∀ (t' : List Path) (p : Path), t ++ (f a fs).2 = t' ++ [p] →
        ((f a fs).2 = [] ∧ t = t' ++ [p]) ∨ ∃ t'', (f a fs).2 = t'' ++ [p] := by
      intro t' p h
      rcases List.eq_nil_or_concat (f a fs).2 with h0 | ⟨t'', q, hq⟩
      · left; rw [h0, List.append_nil] at h; exact ⟨h0, h⟩
      · right
        rw [List.concat_eq_append] at hq
        rw [hq, ← List.append_assoc] at h
        have := (List.append_inj' h rfl).2
        cases this
        exact ⟨t'', hq⟩
    refine ⟨fun cs e t' p h hn => ?_, fun b t' p h hn cs => ?_⟩
    · obtain ⟨h1, h2⟩ := Prod.mk.inj h
      rcases key t' p h2 with ⟨_, h3⟩ | ⟨t'', h3⟩
      · exact hm.2 a t' p (by rw [h3]) hn cs
      · exact hfa.1 cs e t'' p (Prod.ext h1 h3) hn
    · obtain ⟨h1, h2⟩ := Prod.mk.inj h
      rcases key t' p h2 with ⟨_, h3⟩ | ⟨t'', h3⟩
      · exact hm.2 a t' p (by rw [h3]) hn cs
      · exact hfa.2 b t'' p (Prod.ext h1 h3) hn cs

theorem blames_context {N : Path → List Text → Prop} {fs : Fs} {m : TLoad α} {text : Text}
    (hm : Blames (fun p cs => N p (text :: cs)) fs (m fs)) (hok : ∀ a t p, m fs = (.ok a, t ++ [p]) → ¬NoFile fs p) :
    Blames N fs (m.context text fs) := by
  unfold TLoad.context
  rcases hr : m fs with ⟨r, t⟩
  rw [hr] at hm hok
  cases r with
  | panic => exact ⟨fun _ _ _ _ h => (by cases (Prod.mk.inj h).1),
      fun _ _ _ h => (by cases (Prod.mk.inj h).1)⟩
  | err cs e =>
    refine ⟨fun cs' e' t' p h hn => ?_, fun _ _ _ h => (by cases (Prod.mk.inj h).1)⟩
    obtain ⟨h1, h2⟩ := Prod.mk.inj h
    cases h1
    exact hm.1 cs e t' p (by simp only at h2; rw [h2]) hn
  | ok a =>
    refine ⟨fun _ _ _ _ h => (by cases (Prod.mk.inj h).1), fun b t' p h hn => ?_⟩
    obtain ⟨h1, h2⟩ := Prod.mk.inj h
    exact absurd hn (hok a t' p (by simp only at h2; rw [h2]))

theorem blames_mapM {N : Path → List Text → Prop} {fs : Fs} {f : α → TLoad β} {l : List α}
    (h : ∀ a ∈ l, Blames N fs (f a fs)) : Blames N fs (TLoad.mapM f l fs) := by
  induction l with
  | nil => exact blames_pure N fs []
  | cons a l ih =>
    exact blames_bind (h a (List.mem_cons_self ..)) fun b _ =>
      blames_bind (ih fun x hx => h x (List.mem_cons_of_mem _ hx)) fun bs _ => blames_pure N fs _

/-- What a computation returned, without messages. -/
theorem forget_ok {m : TLoad α} {fs : Fs} {a : α} (h : (m fs).1 = .ok a) : (m.forget fs).1 = .ok a := by
  simp only [TLoad.forget, h]; rfl

theorem mentions_around (before : String) (x : Text) (after : String) (rest : List Text) :
    Mentions (around before x after :: rest) x :=
  ⟨_, List.mem_cons_self .., ⟨before.toList, after.toList, rfl⟩⟩

theorem context_no_blame {fs : Fs} {path : Path} {env : LoadEnv} {u : Unit} {t : List Path} {p : Path}
    (h : tcheckModelVersion env path fs = (.ok u, t ++ [p])) : ¬NoFile fs p := by
  have hb : Blames (fun q _ => ¬NoFile fs q) fs (tcheckModelVersion env path fs) := by
    by_cases hn : NoFile fs path
    · exfalso
      have h1 := forget_ok (congrArg Prod.fst h)
      rw [forget_version] at h1
      obtain ⟨b, hb, _⟩ := checkModelVersion_ok h1
      exact hn b hb
    · unfold tcheckModelVersion
      refine blames_bind (blames_file fun h => absurd h hn) fun v _ => ?_
      split
      · exact blames_lift ..
      · exact blames_pure ..
  intro hn
  exact hb.2 u t p h hn [] hn

section

variable {msg : MessageEnv} {env : LoadEnv} {N : Path → List Text → Prop} {fs : Fs}

/-- A message with the quoted path is enough. -/
def Quoting (msg : MessageEnv) (N : Path → List Text → Prop) : Prop :=
  ∀ p before after, N p [around before (msg.quote (pathText p)) after]

variable (hq : Quoting msg N)

include hq

theorem blames_stemmer (fns : TextFns) (dir : Path) (m : ResourcesJson) :
    Blames N fs (tloadStemmer msg fns dir m fs) := by
  unfold tloadStemmer
  cases m.stems with
  | none => exact blames_pure ..
  | some s => exact blames_bind (blames_file fun _ => hq ..) fun _ _ => blames_pure ..

theorem blames_gazetteers (fns : TextFns) (dir : Path) : ∀ (l : List Text) (m : Map Text Gazetteer),
    Blames N fs (tloadGazetteersFrom msg fns dir l m fs)
  | [], _ => blames_pure ..
  | _ :: rest, _ => blames_bind (blames_file fun _ => hq ..) fun _ _ => blames_gazetteers fns dir rest _

theorem blames_clusterers (fns : TextFns) (o : HashOrd) (dir : Path) : ∀ (l : List Text) (m : Map Text WordClusterer),
    Blames N fs (tloadClusterersFrom msg fns o dir l m fs)
  | [], _ => blames_pure ..
  | _ :: rest, _ => blames_bind (blames_file fun _ => hq ..) fun _ _ => blames_clusterers fns o dir rest _

theorem blames_stopWords (dir : Path) (m : ResourcesJson) : Blames N fs (tloadStopWords msg dir m fs) := by
  unfold tloadStopWords
  cases m.stopWords with
  | none => exact blames_pure ..
  | some s => exact blames_file fun _ => hq ..

theorem blames_customParser (path : Path)
    (hdir : ∀ c, FileHas fs (path ++ ["metadata.json".toList]) env.customParser c →
      ∀ cs, N (joinPath path c.parserDirectory) cs) :
    Blames N fs (tloadCustomParser msg env path fs) := by
  unfold tloadCustomParser
  refine blames_bind (blames_file fun _ => hq ..) fun c hc => ?_
  have hc' := forget_ok hc
  rw [forget_file, Load.file_ok_iff] at hc'
  exact blames_bind (blames_lift ..) fun _ _ => blames_bind (blames_directory (hdir c hc')) fun _ _ => blames_pure ..

theorem blames_sharedResources (fns : TextFns) (o : HashOrd) (dir b c : Path)
    (hmeta : ∀ cs, N (dir ++ ["metadata.json".toList]) cs) (hbuiltin : ∀ cs, N b cs)
    (hdir : ∀ m, FileHas fs (c ++ ["metadata.json".toList]) env.customParser m →
      ∀ cs, N (joinPath c m.parserDirectory) cs) :
    Blames N fs (tloadSharedResources msg env fns o dir b c fs) := by
  unfold tloadSharedResources
  exact blames_bind (blames_file fun _ => hmeta _) fun _ _ =>
    blames_bind (blames_stemmer hq ..) fun _ _ =>
    blames_bind (blames_gazetteers hq ..) fun _ _ =>
    blames_bind (blames_clusterers hq ..) fun _ _ =>
    blames_bind (blames_stopWords hq ..) fun _ _ =>
    blames_bind (blames_directory hbuiltin) fun _ _ =>
    blames_bind (blames_customParser hq c hdir) fun _ _ => blames_pure ..

theorem blames_cooc (o : HashOrd) (path : Path) (name : Option Text) :
    Blames N fs (tloadCooc msg env o path name fs) := by
  cases name with
  | none => exact blames_pure ..
  | some name =>
    exact blames_bind (blames_file fun _ => hq ..) fun _ _ => blames_bind (blames_lift ..) fun _ _ => blames_pure ..

theorem blames_featurizer (fns : TextFns) (o : HashOrd) (r : Resources) (path : Path) :
    Blames N fs (tloadFeaturizer msg env fns o r path fs) :=
  blames_bind (blames_file fun _ => hq ..) fun _ _ => blames_bind (blames_file fun _ => hq ..) fun _ _ =>
    blames_bind (blames_lift ..) fun _ _ => blames_bind (blames_cooc hq ..) fun _ _ => blames_pure ..

theorem blames_optFeaturizer (fns : TextFns) (o : HashOrd) (r : Resources) (path : Path) (name : Option Text) :
    Blames N fs (tloadOptFeaturizer msg env fns o r path name fs) := by
  cases name with
  | none => exact blames_pure ..
  | some name => exact blames_bind (blames_featurizer hq ..) fun _ _ => blames_pure ..

theorem blames_logReg (fns : TextFns) (o : HashOrd) (r : Resources) (path : Path) :
    Blames N fs (tloadLogRegClassifier msg env fns o r path fs) :=
  blames_bind (blames_file fun _ => hq ..) fun _ _ => blames_bind (blames_optFeaturizer hq ..) fun _ _ =>
    blames_bind (blames_lift ..) fun _ _ => blames_pure ..

theorem blames_classifier (fns : TextFns) (o : HashOrd) (r : Resources) (path : Path) :
    Blames N fs (tbuildIntentClassifier msg env fns o r path fs) := by
  refine blames_bind (blames_file fun _ => hq ..) fun kind _ => ?_
  split
  · exact blames_logReg hq ..
  · exact blames_lift ..

theorem blames_tagger (fns : TextFns) (r : Resources) (path : Path) (m : SlotFillerJson) :
    Blames N fs (tloadTagger msg env fns r path m fs) := by
  unfold tloadTagger
  cases m.crfModelFile with
  | none => exact blames_pure ..
  | some name =>
    exact blames_bind (blames_file fun _ => hq ..) fun _ _ => blames_bind (blames_lift ..) fun _ _ => blames_pure ..

theorem blames_crf (fns : TextFns) (r : Resources) (path : Path) :
    Blames N fs (tloadCrfSlotFiller msg env fns r path fs) :=
  blames_bind (blames_file fun _ => hq ..) fun _ _ => blames_bind (blames_lift ..) fun _ _ =>
    blames_bind (blames_tagger hq ..) fun _ _ => blames_bind (blames_lift ..) fun _ _ => blames_pure ..

theorem blames_slotFiller (fns : TextFns) (r : Resources) (path : Path) :
    Blames N fs (tbuildSlotFiller msg env fns r path fs) := by
  refine blames_bind (blames_file fun _ => hq ..) fun kind _ => ?_
  split
  · exact blames_crf hq ..
  · exact blames_lift ..

theorem blames_probabilistic (fns : TextFns) (o : HashOrd) (r : Resources) (path : Path) :
    Blames N fs (tloadProbabilistic msg env fns o r path fs) :=
  blames_bind (blames_file fun _ => hq ..) fun _ _ => blames_bind (blames_classifier hq ..) fun _ _ =>
    blames_bind (blames_mapM fun _ _ => blames_bind (blames_slotFiller hq ..) fun _ _ => blames_pure ..) fun _ _ =>
    blames_pure ..

theorem blames_parser (fns : TextFns) (o : HashOrd) (r : Resources) (kind : UnitKind) (path : Path) :
    Blames N fs (tbuildIntentParser msg env fns o r kind path fs) := by
  unfold tbuildIntentParser
  split
  · exact blames_bind (blames_file fun _ => hq ..) fun _ _ => blames_lift ..
  · exact blames_bind (blames_file fun _ => hq ..) fun _ _ => blames_lift ..
  · exact blames_probabilistic hq ..
  · exact blames_lift ..

theorem blames_intentParser (fns : TextFns) (o : HashOrd) (r : Resources) (dir : Path) (name : Text)
    (hn : ∀ before after, N (joinPath dir name ++ ["metadata.json".toList])
      [around (before ++ "'") name ("'" ++ after)]) :
    Blames N fs (tloadIntentParser msg env fns o r dir name fs) :=
  blames_bind (blames_file fun _ => hn "Could not open metadata file of parser " "") fun _ _ => blames_parser hq ..

theorem blames_model (dir : Path)
    (hv : ∀ before after, N (dir ++ ["nlu_engine.json".toList])
      [around before (pathText (dir ++ ["nlu_engine.json".toList])) after]) :
    Blames N fs (tloadModel msg env dir fs) := by
  refine blames_bind (blames_context ?_ fun _ _ _ h => context_no_blame h) fun _ _ => blames_file fun _ => hq ..
  refine blames_bind (blames_file fun _ => hv "Unable to read file '" "'") fun _ _ => ?_
  split
  · exact blames_lift ..
  · exact blames_pure ..

omit hq in
theorem tloadModel_has {dir : Path} {m : EngineJson} (h : (tloadModel msg env dir fs).1 = .ok m) :
    FileHas fs (dir ++ ["nlu_engine.json".toList]) env.engine m := by
  have h1 := forget_ok h
  rw [forget_model, loadModel, Load.bind_ok_iff] at h1
  obtain ⟨_, _, h2⟩ := h1
  rw [Load.file_ok_iff] at h2
  exact h2

end

/-- The messages name the file that is missing, unless it is one of those whose opening has no context. -/
theorem blames_engine (msg : MessageEnv) (env : LoadEnv) (o : HashOrd) (dir : Path) (fs : Fs) :
    Blames (fun p cs => NamesFile msg dir cs p ∨ ResourcesMetadataOf env dir fs p ∨ DependencyDirOf env dir fs p) fs
      (tloadEngine msg env o dir fs) := by
  have hq : Quoting msg (fun p cs => NamesFile msg dir cs p ∨ ResourcesMetadataOf env dir fs p ∨
      DependencyDirOf env dir fs p) := fun p before after => .inl (.inr (.inl (mentions_around ..)))
  refine blames_bind (blames_model hq dir fun before after => .inl (.inl (mentions_around ..))) fun m hm => ?_
  have hm' := tloadModel_has hm
  refine blames_bind (blames_bind (blames_lift ..) fun lang hl => blames_bind (blames_sharedResources hq _ _ _ _ _
    (fun cs => ?_) (fun cs => ?_) (fun c hc cs => ?_)) fun _ _ => blames_pure ..) fun r _ =>
    blames_bind (blames_mapM fun name _ => blames_intentParser hq _ _ _ _ _ fun before after => ?_) fun _ _ =>
    blames_pure ..
  · refine .inr (.inl ⟨m, lang, hm', ?_, rfl⟩)
    have h1 := forget_ok hl
    rwa [forget_lift, Load.lift_ok_iff] at h1
  · exact .inr (.inr ⟨m, hm', .inl rfl⟩)
  · exact .inr (.inr ⟨m, hm', .inr ⟨c, hc, rfl⟩⟩)
  · refine .inl (.inr (.inr ⟨name, rfl, _, List.mem_cons_self .., before.toList, after.toList, ?_⟩))
    simp [around, String.toList_append, List.append_assoc]

end Snips
