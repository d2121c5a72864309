import Verif.Spec.Relocation
import Verif.Proofs.Loading
import Verif.Proofs.Archive

/-! Lemmas about loading the same engine from two places. -/

namespace Snips

theorem pathComponents_plain {t : Text} (h : RelativeName t) : PlainPath (pathComponents t) := by
  intro hm
  exact h.noParent (List.mem_of_mem_filter hm)

theorem joinPath_plain {p : Path} {t : Text} (h : RelativeName t) : joinPath p t = p ++ pathComponents t := by
  unfold joinPath
  split
  · exact absurd rfl h.relative
  · rfl

theorem withTxt_ne_dots (name : Text) (h : name ≠ ['.', '.']) : withTxt name ≠ ['.', '.'] := by
  unfold withTxt
  rw [if_neg (show ¬ name = dotDot from h)]
  simp only
  intro he
  have := congrArg List.length he
  simp at this

theorem pathWithTxt_append {dir r : Path} (hne : r ≠ []) : pathWithTxt (dir ++ r) = dir ++ pathWithTxt r := by
  unfold pathWithTxt
  rw [List.getLast?_append_of_ne_nil _ hne]
  rw [List.getLast?_eq_getLast_of_ne_nil hne]
  simp only
  rw [List.dropLast_append_of_ne_nil hne, List.append_assoc]

theorem pathWithTxt_plain {r : Path} (h : PlainPath r) : PlainPath (pathWithTxt r) := by
  unfold pathWithTxt
  cases hl : r.getLast? with
  | none => exact h
  | some name =>
    simp only
    have hn : name ∈ r := List.mem_of_getLast? hl
    intro hm
    rcases List.mem_append.1 hm with hm | hm
    · exact h (List.dropLast_subset _ hm)
    · simp only [List.mem_singleton] at hm
      exact withTxt_ne_dots name (fun e => h (e ▸ hn)) hm.symm

/-- Two loading computations that do the same in two directories. -/
structure Reloc (dir : Path) (fs : Fs) (dir' : Path) (fs' : Fs) {α : Type} (m m' : Load α) : Prop where
  same : (m' fs').1 = (m fs).1
  reads : ∃ rs : List Path, (m fs).2 = rs.map (dir ++ ·) ∧ (m' fs').2 = rs.map (dir' ++ ·) ∧ ∀ r ∈ rs, PlainPath r

/-- The setting of relocation. -/
structure RelocSetting (env : LoadEnv) (dir : Path) (fs : Fs) (dir' : Path) (fs' : Fs) : Prop where
  plain : PlainPath dir
  plain' : PlainPath dir'
  contents : SameContents fs dir fs' dir'
  languages : PlainLanguages env
  engine : PlainEngine env fs dir

section
variable {env : LoadEnv} {dir : Path} {fs : Fs} {dir' : Path} {fs' : Fs} {α β : Type}

theorem Reloc.pure (a : α) : Reloc dir fs dir' fs' (Pure.pure a) (Pure.pure a) := ⟨rfl, [], rfl, rfl, by simp⟩

theorem Reloc.lift (o : Outcome α) : Reloc dir fs dir' fs' (Load.lift o) (Load.lift o) := ⟨rfl, [], rfl, rfl, by simp⟩

theorem Reloc.bind {m m' : Load α} {f f' : α → Load β} (h : Reloc dir fs dir' fs' m m')
    (hf : ∀ a, (m fs).1 = .ok a → Reloc dir fs dir' fs' (f a) (f' a)) :
    Reloc dir fs dir' fs' (m >>= f) (m' >>= f') := by
  obtain ⟨hs, rs, h1, h2, h3⟩ := h
  rw [Load.bind_def, Load.bind_def]
  have key : (m' fs') = ((m fs).1, rs.map (dir' ++ ·)) := Prod.ext hs h2
  have key' : (m fs) = ((m fs).1, rs.map (dir ++ ·)) := Prod.ext rfl h1
  cases ho : (m fs).1 with
  | ok a =>
    obtain ⟨hs', rs', h1', h2', h3'⟩ := hf a ho
    rw [ho] at key key'
    have e1 : Load.bind m f fs = ((f a fs).1, rs.map (dir ++ ·) ++ (f a fs).2) := by
      unfold Load.bind; rw [key']
    have e2 : Load.bind m' f' fs' = ((f' a fs').1, rs.map (dir' ++ ·) ++ (f' a fs').2) := by
      unfold Load.bind; rw [key]
    refine ⟨by rw [e1, e2]; exact hs', rs ++ rs', ?_, ?_, ?_⟩
    · rw [e1, List.map_append, h1']
    · rw [e2, List.map_append, h2']
    · intro r hr
      rcases List.mem_append.1 hr with hr | hr
      · exact h3 r hr
      · exact h3' r hr
  | err e =>
    rw [ho] at key key'
    have e1 : Load.bind m f fs = (.err e, rs.map (dir ++ ·)) := by
      unfold Load.bind; rw [key']
    have e2 : Load.bind m' f' fs' = (.err e, rs.map (dir' ++ ·)) := by
      unfold Load.bind; rw [key]
    exact ⟨by rw [e1, e2], rs, by rw [e1], by rw [e2], h3⟩
  | panic =>
    rw [ho] at key key'
    have e1 : Load.bind m f fs = (.panic, rs.map (dir ++ ·)) := by
      unfold Load.bind; rw [key']
    have e2 : Load.bind m' f' fs' = (.panic, rs.map (dir' ++ ·)) := by
      unfold Load.bind; rw [key]
    exact ⟨by rw [e1, e2], rs, by rw [e1], by rw [e2], h3⟩

variable (H : RelocSetting env dir fs dir' fs')
include H

theorem RelocSetting.at_ {r : Path} (hr : PlainPath r) : fs' (resolve (dir' ++ r)) = fs (resolve (dir ++ r)) := by
  rw [resolve_plain (H.plain.append hr), resolve_plain (H.plain'.append hr), H.contents r]

theorem Reloc.file {p p' : Path} {r : Path} (hp : p = dir ++ r) (hp' : p' = dir' ++ r) (hr : PlainPath r)
    (d : List Nat → Outcome α) : Reloc dir fs dir' fs' (Load.file p d) (Load.file p' d) := by
  subst hp hp'
  have h := H.at_ hr
  have e : Load.file (dir' ++ r) d fs' = ((Load.file (dir ++ r) d fs).1, [dir' ++ r]) := by
    unfold Load.file
    rw [h]
    split <;> rfl
  have e' : (Load.file (dir ++ r) d fs).2 = [dir ++ r] := by
    unfold Load.file
    split <;> rfl
  exact ⟨by rw [e], [r], by rw [e']; rfl, by rw [e]; rfl, by simpa using hr⟩

theorem Reloc.directory {p p' : Path} {r : Path} (hp : p = dir ++ r) (hp' : p' = dir' ++ r) (hr : PlainPath r)
    (d : Fs → Outcome α) : Reloc dir fs dir' fs' (Load.directory p d) (Load.directory p' d) := by
  subst hp hp'
  refine ⟨?_, [r], rfl, rfl, by simpa using hr⟩
  show d _ = d _
  congr 1
  funext q
  rw [resolve_plain (H.plain.append hr), resolve_plain (H.plain'.append hr), List.append_assoc, List.append_assoc,
    H.contents]

theorem RelocSetting.decoded {p : Path} {r : Path} (hp : p = dir ++ r) (hr : PlainPath r)
    {d : List Nat → Outcome α} {a : α} (h : (Load.file p d fs).1 = .ok a) :
    ∃ b, d b = .ok a ∧ PlainFile env b := by
  subst hp
  obtain ⟨b, hb, hd⟩ := Load.file_ok_iff.1 h
  unfold FileAt at hb
  rw [resolve_plain (H.plain.append hr)] at hb
  exact ⟨b, hd, H.engine r b hb⟩

omit H in
theorem Reloc.mapM {f f' : α → Load β} (l : List α) (hf : ∀ a ∈ l, Reloc dir fs dir' fs' (f a) (f' a)) :
    Reloc dir fs dir' fs' (Load.mapM f l) (Load.mapM f' l) := by
  induction l with
  | nil => exact Reloc.pure []
  | cons a l ih =>
    unfold Load.mapM
    refine (hf a (by simp)).bind fun b _ => ?_
    exact (ih fun x hx => hf x (by simp [hx])).bind fun bs _ => Reloc.pure _

end

/-! ### The functions of the loading code -/

theorem PlainPath.single {t : Text} (h : t ≠ ['.', '.']) : PlainPath [t] := by
  intro hm
  simp only [List.mem_singleton] at hm
  exact h hm.symm

section
variable {env : LoadEnv} {dir : Path} {fs : Fs} {dir' : Path} {fs' : Fs}

theorem joinPath_below {r : Path} {t : Text} (h : RelativeName t) (dir : Path) :
    joinPath (dir ++ r) t = dir ++ (r ++ pathComponents t) := by
  rw [joinPath_plain h, List.append_assoc]

theorem append_below {dir r : Path} (q : Path) : (dir ++ r) ++ q = dir ++ (r ++ q) := List.append_assoc _ _ _

theorem txt_below {dir r : Path} {lit t : Text} (h : RelativeName t) :
    pathWithTxt (joinPath (dir ++ r ++ [lit]) t) = dir ++ pathWithTxt (r ++ [lit] ++ pathComponents t) := by
  rw [append_below, joinPath_below h, pathWithTxt_append (by simp)]

theorem txt_below' {dir r : Path} {t : Text} (h : RelativeName t) (hr : r ≠ []) :
    pathWithTxt (joinPath (dir ++ r) t) = dir ++ pathWithTxt (r ++ pathComponents t) := by
  rw [joinPath_below h, pathWithTxt_append (by simp [hr])]

variable (H : RelocSetting env dir fs dir' fs')
include H

theorem loadStemmer_reloc (fns : TextFns) {r : Path} (hr : PlainPath r) (m : ResourcesJson)
    (hm : ∀ n, m.stems = some n → RelativeName n) :
    Reloc dir fs dir' fs' (loadStemmer fns (dir ++ r) m) (loadStemmer fns (dir' ++ r) m) := by
  unfold loadStemmer
  cases hs : m.stems with
  | none => exact Reloc.pure _
  | some stems =>
    have hn := hm stems hs
    exact (Reloc.file H (txt_below hn) (txt_below hn)
      (pathWithTxt_plain ((hr.append (.single (by decide))).append (pathComponents_plain hn))) _).bind
      fun s _ => Reloc.pure _

theorem loadGazetteersFrom_reloc (fns : TextFns) {r : Path} (hr : PlainPath r) (names : List Text)
    (hm : ∀ n ∈ names, RelativeName n) (acc : Map Text Gazetteer) :
    Reloc dir fs dir' fs' (loadGazetteersFrom fns (dir ++ r) names acc)
      (loadGazetteersFrom fns (dir' ++ r) names acc) := by
  induction names generalizing acc with
  | nil => exact Reloc.pure _
  | cons n names ih =>
    unfold loadGazetteersFrom
    have hn := hm n (by simp)
    exact (Reloc.file H (txt_below hn) (txt_below hn)
      (pathWithTxt_plain ((hr.append (.single (by decide))).append (pathComponents_plain hn))) _).bind
      fun s _ => ih (fun x hx => hm x (by simp [hx])) _

theorem loadClusterersFrom_reloc (fns : TextFns) (o : HashOrd) {r : Path} (hr : PlainPath r) (names : List Text)
    (hm : ∀ n ∈ names, RelativeName n) (acc : Map Text WordClusterer) :
    Reloc dir fs dir' fs' (loadClusterersFrom fns o (dir ++ r) names acc)
      (loadClusterersFrom fns o (dir' ++ r) names acc) := by
  induction names generalizing acc with
  | nil => exact Reloc.pure _
  | cons n names ih =>
    unfold loadClusterersFrom
    have hn := hm n (by simp)
    exact (Reloc.file H (txt_below hn) (txt_below hn)
      (pathWithTxt_plain ((hr.append (.single (by decide))).append (pathComponents_plain hn))) _).bind
      fun s _ => ih (fun x hx => hm x (by simp [hx])) _

theorem loadStopWords_reloc {r : Path} (hr : PlainPath r) (hne : r ≠ []) (m : ResourcesJson)
    (hm : ∀ n, m.stopWords = some n → RelativeName n) :
    Reloc dir fs dir' fs' (loadStopWords (dir ++ r) m) (loadStopWords (dir' ++ r) m) := by
  unfold loadStopWords
  cases hs : m.stopWords with
  | none => exact Reloc.pure _
  | some n =>
    have hn := hm n hs
    exact Reloc.file H (txt_below' hn hne) (txt_below' hn hne)
      (pathWithTxt_plain (hr.append (pathComponents_plain hn))) _

theorem loadCustomParser_reloc {r : Path} (hr : PlainPath r) :
    Reloc dir fs dir' fs' (loadCustomParser env (dir ++ r)) (loadCustomParser env (dir' ++ r)) := by
  unfold loadCustomParser
  have hlit : PlainPath (r ++ ["metadata.json".toList]) := hr.append (.single (by decide))
  refine (Reloc.file H (append_below _) (append_below _) hlit _).bind fun m hm => ?_
  obtain ⟨b, hb, hp⟩ := H.decoded (append_below _) hlit hm
  have hn := hp.entityParser m hb
  refine (Reloc.lift _).bind fun lang _ => ?_
  exact (Reloc.directory H (joinPath_below hn _) (joinPath_below hn _) (hr.append (pathComponents_plain hn)) _).bind
    fun _ _ => Reloc.pure _

theorem loadSharedResources_reloc (fns : TextFns) (o : HashOrd) {r b c : Path} (hr : PlainPath r) (hne : r ≠ [])
    (hb : PlainPath b) (hc : PlainPath c) :
    Reloc dir fs dir' fs' (loadSharedResources env fns o (dir ++ r) (dir ++ b) (dir ++ c))
      (loadSharedResources env fns o (dir' ++ r) (dir' ++ b) (dir' ++ c)) := by
  unfold loadSharedResources
  have hlit : PlainPath (r ++ ["metadata.json".toList]) := hr.append (.single (by decide))
  refine (Reloc.file H (append_below _) (append_below _) hlit _).bind fun m hm => ?_
  obtain ⟨bytes, hbytes, hp⟩ := H.decoded (append_below _) hlit hm
  refine (loadStemmer_reloc H fns hr m (hp.stems m hbytes)).bind fun _ _ => ?_
  refine Reloc.bind ?_ fun _ _ => ?_
  · unfold loadGazetteers
    refine loadGazetteersFrom_reloc H fns hr _ ?_ _
    cases hg : m.gazetteers with
    | none => simp
    | some l => exact hp.gazetteers m hbytes l hg
  refine Reloc.bind ?_ fun _ _ => ?_
  · unfold loadClusterers
    refine loadClusterersFrom_reloc H fns o hr _ ?_ _
    cases hg : m.wordClusters with
    | none => simp
    | some l => exact hp.wordClusters m hbytes l hg
  refine (loadStopWords_reloc H hr hne m (hp.stopWords m hbytes)).bind fun _ _ => ?_
  refine (Reloc.directory H rfl rfl hb _).bind fun _ _ => ?_
  exact (loadCustomParser_reloc H hc).bind fun _ _ => Reloc.pure _

theorem loadResourcesOf_reloc (o : HashOrd) (m : EngineJson) (hb : RelativeName m.builtinEntityParser)
    (hc : RelativeName m.customEntityParser) :
    Reloc dir fs dir' fs' (loadResourcesOf env o dir m) (loadResourcesOf env o dir' m) := by
  unfold loadResourcesOf
  refine (Reloc.lift _).bind fun lang hl => ?_
  have hn := H.languages _ _ (Load.lift_ok_iff (fs := fs) |>.1 hl)
  rw [joinPath_below hn, joinPath_below hn, joinPath_plain hb, joinPath_plain hb, joinPath_plain hc, joinPath_plain hc]
  exact (loadSharedResources_reloc H lang.2 o
    (PlainPath.append (.single (by decide)) (pathComponents_plain hn)) (by simp)
    (pathComponents_plain hb) (pathComponents_plain hc)).bind fun _ _ => Reloc.pure _

theorem loadCooc_reloc (o : HashOrd) {r : Path} (hr : PlainPath r) (name : Option Text)
    (hn : ∀ n, name = some n → RelativeName n) :
    Reloc dir fs dir' fs' (loadCooc env o (dir ++ r) name) (loadCooc env o (dir' ++ r) name) := by
  cases name with
  | none => exact Reloc.pure _
  | some n =>
    have hn := hn n rfl
    unfold loadCooc
    simp only
    rw [joinPath_below hn, joinPath_below hn]
    refine (Reloc.file H (append_below _) (append_below _)
      ((hr.append (pathComponents_plain hn)).append (.single (by decide))) _).bind fun _ _ => ?_
    exact (Reloc.lift _).bind fun _ _ => Reloc.pure _

theorem loadFeaturizer_reloc (fns : TextFns) (o : HashOrd) (res : Resources) {r : Path} (hr : PlainPath r) :
    Reloc dir fs dir' fs' (loadFeaturizer env fns o res (dir ++ r)) (loadFeaturizer env fns o res (dir' ++ r)) := by
  unfold loadFeaturizer
  have hlit : PlainPath (r ++ ["featurizer.json".toList]) := hr.append (.single (by decide))
  refine (Reloc.file H (append_below _) (append_below _) hlit _).bind fun m hm => ?_
  obtain ⟨bytes, hbytes, hp⟩ := H.decoded (append_below _) hlit hm
  have hn := hp.tfidf m hbytes
  rw [joinPath_below hn, joinPath_below hn]
  refine (Reloc.file H (append_below _) (append_below _)
      ((hr.append (pathComponents_plain hn)).append (.single (by decide))) _).bind fun _ _ => ?_
  refine (Reloc.lift _).bind fun _ _ => ?_
  exact (loadCooc_reloc H o hr _ (hp.cooccurrence m hbytes)).bind fun _ _ => Reloc.pure _

theorem loadOptFeaturizer_reloc (fns : TextFns) (o : HashOrd) (res : Resources) {r : Path} (hr : PlainPath r)
    (name : Option Text) (hn : ∀ n, name = some n → RelativeName n) :
    Reloc dir fs dir' fs' (loadOptFeaturizer env fns o res (dir ++ r) name)
      (loadOptFeaturizer env fns o res (dir' ++ r) name) := by
  cases name with
  | none => exact Reloc.pure _
  | some n =>
    have hn := hn n rfl
    unfold loadOptFeaturizer
    simp only
    rw [joinPath_below hn, joinPath_below hn]
    exact (loadFeaturizer_reloc H fns o res (hr.append (pathComponents_plain hn))).bind fun _ _ => Reloc.pure _

theorem buildIntentClassifier_reloc (fns : TextFns) (o : HashOrd) (res : Resources) {r : Path} (hr : PlainPath r) :
    Reloc dir fs dir' fs' (buildIntentClassifier env fns o res (dir ++ r))
      (buildIntentClassifier env fns o res (dir' ++ r)) := by
  unfold buildIntentClassifier
  refine (Reloc.file H (append_below _) (append_below _) (hr.append (.single (by decide))) _).bind fun kind _ => ?_
  cases kind <;> try exact Reloc.lift _
  show Reloc _ _ _ _ (loadLogRegClassifier env fns o res _) (loadLogRegClassifier env fns o res _)
  unfold loadLogRegClassifier
  have hlit : PlainPath (r ++ ["intent_classifier.json".toList]) := hr.append (.single (by decide))
  refine (Reloc.file H (append_below _) (append_below _) hlit _).bind fun m hm => ?_
  obtain ⟨bytes, hbytes, hp⟩ := H.decoded (append_below _) hlit hm
  refine (loadOptFeaturizer_reloc H fns o res hr _ (hp.featurizer m hbytes)).bind fun _ _ => ?_
  exact (Reloc.lift _).bind fun _ _ => Reloc.pure _

theorem loadTagger_reloc (fns : TextFns) (res : Resources) {r : Path} (hr : PlainPath r) (m : SlotFillerJson)
    (hm : ∀ n, m.crfModelFile = some n → RelativeName n) :
    Reloc dir fs dir' fs' (loadTagger env fns res (dir ++ r) m) (loadTagger env fns res (dir' ++ r) m) := by
  unfold loadTagger
  cases hs : m.crfModelFile with
  | none => exact Reloc.pure _
  | some n =>
    have hn := hm n hs
    refine (Reloc.file H (joinPath_below hn _) (joinPath_below hn _) (hr.append (pathComponents_plain hn)) _).bind
      fun _ _ => ?_
    exact (Reloc.lift _).bind fun _ _ => Reloc.pure _

theorem buildSlotFiller_reloc (fns : TextFns) (res : Resources) {r : Path} (hr : PlainPath r) :
    Reloc dir fs dir' fs' (buildSlotFiller env fns res (dir ++ r)) (buildSlotFiller env fns res (dir' ++ r)) := by
  unfold buildSlotFiller
  refine (Reloc.file H (append_below _) (append_below _) (hr.append (.single (by decide))) _).bind fun kind _ => ?_
  cases kind <;> try exact Reloc.lift _
  show Reloc _ _ _ _ (loadCrfSlotFiller env fns res _) (loadCrfSlotFiller env fns res _)
  unfold loadCrfSlotFiller
  have hlit : PlainPath (r ++ ["slot_filler.json".toList]) := hr.append (.single (by decide))
  refine (Reloc.file H (append_below _) (append_below _) hlit _).bind fun m hm => ?_
  obtain ⟨bytes, hbytes, hp⟩ := H.decoded (append_below _) hlit hm
  refine (Reloc.lift _).bind fun _ _ => ?_
  refine (loadTagger_reloc H fns res hr m (hp.crf m hbytes)).bind fun _ _ => ?_
  exact (Reloc.lift _).bind fun _ _ => Reloc.pure _

theorem loadProbabilistic_reloc (fns : TextFns) (o : HashOrd) (res : Resources) {r : Path} (hr : PlainPath r) :
    Reloc dir fs dir' fs' (loadProbabilistic env fns o res (dir ++ r))
      (loadProbabilistic env fns o res (dir' ++ r)) := by
  unfold loadProbabilistic
  have hlit : PlainPath (r ++ ["intent_parser.json".toList]) := hr.append (.single (by decide))
  refine (Reloc.file H (append_below _) (append_below _) hlit _).bind fun m hm => ?_
  obtain ⟨bytes, hbytes, hp⟩ := H.decoded (append_below _) hlit hm
  rw [append_below, append_below]
  refine (buildIntentClassifier_reloc H fns o res (hr.append (.single (by decide)))).bind fun _ _ => ?_
  refine Reloc.bind (Reloc.mapM _ fun nf hnf => ?_) fun _ _ => Reloc.pure _
  have hn := hp.slotFillers m hbytes nf hnf
  rw [joinPath_below hn, joinPath_below hn]
  exact (buildSlotFiller_reloc H fns res (hr.append (pathComponents_plain hn))).bind fun _ _ => Reloc.pure _

theorem buildIntentParser_reloc (fns : TextFns) (o : HashOrd) (res : Resources) (kind : UnitKind) {r : Path}
    (hr : PlainPath r) :
    Reloc dir fs dir' fs' (buildIntentParser env fns o res kind (dir ++ r))
      (buildIntentParser env fns o res kind (dir' ++ r)) := by
  unfold buildIntentParser
  have hlit : PlainPath (r ++ ["intent_parser.json".toList]) := hr.append (.single (by decide))
  cases kind with
  | lookupIntentParser =>
    exact (Reloc.file H (append_below _) (append_below _) hlit _).bind fun _ _ => Reloc.lift _
  | deterministicIntentParser =>
    exact (Reloc.file H (append_below _) (append_below _) hlit _).bind fun _ _ => Reloc.lift _
  | probabilisticIntentParser => exact loadProbabilistic_reloc H fns o res hr
  | crfSlotFiller => exact Reloc.lift _
  | logRegIntentClassifier => exact Reloc.lift _

theorem loadEngine_reloc (o : HashOrd) :
    Reloc dir fs dir' fs' (loadEngine env o dir) (loadEngine env o dir') := by
  unfold loadEngine
  have hlit : PlainPath ["nlu_engine.json".toList] := .single (by decide)
  have hmodel : Reloc dir fs dir' fs' (loadModel env dir) (loadModel env dir') := by
    unfold loadModel
    refine Reloc.bind ?_ fun _ _ => Reloc.file H rfl rfl hlit _
    unfold checkModelVersion
    refine (Reloc.file H rfl rfl hlit _).bind fun v _ => ?_
    split
    · exact Reloc.lift _
    · exact Reloc.pure _
  refine hmodel.bind fun m hm => ?_
  obtain ⟨b, hb, hp⟩ : ∃ b, env.engine b = .ok m ∧ PlainFile env b := by
    unfold loadModel at hm
    obtain ⟨_, _, h⟩ := Load.bind_ok_iff.1 hm
    exact H.decoded rfl hlit h
  refine (loadResourcesOf_reloc H o m (hp.builtinParser m hb) (hp.customParser m hb)).bind fun res _ => ?_
  refine Reloc.bind (Reloc.mapM _ fun name hname => ?_) fun _ _ => Reloc.pure _
  have hn := hp.parsers m hb name hname
  unfold loadIntentParser
  rw [joinPath_plain hn, joinPath_plain hn]
  refine (Reloc.file H (append_below _) (append_below _)
    ((pathComponents_plain hn).append (.single (by decide))) _).bind fun kind _ => ?_
  exact buildIntentParser_reloc H res.1 o res.2.1 kind (pathComponents_plain hn)

end

end Snips
