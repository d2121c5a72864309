import Verif.Proofs.Messages
import Verif.Spec.LoadingDemo

/-! # C89: what the error says when an engine cannot be loaded -/

namespace Snips

/-- The messages are all that is added: apart from them, loading does what C49 and C51 describe. -/
theorem c89_same (msg : MessageEnv) (env : LoadEnv) (o : HashOrd) (dir : Path) (fs : Fs) :
    ((tloadEngine msg env o dir fs).1.outcome, (tloadEngine msg env o dir fs).2) = loadEngine env o dir fs :=
  congrFun (forget_engine msg env o dir) fs

/-- If loading fails behind a path where no file is, the messages name the path (or, for the metadata of an intent parser, the
parser), unless it is the metadata of the resources or a directory that a dependency loads.  Missing from the claim: these
exceptions, the first of which `c89_resources_unnamed` shows to be real. -/
theorem c89_missing_partial (msg : MessageEnv) (env : LoadEnv) (o : HashOrd) (dir : Path) (fs : Fs) (contexts : List Text)
    (root : Err) (before : List Path) (p : Path)
    (h : tloadEngine msg env o dir fs = (.err contexts root, before ++ [p])) (hp : NoFile fs p) :
    NamesFile msg dir (msg.messages contexts root) p ∨ ResourcesMetadataOf env dir fs p ∨
      DependencyDirOf env dir fs p := by
  have mono : ∀ t, Mentions contexts t → Mentions (msg.messages contexts root) t := fun t ⟨m, hm, ht⟩ =>
    ⟨m, List.mem_append_left _ hm, ht⟩
  rcases (blames_engine msg env o dir fs).1 contexts root before p h hp with hN | hN
  · rcases hN with h1 | h1 | ⟨name, hp, h1⟩
    · exact .inl (.inl (mono _ h1))
    · exact .inl (.inr (.inl (mono _ h1)))
    · exact .inl (.inr (.inr ⟨name, hp, mono _ h1⟩))
  · exact .inr hN

/-- When the metadata of the resources is not there, the only message is that of the operating system. -/
theorem c89_resources_unnamed (msg : MessageEnv) (env : LoadEnv) (o : HashOrd) (dir : Path) (fs : Fs) (bytes : List Nat)
    (m : EngineJson) (lang : Text × TextFns) (hb : FileAt fs (dir ++ ["nlu_engine.json".toList]) bytes)
    (hv : env.version bytes = .ok "0.20.0".toList) (hm : env.engine bytes = .ok m)
    (hl : env.language m.languageCode = .ok lang)
    (hp : NoFile fs (joinPath (dir ++ ["resources".toList]) lang.1 ++ ["metadata.json".toList])) :
    ∃ t, tloadEngine msg env o dir fs = (.err [] (.external 210),
        t ++ [joinPath (dir ++ ["resources".toList]) lang.1 ++ ["metadata.json".toList]]) ∧
      msg.messages [] (.external 210) = [msg.other (.external 210)] := by
  refine ⟨[dir ++ ["nlu_engine.json".toList], dir ++ ["nlu_engine.json".toList]], ?_, rfl⟩
  have h1 : tcheckModelVersion env (dir ++ ["nlu_engine.json".toList]) fs = (.ok (), [dir ++ ["nlu_engine.json".toList]]) := by
    unfold tcheckModelVersion
    rw [TLoad.bind_ok (by rw [TLoad.file_found hb, hv]; rfl),
      if_neg (show ¬("0.20.0".toList ≠ modelVersion) from fun h => h rfl)]
    rfl
  have h2 : tloadModel msg env dir fs
      = (.ok m, [dir ++ ["nlu_engine.json".toList], dir ++ ["nlu_engine.json".toList]]) := by
    unfold tloadModel
    rw [TLoad.bind_ok (TLoad.context_ok h1), TLoad.file_found hb, hm]
    rfl
  unfold tloadEngine
  rw [TLoad.bind_ok h2]
  have h3 : tloadResourcesOf msg env o dir m fs = (.err [] (.external 210),
      [joinPath (dir ++ ["resources".toList]) lang.1 ++ ["metadata.json".toList]]) := by
    unfold tloadResourcesOf
    rw [TLoad.bind_ok (show TLoad.lift (env.language m.languageCode) fs = (.ok lang, []) by rw [hl]; rfl)]
    rw [TLoad.bind_err (show tloadSharedResources msg env lang.2 o _ _ _ fs = (.err [] (.external 210), _) from by
      unfold tloadSharedResources
      exact TLoad.bind_err (by rw [TLoad.file_missing hp]; rfl))]
    rfl
  rw [TLoad.bind_err h3]

/-- A model of another version: the outermost message says that the file cannot be read, although it was; the versions are in
the message behind it. -/
theorem c89_version (msg : MessageEnv) (env : LoadEnv) (o : HashOrd) (dir : Path) (fs : Fs) (bytes : List Nat) (v : Text)
    (hb : FileAt fs (dir ++ ["nlu_engine.json".toList]) bytes) (hv : env.version bytes = .ok v)
    (hne : v ≠ "0.20.0".toList) :
    ∃ contexts root, tloadEngine msg env o dir fs = (.err contexts root, [dir ++ ["nlu_engine.json".toList]]) ∧
      msg.messages contexts root =
        ["Unable to read file '".toList ++ pathText (dir ++ ["nlu_engine.json".toList]) ++ "'".toList,
         "Mismatched model version: model is ".toList ++ v ++ " but runner is 0.20.0".toList] := by
  have h1 : tcheckModelVersion env (dir ++ ["nlu_engine.json".toList]) fs
      = (.err [] (.wrongModelVersion v modelVersion), [dir ++ ["nlu_engine.json".toList]]) := by
    unfold tcheckModelVersion
    rw [TLoad.bind_ok (by rw [TLoad.file_found hb, hv]; rfl), if_pos (show v ≠ modelVersion from hne)]
    rfl
  refine ⟨[around "Unable to read file '" (pathText (dir ++ ["nlu_engine.json".toList])) "'"],
    .wrongModelVersion v modelVersion, ?_, ?_⟩
  · unfold tloadEngine
    refine TLoad.bind_err ?_
    unfold tloadModel
    exact TLoad.bind_err (TLoad.context_err h1)
  · simp [MessageEnv.messages, MessageEnv.root, around, modelVersion]

/-- No file `nlu_engine.json`, or one without readable version: the outermost message names it. -/
theorem c89_no_engine (msg : MessageEnv) (env : LoadEnv) (o : HashOrd) (dir : Path) (fs : Fs) (e : Err)
    (h : (NoFile fs (dir ++ ["nlu_engine.json".toList]) ∧ e = .external 210) ∨
      ∃ bytes, FileAt fs (dir ++ ["nlu_engine.json".toList]) bytes ∧ env.version bytes = .err e) :
    tloadEngine msg env o dir fs
      = (.err ["Unable to read file '".toList ++ pathText (dir ++ ["nlu_engine.json".toList]) ++ "'".toList] e,
        [dir ++ ["nlu_engine.json".toList]]) := by
  have h1 : TLoad.file (dir ++ ["nlu_engine.json".toList]) none none env.version fs
      = (.err [] e, [dir ++ ["nlu_engine.json".toList]]) := by
    rcases h with ⟨hn, rfl⟩ | ⟨bytes, hb, hv⟩
    · rw [TLoad.file_missing hn]; rfl
    · rw [TLoad.file_found hb, hv]; rfl
  unfold tloadEngine
  refine TLoad.bind_err ?_
  unfold tloadModel
  refine TLoad.bind_err (TLoad.context_err ?_)
  unfold tcheckModelVersion
  exact TLoad.bind_err h1

/-- A slot filler whose document cannot be read is not told from another: the messages do not depend on the path. -/
theorem c89_undecodable (msg : MessageEnv) (env : LoadEnv) (fns : TextFns) (r : Resources) (path : Path) (fs : Fs)
    (bytes : List Nat) (e : Err) (hu : UnitAt env fs path .crfSlotFiller)
    (hb : FileAt fs (path ++ ["slot_filler.json".toList]) bytes) (he : env.slotFiller bytes = .err e) :
    (tbuildSlotFiller msg env fns r path fs).1 = .err ["Cannot deserialize CRFSlotFiller json data".toList] e := by
  obtain ⟨b, hf, hk⟩ := hu
  unfold tbuildSlotFiller
  rw [TLoad.bind_ok (by rw [TLoad.file_found hf, hk]; rfl)]
  show (tloadCrfSlotFiller msg env fns r path fs).1 = _
  unfold tloadCrfSlotFiller
  rw [TLoad.bind_err (by rw [TLoad.file_found hb, he]; rfl)]

/-! ### Examples -/

/-- Texts of the examples. -/
def demoMessages : MessageEnv where
  quote t := ['"'] ++ t ++ ['"']
  other _ := "No such file or directory (os error 2)".toList

/-- The example without one of its files. -/
def without (fs : Fs) (p : Path) : Fs := fun q => if q = p then none else fs q

/-- The file that the example lacks, if its loading fails behind it, with the messages. -/
def demoTold (fs : Fs) : Option (List Text × Path) :=
  match tloadEngine demoMessages demoLoadEnv HashOrd.insertion ["m".toList] fs with
  | (.err contexts root, t) => t.getLast?.map fun p => (demoMessages.messages contexts root, p)
  | _ => none

/-- Path of a file of the example. -/
def demoPath (l : List String) : Path := ("m" :: l).map String.toList

/-- Without a file of the first slot filler, the message names it. -/
example : demoTold (without (demoEngineFs 1) (demoPath ["prob", "filler", "slot_filler.json"]))
    = some (["Cannot open CRFSlotFiller file '\"/m/prob/filler/slot_filler.json\"'".toList,
        "No such file or directory (os error 2)".toList], demoPath ["prob", "filler", "slot_filler.json"]) := by
  decide +kernel

/-- Without the metadata of an intent parser, it names the parser. -/
example : demoTold (without (demoEngineFs 1) (demoPath ["det", "metadata.json"]))
    = some (["Could not open metadata file of parser 'det'".toList, "No such file or directory (os error 2)".toList],
        demoPath ["det", "metadata.json"]) := by decide +kernel

/-- Without the metadata of the resources, it names nothing. -/
example : demoTold (without (demoEngineFs 1) (demoPath ["resources", "en", "metadata.json"]))
    = some (["No such file or directory (os error 2)".toList], demoPath ["resources", "en", "metadata.json"]) := by
  decide +kernel

/-- Another version. -/
example : demoTold (demoEngineFs 9)
    = some (["Unable to read file '/m/nlu_engine.json'".toList,
        "Mismatched model version: model is 0.19.0 but runner is 0.20.0".toList], demoPath ["nlu_engine.json"]) := by
  decide +kernel

/-- The hypotheses of `c89_undecodable` can be met. -/
example : ∃ e, (tbuildSlotFiller demoMessages (withDocument [18] .null) demoEnv.fns ⟨[], none, [], []⟩ (demoPath ["prob", "filler"])
    (demoEngineFs 1)).1 = .err ["Cannot deserialize CRFSlotFiller json data".toList] e :=
  ⟨_, c89_undecodable _ _ _ _ _ _ [18] _ ⟨[5], rfl, rfl⟩ rfl rfl⟩

end Snips
