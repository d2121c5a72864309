import Verif.Proofs.Relocation
import Verif.Spec.LoadingDemo

/-! # C57: an engine directory can be moved, and loading stays inside it -/

namespace Snips

/-- **C57**: two directories with the same contents, wherever they are and whatever else the disks hold, load
alike: the same engine, the same error or the same panic. -/
theorem c57_relocatable (env : LoadEnv) (o : HashOrd) (dir : Path) (fs : Fs) (dir' : Path) (fs' : Fs)
    (hd : PlainPath dir) (hd' : PlainPath dir') (hsame : SameContents fs dir fs' dir') (hlang : PlainLanguages env)
    (hnames : PlainEngine env fs dir) :
    (loadEngine env o dir' fs').1 = (loadEngine env o dir fs).1 :=
  (loadEngine_reloc ⟨hd, hd', hsame, hlang, hnames⟩ o).same

/-- **C57**: the files read are the same ones in the same order, relative to the directories. -/
theorem c57_same_reads (env : LoadEnv) (o : HashOrd) (dir : Path) (fs : Fs) (dir' : Path) (fs' : Fs)
    (hd : PlainPath dir) (hd' : PlainPath dir') (hsame : SameContents fs dir fs' dir') (hlang : PlainLanguages env)
    (hnames : PlainEngine env fs dir) :
    ∃ rs : List Path, (loadEngine env o dir fs).2 = rs.map (dir ++ ·) ∧
      (loadEngine env o dir' fs').2 = rs.map (dir' ++ ·) := by
  obtain ⟨rs, h1, h2, -⟩ := (loadEngine_reloc ⟨hd, hd', hsame, hlang, hnames⟩ o).reads
  exact ⟨rs, h1, h2⟩

/-- **C57**: every path read, whatever the outcome, is the engine directory followed by components none of which
is `..`. -/
theorem c57_confined (env : LoadEnv) (o : HashOrd) (dir : Path) (fs : Fs) (hd : PlainPath dir)
    (hlang : PlainLanguages env) (hnames : PlainEngine env fs dir) (p : Path) (hp : p ∈ (loadEngine env o dir fs).2) :
    ∃ r, p = dir ++ r ∧ ['.', '.'] ∉ r := by
  obtain ⟨rs, h1, -, h3⟩ := (loadEngine_reloc (fs' := fs) ⟨hd, hd, fun _ => rfl, hlang, hnames⟩ o).reads
  rw [h1] at hp
  obtain ⟨r, hr, rfl⟩ := List.mem_map.1 hp
  exact ⟨r, rfl, h3 r hr⟩

/-- **C57**: what is outside of the engine directory has no influence on loading. -/
theorem c57_outside_irrelevant (env : LoadEnv) (o : HashOrd) (dir : Path) (fs fs' : Fs) (hd : PlainPath dir)
    (hsame : ∀ p, dir <+: p → fs' p = fs p) (hlang : PlainLanguages env) (hnames : PlainEngine env fs dir) :
    loadEngine env o dir fs' = loadEngine env o dir fs := by
  have h := loadEngine_reloc (dir := dir) (dir' := dir) (fs := fs) (fs' := fs')
    ⟨hd, hd, fun r => hsame _ (List.prefix_append _ _), hlang, hnames⟩ o
  obtain ⟨h1, rs, h2, h3, -⟩ := h
  exact Prod.ext h1 (by rw [h2, h3])

/-! ### Without the hypothesis on names -/

/-- The example with an absolute name for its first parser. -/
def absoluteNameEnv : LoadEnv :=
  withDocument [1] (jObj [("dataset_metadata", jObj [("language_code", jStr "en"), ("entities", jObj []),
      ("slot_name_mappings", jObj [])]),
    ("intent_parsers", jStrs ["/lookup"]), ("model_version", jStr "0.20.0"), ("training_package_version", jStr "0.20.4"),
    ("builtin_entity_parser", jStr "builtin"), ("custom_entity_parser", jStr "custom")])

/-- The example with a name for its first parser that goes up. -/
def parentNameEnv : LoadEnv :=
  withDocument [1] (jObj [("dataset_metadata", jObj [("language_code", jStr "en"), ("entities", jObj []),
      ("slot_name_mappings", jObj [])]),
    ("intent_parsers", jStrs ["../lookup"]), ("model_version", jStr "0.20.0"), ("training_package_version", jStr "0.20.4"),
    ("builtin_entity_parser", jStr "builtin"), ("custom_entity_parser", jStr "custom")])

/-- **C57**, counterexample: the names in the files of an engine are not checked.  An absolute name, or one with
`..`, makes the loading code read a file outside of the engine directory `/m`. -/
theorem c57_escape_counterexample :
    ["lookup".toList, "metadata.json".toList] ∈
      (loadEngine absoluteNameEnv HashOrd.insertion ["m".toList] (demoEngineFs 1)).2 ∧
    (∃ p ∈ (loadEngine parentNameEnv HashOrd.insertion ["m".toList] (demoEngineFs 1)).2,
      resolve p = ["lookup".toList, "metadata.json".toList]) := by
  refine ⟨by decide +kernel, ["m".toList, "..".toList, "lookup".toList, "metadata.json".toList], ?_, ?_⟩ <;>
    decide +kernel

/-- A disk that has the example in `/m` and another lookup parser in `/lookup`. -/
def engineAndLookupFs : Fs := fun p =>
  if p = ["lookup".toList, "metadata.json".toList] then some (.file [2])
  else if p = ["lookup".toList, "intent_parser.json".toList] then some (.file [12])
  else demoEngineFs 1 p

/-- **C57**, counterexample: then the same directory loads on one disk and not on another. -/
theorem c57_not_relocatable_counterexample :
    SameContents engineAndLookupFs ["m".toList] (demoEngineFs 1) ["m".toList] ∧
    ((loadEngine absoluteNameEnv HashOrd.insertion ["m".toList] engineAndLookupFs).1.map fun _ => ()) = .ok () ∧
    ((loadEngine absoluteNameEnv HashOrd.insertion ["m".toList] (demoEngineFs 1)).1.map fun _ => ())
      = .err (.external 210) := by
  refine ⟨fun r => ?_, by decide +kernel, by decide +kernel⟩
  unfold engineAndLookupFs
  have hne : ∀ x : List Text, (["m".toList] ++ r = "lookup".toList :: x) → False := by
    intro x h
    simp only [List.singleton_append, List.cons.injEq] at h
    exact absurd h.1 (by decide)
  rw [if_neg (fun h => hne _ h), if_neg (fun h => hne _ h)]

/-! ### Examples -/

theorem RelativeName.of_check {t : Text} (h : (t.head? != some '/' && !(splitSlash t).contains ['.', '.']) = true) :
    RelativeName t := by
  simp only [Bool.and_eq_true, bne_iff_ne, ne_eq, Bool.not_eq_true', List.contains_eq_mem, decide_eq_false_iff_not] at h
  exact ⟨h.1, h.2⟩

theorem demo_plainLanguages : PlainLanguages demoLoadEnv := by
  intro code l h
  simp only [demoLoadEnv] at h
  split at h
  · cases h; exact .of_check (by decide +kernel)
  · cases h

/-- The check of a name. -/
def relativeCheck (t : Text) : Bool := t.head? != some '/' && !(splitSlash t).contains ['.', '.']

theorem option_check {o : Option Text} (h : o.all relativeCheck = true) (n : Text) (hn : o = some n) : RelativeName n := by
  subst hn
  exact .of_check h

theorem demo_plainFile (b : List Nat) : PlainFile demoLoadEnv b where
  parsers m h n hn := .of_check (List.all_eq_true.1
    (demo_documents decodeEngine (fun m => m.intentParsers.all relativeCheck) (by decide +kernel) h) n hn)
  builtinParser m h := .of_check
    (demo_documents decodeEngine (fun m => relativeCheck m.builtinEntityParser) (by decide +kernel) h)
  customParser m h := .of_check
    (demo_documents decodeEngine (fun m => relativeCheck m.customEntityParser) (by decide +kernel) h)
  gazetteers m h l hl n hn := .of_check (List.all_eq_true.1 (by
    have := demo_documents decodeResources (fun m => m.gazetteers.all fun l => l.all relativeCheck)
      (by decide +kernel) h
    rw [hl] at this; exact this) n hn)
  wordClusters m h l hl n hn := .of_check (List.all_eq_true.1 (by
    have := demo_documents decodeResources (fun m => m.wordClusters.all fun l => l.all relativeCheck)
      (by decide +kernel) h
    rw [hl] at this; exact this) n hn)
  stems m h n hn := option_check
    (demo_documents decodeResources (fun m => m.stems.all relativeCheck) (by decide +kernel) h) n hn
  stopWords m h n hn := option_check
    (demo_documents decodeResources (fun m => m.stopWords.all relativeCheck) (by decide +kernel) h) n hn
  entityParser m h := .of_check
    (demo_documents decodeCustomParser (fun m => relativeCheck m.parserDirectory) (by decide +kernel) h)
  slotFillers m h n hn := .of_check (List.all_eq_true.1
    (demo_documents decodeProbabilistic (fun m => m.all fun n => relativeCheck n.2) (by decide +kernel) h) n hn)
  featurizer m h n hn := option_check
    (demo_documents (decodeClassifier demoLoadEnv.rd) (fun m => m.featurizer.all relativeCheck) (by decide +kernel) h)
    n hn
  tfidf m h := .of_check
    (demo_documents decodeFeaturizer (fun m => relativeCheck m.tfidfVectorizer) (by decide +kernel) h)
  cooccurrence m h n hn := option_check
    (demo_documents decodeFeaturizer (fun m => m.cooccurrenceVectorizer.all relativeCheck) (by decide +kernel) h) n hn
  crf m h n hn := option_check
    (demo_documents decodeSlotFiller (fun m => m.crfModelFile.all relativeCheck) (by decide +kernel) h) n hn

/-- The example, moved to `/a/b`. -/
def movedEngineFs : Fs := fun p =>
  match p with
  | ['a'] :: ['b'] :: r => demoEngineFs 1 ("m".toList :: r)
  | _ => none

/-- The hypotheses hold for the example and its copy. -/
example : (loadEngine demoLoadEnv HashOrd.insertion [['a'], ['b']] movedEngineFs).1
    = (loadEngine demoLoadEnv HashOrd.insertion ["m".toList] (demoEngineFs 1)).1 :=
  c57_relocatable _ _ _ _ _ _ (by unfold PlainPath; decide) (by unfold PlainPath; decide) (fun _ => rfl)
    demo_plainLanguages (fun _ b _ => demo_plainFile b)

example : ((loadEngine demoLoadEnv HashOrd.insertion [['a'], ['b']] movedEngineFs).1.map fun e => e.parsers.length)
    = .ok 3 := by decide +kernel

end Snips
