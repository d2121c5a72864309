import Verif.Spec.Loading
import Verif.Spec.Demo
import Verif.Props.C01_Engine

/-! A concrete engine directory used to show that hypotheses are satisfiable. -/

namespace Snips

/-- An object. -/
def jObj (entries : List (String × Json)) : Json := .obj (entries.map fun e => (e.1.toList, e.2))

/-- A text. -/
def jStr (s : String) : Json := .str s.toList

/-- An array of texts. -/
def jStrs (l : List String) : Json := .arr (l.map jStr)

/-- The file `nlu_engine.json` of the example. -/
def demoEngineJson (version : String) : Json :=
  jObj [("dataset_metadata", jObj [("language_code", jStr "en"),
      ("entities", jObj [("drink", jObj [("automatically_extensible", .bool true)])]),
      ("slot_name_mappings", jObj [("brew", jObj []), ("idiom", jObj []), ("halt", jObj [])])]),
    ("intent_parsers", jStrs ["lookup", "det", "prob"]), ("model_version", jStr version),
    ("training_package_version", jStr "0.20.4"), ("builtin_entity_parser", jStr "builtin"),
    ("custom_entity_parser", jStr "custom")]

/-- The documents of the example. -/
def demoDocuments : List (List Nat × Json) :=
  [([1], demoEngineJson "0.20.0"), ([9], demoEngineJson "0.19.0"),
   ([2], jObj [("unit_name", jStr "lookup_intent_parser")]),
   ([3], jObj [("unit_name", jStr "deterministic_intent_parser")]),
   ([4], jObj [("unit_name", jStr "probabilistic_intent_parser")]),
   ([5], jObj [("unit_name", jStr "crf_slot_filler")]),
   ([6], jObj [("unit_name", jStr "log_reg_intent_classifier")]),
   ([10], jObj [("language", jStr "en"), ("gazetteers", jStrs ["cities"]), ("stop_words", jStr "stop")]),
   ([11], jObj [("language", jStr "en"), ("parser_directory", jStr "parser"), ("parser_usage", .int 1)]),
   ([12], jObj [("language_code", jStr "en"), ("slots_names", jStrs ["count", "kind"]), ("intents_names", jStrs ["brew", "idiom", "halt"]),
     ("map", jObj [("472729", .arr [.int 0, .arr [.int 0, .int 1]]), ("399302", .arr [.int 1, .arr []]),
       ("4733", .arr [.int 2, .arr []])]),
     ("entity_scopes", .arr [
       jObj [("intent_group", jStrs ["brew"]),
         ("entity_scope", jObj [("builtin", jStrs ["snips/number"]), ("custom", jStrs ["drink"])])],
       jObj [("intent_group", jStrs ["idiom", "halt"]),
         ("entity_scope", jObj [("builtin", .arr []), ("custom", .arr [])])]]),
      ("stop_words_whitelist", jObj []), ("config", jObj [("ignore_stop_words", .bool true)])]),
   ([13], jObj [("language_code", jStr "en"), ("patterns", jObj [("halt", jStrs ["stop"])]),
     ("group_names_to_slot_names", jObj []), ("slot_names_to_entities", jObj [("halt", jObj [])]),
     ("config", jObj [("ignore_stop_words", .bool true)])]),
   ([14], jObj [("slot_fillers", .arr [jObj [("intent", jStr "brew"), ("slot_filler_name", jStr "filler")]])]),
   ([15], jObj [("featurizer", jStr "featurizer"), ("intercept", .null), ("intent_list", .arr [jStr "brew", .null])]),
   ([16], jObj [("language_code", jStr "en"), ("tfidf_vectorizer", jStr "tfidf")]),
   ([17], jObj [("language_code", jStr "en"), ("builtin_entity_scope", .arr []),
     ("vectorizer", jObj [("idf_diag", .arr [.int 1]), ("vocab", jObj [("tea", .int 0)])]),
     ("config", jObj [("use_stemming", .bool false)])]),
   ([18], jObj [("language_code", jStr "en"), ("intent", jStr "brew"), ("slot_name_mapping", jObj []),
     ("config", jObj [("tagging_scheme", .int 1), ("feature_factory_configs", .arr [])])])]

/-- Libraries of the examples: each file of the example other than the lists of words has one byte, which says what it
is. -/
def demoLoadEnv : LoadEnv where
  json b := (demoDocuments.find? fun d => d.1 = b).map fun d => d.2
  tagger _ := .err (.external 300)
  language t := if t = "en".toList then .ok ("en".toList, demoEnv.fns) else .err (.external 301)
  names := demoKinds
  regex t := .ok (plainRegex t)
  builtinParser _ := .ok demoExt.builtinRaw
  gazetteerParser _ := .ok demoExt.gazetteer
  rd := Rounding.exact
  debugAssertions := true
  ops := crudeOps
  allNgrams _ _ := []
  codec := ⟨id, .ok⟩

/-- What is read from the documents of the example can be checked on these documents. -/
theorem demo_documents {α : Type} (d : Json → Outcome α) (p : α → Bool)
    (h : (demoDocuments.all fun x => match d x.2 with | .ok m => p m | _ => true) = true) {b : List Nat} {m : α}
    (hm : demoLoadEnv.decode d b = .ok m) : p m = true := by
  unfold LoadEnv.decode at hm
  cases hj : demoLoadEnv.json b with
  | none => rw [hj] at hm; cases hm
  | some j =>
    rw [hj] at hm
    simp only [demoLoadEnv] at hj
    rw [Option.map_eq_some_iff] at hj
    obtain ⟨x, hx, rfl⟩ := hj
    have := List.all_eq_true.1 h x (List.mem_of_find?_eq_some hx)
    simp only at hm
    rw [hm] at this
    exact this

/-- The example with one more document, which replaces the one of the same file. -/
def withDocument (b : List Nat) (j : Json) : LoadEnv :=
  { demoLoadEnv with json := fun b' => if b' = b then some j else demoLoadEnv.json b' }

/-- The files of the example, by their path below the engine directory. -/
def demoEngineFiles (first : Nat) : List (List String × List Nat) :=
  [(["nlu_engine.json"], [first]),
   (["resources", "en", "metadata.json"], [10]), (["resources", "en", "gazetteers", "cities.txt"], [112, 97, 114, 105, 115, 10, 10]),
   (["resources", "en", "stop.txt"], [116, 104, 101, 10, 116, 104, 101]), (["custom", "metadata.json"], [11]),
   (["lookup", "metadata.json"], [2]), (["lookup", "intent_parser.json"], [12]),
   (["det", "metadata.json"], [3]), (["det", "intent_parser.json"], [13]),
   (["prob", "metadata.json"], [4]), (["prob", "intent_parser.json"], [14]),
   (["prob", "intent_classifier", "metadata.json"], [6]),
   (["prob", "intent_classifier", "intent_classifier.json"], [15]),
   (["prob", "intent_classifier", "featurizer", "featurizer.json"], [16]),
   (["prob", "intent_classifier", "featurizer", "tfidf", "vectorizer.json"], [17]),
   (["prob", "filler", "metadata.json"], [5]), (["prob", "filler", "slot_filler.json"], [18])]

/-- A disk with the example in the directory `/m` and nothing else. -/
def demoEngineFs (first : Nat) : Fs := fun p =>
  ((demoEngineFiles first).find? fun f => p = "m".toList :: f.1.map String.toList).map fun f => .file f.2

end Snips
