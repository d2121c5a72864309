import Verif.Proofs.JsonOrder
import Verif.Proofs.Loading
import Verif.Spec.LoadingDemo

/-! # C66: the documents that describe a model

Each model file is accepted exactly if it is a JSON document of the shape that `Spec.Json` gives; unknown fields and the
order of fields are irrelevant. -/

namespace Snips

/-- **C66**: the name of a processing unit. -/
theorem c66_unit (j : Json) (u : UnitKind) : decodeUnit j = .ok u ↔ UnitDoc j u := reads_unit.exact determines_unit j u

/-- **C66**: `nlu_engine.json`, read for the version of the model only. -/
theorem c66_version (j : Json) (m : Text) :
    decodeVersion j = .ok m ↔ VersionDoc j m :=
  reads_version.exact determines_version j m

/-- **C66**: `nlu_engine.json`. -/
theorem c66_engine : Reads decodeEngine EngineDoc := reads_engine

/-- **C66**: `metadata.json` of the resources. -/
theorem c66_resources (j : Json) (m : ResourcesJson) :
    decodeResources j = .ok m ↔ ResourcesDoc j m :=
  reads_resources.exact determines_resources j m

/-- **C66**: `metadata.json` of the parser of custom entities. -/
theorem c66_custom_parser (j : Json) (m : CustomParserJson) :
    decodeCustomParser j = .ok m ↔ CustomParserDoc j m :=
  reads_customParser.exact determines_customParser j m

/-- **C66**: `intent_parser.json` of a lookup parser. -/
theorem c66_lookup : Reads decodeLookup LookupDoc := reads_lookup

/-- **C66**: `intent_parser.json` of a deterministic parser. -/
theorem c66_deterministic : Reads decodeDeterministic DeterministicDoc := reads_deterministic

/-- **C66**: `intent_parser.json` of a probabilistic parser. -/
theorem c66_probabilistic (j : Json) (m : List (Text × Text)) :
    decodeProbabilistic j = .ok m ↔ ProbabilisticDoc j m :=
  reads_probabilistic.exact determines_probabilistic j m

/-- **C66**: `intent_classifier.json`. -/
theorem c66_classifier (rd : Rounding) (j : Json) (m : ClassifierJson) :
    decodeClassifier rd j = .ok m ↔ ClassifierDoc rd j m :=
  (reads_classifier rd).exact (determines_classifier rd) j m

/-- **C66**: `featurizer.json`. -/
theorem c66_featurizer (j : Json) (m : FeaturizerJson) :
    decodeFeaturizer j = .ok m ↔ FeaturizerDoc j m :=
  reads_featurizer.exact determines_featurizer j m

/-- **C66**: `vectorizer.json` of a tf-idf vectorizer. -/
theorem c66_tfidf (rd : Rounding) : Reads (decodeTfidf rd) (TfidfDoc rd) := reads_tfidf rd

/-- **C66**: `vectorizer.json` of a co-occurrence vectorizer. -/
theorem c66_cooc : Reads decodeCooc CoocDoc := reads_cooc

/-- **C66**: `slot_filler.json`. -/
theorem c66_slot_filler : Reads decodeSlotFiller SlotFillerDoc := reads_slotFiller

/-- **C66**: reading a model file never panics. -/
theorem c66_safe (rd : Rounding) (j : Json) :
    decodeUnit j ≠ .panic ∧
    decodeVersion j ≠ .panic ∧
    decodeEngine j ≠ .panic ∧
    decodeResources j ≠ .panic ∧
    decodeCustomParser j ≠ .panic ∧
    decodeLookup j ≠ .panic ∧
    decodeDeterministic j ≠ .panic ∧
    decodeProbabilistic j ≠ .panic ∧
    decodeClassifier rd j ≠ .panic ∧
    decodeFeaturizer j ≠ .panic ∧
    decodeTfidf rd j ≠ .panic ∧
    decodeCooc j ≠ .panic ∧
    decodeSlotFiller j ≠ .panic :=
  ⟨reads_unit.safe j,
    reads_version.safe j,
    reads_engine.safe j,
    reads_resources.safe j,
    reads_customParser.safe j,
    reads_lookup.safe j,
    reads_deterministic.safe j,
    reads_probabilistic.safe j,
    (reads_classifier rd).safe j,
    reads_featurizer.safe j,
    (reads_tfidf rd).safe j,
    reads_cooc.safe j,
    reads_slotFiller.safe j⟩

/-- **C66**: the order of the fields of an object does not matter. -/
theorem c66_order (rd : Rounding) {entries entries' : List (Text × Json)} (h : entries.Perm entries') :
    decodeUnit (.obj entries) = decodeUnit (.obj entries') ∧
    decodeVersion (.obj entries) = decodeVersion (.obj entries') ∧
    decodeEngine (.obj entries) = decodeEngine (.obj entries') ∧
    decodeResources (.obj entries) = decodeResources (.obj entries') ∧
    decodeCustomParser (.obj entries) = decodeCustomParser (.obj entries') ∧
    decodeLookup (.obj entries) = decodeLookup (.obj entries') ∧
    decodeDeterministic (.obj entries) = decodeDeterministic (.obj entries') ∧
    decodeProbabilistic (.obj entries) = decodeProbabilistic (.obj entries') ∧
    decodeClassifier rd (.obj entries) = decodeClassifier rd (.obj entries') ∧
    decodeFeaturizer (.obj entries) = decodeFeaturizer (.obj entries') ∧
    decodeTfidf rd (.obj entries) = decodeTfidf rd (.obj entries') ∧
    decodeCooc (.obj entries) = decodeCooc (.obj entries') ∧
    decodeSlotFiller (.obj entries) = decodeSlotFiller (.obj entries') := by
  refine ⟨?_, ?_, ?_, ?_, ?_, ?_, ?_, ?_, ?_, ?_, ?_, ?_, ?_⟩
  · unfold decodeUnit; rw [tag_perm _ h]
  · unfold decodeVersion; rw [fields_perm _ h]
  · unfold decodeEngine; rw [fields_perm _ h]
  · unfold decodeResources; rw [fields_perm _ h]
  · unfold decodeCustomParser; rw [fields_perm _ h]
  · unfold decodeLookup; rw [fields_perm _ h]
  · unfold decodeDeterministic; rw [fields_perm _ h]
  · unfold decodeProbabilistic; rw [fields_perm _ h]
  · unfold decodeClassifier; rw [fields_perm _ h]
  · unfold decodeFeaturizer; rw [fields_perm _ h]
  · unfold decodeTfidf; rw [fields_perm _ h]
  · unfold decodeCooc; rw [fields_perm _ h]
  · unfold decodeSlotFiller; rw [fields_perm _ h]

/-- **C66**: fields that are not known are ignored. -/
theorem c66_unknown (rd : Rounding) (entries : List (Text × Json)) (name : Text) (v : Json) :
    (name ≠ "unit_name".toList → decodeUnit (.obj ((name, v) :: entries)) = decodeUnit (.obj entries)) ∧
    (name ∉ versionFields.map String.toList → decodeVersion (.obj ((name, v) :: entries)) =
      decodeVersion (.obj entries)) ∧
    (name ∉ engineFields.map String.toList → decodeEngine (.obj ((name, v) :: entries)) =
      decodeEngine (.obj entries)) ∧
    (name ∉ resourcesFields.map String.toList → decodeResources (.obj ((name, v) :: entries)) =
      decodeResources (.obj entries)) ∧
    (name ∉ customParserFields.map String.toList → decodeCustomParser (.obj ((name, v) :: entries)) =
      decodeCustomParser (.obj entries)) ∧
    (name ∉ lookupFields.map String.toList → decodeLookup (.obj ((name, v) :: entries)) =
      decodeLookup (.obj entries)) ∧
    (name ∉ deterministicFields.map String.toList → decodeDeterministic (.obj ((name, v) :: entries)) =
      decodeDeterministic (.obj entries)) ∧
    (name ∉ probabilisticFields.map String.toList → decodeProbabilistic (.obj ((name, v) :: entries)) =
      decodeProbabilistic (.obj entries)) ∧
    (name ∉ classifierFields.map String.toList → decodeClassifier rd (.obj ((name, v) :: entries)) =
      decodeClassifier rd (.obj entries)) ∧
    (name ∉ featurizerFields.map String.toList → decodeFeaturizer (.obj ((name, v) :: entries)) =
      decodeFeaturizer (.obj entries)) ∧
    (name ∉ tfidfFields.map String.toList → decodeTfidf rd (.obj ((name, v) :: entries)) =
      decodeTfidf rd (.obj entries)) ∧
    (name ∉ coocFields.map String.toList → decodeCooc (.obj ((name, v) :: entries)) =
      decodeCooc (.obj entries)) ∧
    (name ∉ slotFillerFields.map String.toList → decodeSlotFiller (.obj ((name, v) :: entries)) =
      decodeSlotFiller (.obj entries)) := by
  refine ⟨?_, ?_, ?_, ?_, ?_, ?_, ?_, ?_, ?_, ?_, ?_, ?_, ?_⟩
  · intro h
    unfold decodeUnit Json.tag
    simp only [List.filter_cons, h, decide_false, Bool.false_eq_true, if_false]
  · intro h; unfold versionFields at h; unfold decodeVersion; rw [fields_unknown _ _ h]
  · intro h; unfold engineFields at h; unfold decodeEngine; rw [fields_unknown _ _ h]
  · intro h; unfold resourcesFields at h; unfold decodeResources; rw [fields_unknown _ _ h]
  · intro h; unfold customParserFields at h; unfold decodeCustomParser; rw [fields_unknown _ _ h]
  · intro h; unfold lookupFields at h; unfold decodeLookup; rw [fields_unknown _ _ h]
  · intro h; unfold deterministicFields at h; unfold decodeDeterministic; rw [fields_unknown _ _ h]
  · intro h; unfold probabilisticFields at h; unfold decodeProbabilistic; rw [fields_unknown _ _ h]
  · intro h; unfold classifierFields at h; unfold decodeClassifier; rw [fields_unknown _ _ h]
  · intro h; unfold featurizerFields at h; unfold decodeFeaturizer; rw [fields_unknown _ _ h]
  · intro h; unfold tfidfFields at h; unfold decodeTfidf; rw [fields_unknown _ _ h]
  · intro h; unfold coocFields at h; unfold decodeCooc; rw [fields_unknown _ _ h]
  · intro h; unfold slotFillerFields at h; unfold decodeSlotFiller; rw [fields_unknown _ _ h]

/-- **C66**: a model file is what `serde_json` finds in it, and then what the document describes. -/
theorem c66_file (env : LoadEnv) (bytes : List Nat) :
    (∀ m, env.engine bytes = .ok m → ∃ j, env.json bytes = some j ∧ EngineDoc j m) ∧
    (∀ j m, env.json bytes = some j → EngineDoc j m → ∃ m', env.engine bytes = .ok m' ∧ EngineDoc j m') := by
  have h := env.reads_decode reads_engine
  refine ⟨h.sound bytes, fun j m hj hm => ?_⟩
  obtain ⟨m', hm'⟩ := h.complete bytes m ⟨j, hj, hm⟩
  obtain ⟨j', hj', hd⟩ := h.sound _ _ hm'
  rw [hj] at hj'
  cases hj'
  exact ⟨m', hm', hd⟩

/-! ### Examples -/

/-- The file `nlu_engine.json` of the example describes an engine. -/
example : ∃ m, EngineDoc (demoEngineJson "0.20.0") m ∧ m.intentParsers = ["lookup", "det", "prob"].map String.toList :=
  ⟨_, reads_engine.sound _ _ rfl, rfl⟩

/-- Without a field it does not, even if the field is not used. -/
example : ∀ m, ¬ EngineDoc (jObj [("dataset_metadata", jObj [("language_code", jStr "en"), ("entities", jObj []),
      ("slot_name_mappings", jObj [])]), ("intent_parsers", jStrs []), ("model_version", jStr "0.20.0"),
    ("builtin_entity_parser", jStr "builtin"), ("custom_entity_parser", jStr "custom")]) m := fun m hm => by
  obtain ⟨m', h⟩ := reads_engine.complete _ _ hm
  cases h

/-- A repeated field is refused, while the last entry of a table counts. -/
example : decodeVersion (jObj [("model_version", jStr "0.20.0"), ("model_version", jStr "0.20.0")]) = jsonError ∧
    decodeWordLists (jObj [("a", jStrs ["b"]), ("a", jStrs ["c"])]) = .ok [(['a'], [['c']])] := ⟨rfl, rfl⟩

/-- A record can be given as an array, and only then its optional fields are required. -/
example : (∃ m, decodeResources (.arr [jStr "en", .null, .null, .null, jStr "stop"]) = .ok m ∧
      m.stopWords = some "stop".toList) ∧
    decodeResources (.arr [jStr "en"]) = jsonError ∧
    ∃ m, decodeResources (jObj [("language", jStr "en")]) = .ok m ∧ m.stopWords = none :=
  ⟨⟨_, rfl, rfl⟩, rfl, _, rfl, rfl⟩

/-- Keys of tables are numerals. -/
example : (decodeLookup (jObj [("language_code", jStr "en"), ("slots_names", .arr []), ("intents_names", .arr []),
      ("map", jObj [("-12", .arr [.int 0, .arr []])]), ("entity_scopes", .arr []), ("stop_words_whitelist", jObj []),
      ("config", jObj [])]) >>= fun m => .ok m.map) = .ok [(-12, (0, []))] ∧
    Json.i32Key "2147483648".toList = jsonError ∧ Json.i32Key "-2147483648".toList = .ok (-2147483648) :=
  ⟨rfl, by decide +kernel, by decide +kernel⟩

end Snips
