import Verif.Proofs.Json

/-! The decoders of the model files accept exactly the documents that describe a model. -/

namespace Snips

theorem reads_usize : Reads (Json.natBelow usizeCount) (NatDoc (2 ^ 64)) := by
  have := reads_natBelow usizeCount
  rwa [show usizeCount = 2 ^ 64 from by norm_num [usizeCount]] at this ⊢

theorem reads_u8 : Reads (Json.natBelow 256) (NatDoc (2 ^ 8)) := reads_natBelow 256

theorem reads_unit : Reads decodeUnit UnitDoc where
  sound j u h := by
    unfold decodeUnit at h
    rw [Outcome.bind_ok_iff'] at h
    obtain ⟨x, hx, h⟩ := h
    rw [Outcome.bind_ok_iff'] at h
    obtain ⟨name, hname, h⟩ := h
    cases reads_text.sound _ _ hname
    have hu : ∃ s : String, UnitName s u ∧ name = s.toList := by
      by_cases h1 : name = "deterministic_intent_parser".toList
      · rw [if_pos h1] at h; cases h; exact ⟨_, .deterministic, h1⟩
      rw [if_neg h1] at h
      by_cases h2 : name = "lookup_intent_parser".toList
      · rw [if_pos h2] at h; cases h; exact ⟨_, .lookup, h2⟩
      rw [if_neg h2] at h
      by_cases h3 : name = "probabilistic_intent_parser".toList
      · rw [if_pos h3] at h; cases h; exact ⟨_, .probabilistic, h3⟩
      rw [if_neg h3] at h
      by_cases h4 : name = "crf_slot_filler".toList
      · rw [if_pos h4] at h; cases h; exact ⟨_, .slotFiller, h4⟩
      rw [if_neg h4] at h
      by_cases h5 : name = "log_reg_intent_classifier".toList
      · rw [if_pos h5] at h; cases h; exact ⟨_, .classifier, h5⟩
      rw [if_neg h5] at h
      exact absurd h jsonError_ne_ok
    obtain ⟨s, hs, rfl⟩ := hu
    refine ⟨s, hs, ?_⟩
    unfold Json.tag at hx
    split at hx
    · next entries =>
      split at hx
      · next e he =>
        injection hx with hx
        obtain ⟨before, after, e1, e2, e3⟩ := filter_singleton he
        refine Or.inl ⟨before, after, ?_, ?_⟩
        · rw [e1]
          have : e.1 = "unit_name".toList := of_decide_eq_true e2
          rw [← this, ← hx]
        · intro x hx
          exact of_decide_eq_false (e3 x hx)
      · exact absurd hx jsonError_ne_ok
    · cases hx; exact Or.inr ⟨_, rfl⟩
    · exact absurd hx jsonError_ne_ok
  complete j u h := by
    obtain ⟨name, hname, h⟩ := h
    have hx : j.tag "unit_name".toList = .ok (.str name.toList) := by
      rcases h with ⟨before, after, rfl, h⟩ | ⟨rest, rfl⟩
      · have h1 : (before.filter fun e => decide (e.1 = "unit_name".toList)) = [] := by
          rw [List.filter_eq_nil_iff]
          intro e he hd
          exact h e (List.mem_append_left _ he) (of_decide_eq_true hd)
        have h2 : (after.filter fun e => decide (e.1 = "unit_name".toList)) = [] := by
          rw [List.filter_eq_nil_iff]
          intro e he hd
          exact h e (List.mem_append_right _ he) (of_decide_eq_true hd)
        unfold Json.tag
        simp only [List.filter_append, List.filter_cons, h1, h2, decide_true, if_true, List.nil_append]
      · rfl
    refine ⟨u, ?_⟩
    unfold decodeUnit
    refine Outcome.bind_ok_iff'.2 ⟨_, hx, ?_⟩
    refine Outcome.bind_ok_iff'.2 ⟨_, rfl, ?_⟩
    cases hname <;> rfl
  safe j := by
    unfold decodeUnit
    refine Outcome.bind_safe' ?_ fun x => Outcome.bind_safe' (reads_text.safe _) fun name => ?_
    · unfold Json.tag
      split
      · split <;> simp [jsonError]
      · simp
      · simp [jsonError]
    · repeat' (first | exact jsonError_ne_panic | (split; · simp))

theorem reads_version : Reads decodeVersion VersionDoc where
  sound j m h := by
    unfold decodeVersion at h
    rw [Outcome.bind_ok_iff'] at h
    obtain ⟨s, hs, h⟩ := h
    have hs := fields_ok (names := versionFields) (by decide) hs
    exact ⟨hs.record, hs.required reads_text (by decide) h⟩
  complete j m h := by
    obtain ⟨s, hs⟩ := fields_total h.record
    have hf := fields_ok (by decide) hs
    obtain ⟨a0, h0⟩ := hf.required_total reads_text (by decide) h.modelVersion
    unfold decodeVersion
    exact ⟨a0, Outcome.bind_ok_iff'.2 ⟨s, hs, h0⟩⟩
  safe j := by
    unfold decodeVersion
    refine Outcome.bind_safe' (fields_safe _ _) fun s => ?_
    exact required_safe reads_text

theorem reads_entity : Reads decodeEntity EntityDoc where
  sound j m h := by
    unfold decodeEntity at h
    rw [Outcome.bind_ok_iff'] at h
    obtain ⟨s, hs, h⟩ := h
    have hs := fields_ok (names := entityFields) (by decide) hs
    exact ⟨hs.record, hs.required reads_boolean (by decide) h⟩
  complete j m h := by
    obtain ⟨s, hs⟩ := fields_total h.record
    have hf := fields_ok (by decide) hs
    obtain ⟨a0, h0⟩ := hf.required_total reads_boolean (by decide) h.automaticallyExtensible
    unfold decodeEntity
    exact ⟨a0, Outcome.bind_ok_iff'.2 ⟨s, hs, h0⟩⟩
  safe j := by
    unfold decodeEntity
    refine Outcome.bind_safe' (fields_safe _ _) fun s => ?_
    exact required_safe reads_boolean

theorem reads_dataset : Reads decodeDataset DatasetDoc where
  sound j m h := by
    unfold decodeDataset at h
    rw [Outcome.bind_ok_iff'] at h
    obtain ⟨s, hs, h⟩ := h
    have hs := fields_ok (names := datasetFields) (by decide) hs
    rw [Outcome.bind_ok_iff'] at h
    obtain ⟨a0, h0, h⟩ := h
    rw [Outcome.bind_ok_iff'] at h
    obtain ⟨a1, h1, h⟩ := h
    rw [Outcome.bind_ok_iff'] at h
    obtain ⟨a2, h2, h⟩ := h
    cases h
    exact ⟨hs.record,
      hs.required reads_text (by decide) h0,
      hs.required (Reads.hashMap reads_textKey reads_entity) (by decide) h1,
      hs.required (Reads.hashMap reads_textKey (Reads.hashMap reads_textKey reads_text)) (by decide) h2⟩
  complete j m h := by
    obtain ⟨s, hs⟩ := fields_total h.record
    have hf := fields_ok (by decide) hs
    obtain ⟨a0, h0⟩ := hf.required_total reads_text (by decide) h.languageCode
    obtain ⟨a1, h1⟩ := hf.required_total (Reads.hashMap reads_textKey reads_entity) (by decide) h.entities
    obtain ⟨a2, h2⟩ := hf.required_total (Reads.hashMap reads_textKey (Reads.hashMap reads_textKey reads_text)) (by decide) h.slotNameMappings
    unfold decodeDataset
    exact ⟨_, Outcome.bind_ok_iff'.2 ⟨s, hs,
      Outcome.bind_ok_iff'.2 ⟨a0, h0, 
      Outcome.bind_ok_iff'.2 ⟨a1, h1, 
      Outcome.bind_ok_iff'.2 ⟨a2, h2, rfl⟩⟩⟩⟩⟩
  safe j := by
    unfold decodeDataset
    refine Outcome.bind_safe' (fields_safe _ _) fun s => ?_
    refine Outcome.bind_safe' (required_safe reads_text) fun _ => ?_
    refine Outcome.bind_safe' (required_safe (Reads.hashMap reads_textKey reads_entity)) fun _ => ?_
    refine Outcome.bind_safe' (required_safe (Reads.hashMap reads_textKey (Reads.hashMap reads_textKey reads_text))) fun _ => ?_
    simp

theorem reads_engine : Reads decodeEngine EngineDoc where
  sound j m h := by
    unfold decodeEngine at h
    rw [Outcome.bind_ok_iff'] at h
    obtain ⟨s, hs, h⟩ := h
    have hs := fields_ok (names := engineFields) (by decide) hs
    rw [Outcome.bind_ok_iff'] at h
    obtain ⟨a0, h0, h⟩ := h
    rw [Outcome.bind_ok_iff'] at h
    obtain ⟨a1, h1, h⟩ := h
    rw [Outcome.bind_ok_iff'] at h
    obtain ⟨a2, h2, h⟩ := h
    rw [Outcome.bind_ok_iff'] at h
    obtain ⟨a3, h3, h⟩ := h
    rw [Outcome.bind_ok_iff'] at h
    obtain ⟨a4, h4, h⟩ := h
    rw [Outcome.bind_ok_iff'] at h
    obtain ⟨a5, h5, h⟩ := h
    cases h
    exact ⟨hs.record,
      hs.required reads_dataset (by decide) h0,
      hs.required reads_text.vec (by decide) h1,
      ⟨_, hs.required reads_text (by decide) h2⟩,
      ⟨_, hs.required reads_text (by decide) h3⟩,
      hs.required reads_text (by decide) h4,
      hs.required reads_text (by decide) h5⟩
  complete j m h := by
    obtain ⟨s, hs⟩ := fields_total h.record
    have hf := fields_ok (by decide) hs
    obtain ⟨a0, h0⟩ := hf.required_total reads_dataset (by decide) h.datasetMetadata
    obtain ⟨a1, h1⟩ := hf.required_total reads_text.vec (by decide) h.intentParsers
    obtain ⟨_, r2⟩ := h.modelVersion
    obtain ⟨a2, h2⟩ := hf.required_total reads_text (by decide) r2
    obtain ⟨_, r3⟩ := h.trainingPackageVersion
    obtain ⟨a3, h3⟩ := hf.required_total reads_text (by decide) r3
    obtain ⟨a4, h4⟩ := hf.required_total reads_text (by decide) h.builtinEntityParser
    obtain ⟨a5, h5⟩ := hf.required_total reads_text (by decide) h.customEntityParser
    unfold decodeEngine
    exact ⟨_, Outcome.bind_ok_iff'.2 ⟨s, hs,
      Outcome.bind_ok_iff'.2 ⟨a0, h0, 
      Outcome.bind_ok_iff'.2 ⟨a1, h1, 
      Outcome.bind_ok_iff'.2 ⟨a2, h2, 
      Outcome.bind_ok_iff'.2 ⟨a3, h3, 
      Outcome.bind_ok_iff'.2 ⟨a4, h4, 
      Outcome.bind_ok_iff'.2 ⟨a5, h5, rfl⟩⟩⟩⟩⟩⟩⟩⟩
  safe j := by
    unfold decodeEngine
    refine Outcome.bind_safe' (fields_safe _ _) fun s => ?_
    refine Outcome.bind_safe' (required_safe reads_dataset) fun _ => ?_
    refine Outcome.bind_safe' (required_safe reads_text.vec) fun _ => ?_
    refine Outcome.bind_safe' (required_safe reads_text) fun _ => ?_
    refine Outcome.bind_safe' (required_safe reads_text) fun _ => ?_
    refine Outcome.bind_safe' (required_safe reads_text) fun _ => ?_
    refine Outcome.bind_safe' (required_safe reads_text) fun _ => ?_
    simp

theorem reads_resources : Reads decodeResources ResourcesDoc where
  sound j m h := by
    unfold decodeResources at h
    rw [Outcome.bind_ok_iff'] at h
    obtain ⟨s, hs, h⟩ := h
    have hs := fields_ok (names := resourcesFields) (by decide) hs
    rw [Outcome.bind_ok_iff'] at h
    obtain ⟨a0, h0, h⟩ := h
    rw [Outcome.bind_ok_iff'] at h
    obtain ⟨a1, h1, h⟩ := h
    rw [Outcome.bind_ok_iff'] at h
    obtain ⟨a2, h2, h⟩ := h
    rw [Outcome.bind_ok_iff'] at h
    obtain ⟨a3, h3, h⟩ := h
    rw [Outcome.bind_ok_iff'] at h
    obtain ⟨a4, h4, h⟩ := h
    cases h
    exact ⟨hs.record,
      ⟨_, hs.required reads_text (by decide) h0⟩,
      hs.optional reads_text.vec (by decide) h1,
      hs.optional reads_text.vec (by decide) h2,
      hs.optional reads_text (by decide) h3,
      hs.optional reads_text (by decide) h4⟩
  complete j m h := by
    obtain ⟨s, hs⟩ := fields_total h.record
    have hf := fields_ok (by decide) hs
    obtain ⟨_, r0⟩ := h.language
    obtain ⟨a0, h0⟩ := hf.required_total reads_text (by decide) r0
    obtain ⟨a1, h1⟩ := hf.optional_total reads_text.vec (by decide) h.gazetteers
    obtain ⟨a2, h2⟩ := hf.optional_total reads_text.vec (by decide) h.wordClusters
    obtain ⟨a3, h3⟩ := hf.optional_total reads_text (by decide) h.stems
    obtain ⟨a4, h4⟩ := hf.optional_total reads_text (by decide) h.stopWords
    unfold decodeResources
    exact ⟨_, Outcome.bind_ok_iff'.2 ⟨s, hs,
      Outcome.bind_ok_iff'.2 ⟨a0, h0, 
      Outcome.bind_ok_iff'.2 ⟨a1, h1, 
      Outcome.bind_ok_iff'.2 ⟨a2, h2, 
      Outcome.bind_ok_iff'.2 ⟨a3, h3, 
      Outcome.bind_ok_iff'.2 ⟨a4, h4, rfl⟩⟩⟩⟩⟩⟩⟩
  safe j := by
    unfold decodeResources
    refine Outcome.bind_safe' (fields_safe _ _) fun s => ?_
    refine Outcome.bind_safe' (required_safe reads_text) fun _ => ?_
    refine Outcome.bind_safe' (optional_safe reads_text.vec) fun _ => ?_
    refine Outcome.bind_safe' (optional_safe reads_text.vec) fun _ => ?_
    refine Outcome.bind_safe' (optional_safe reads_text) fun _ => ?_
    refine Outcome.bind_safe' (optional_safe reads_text) fun _ => ?_
    simp

theorem reads_usage : Reads decodeUsage UsageDoc where
  sound j u h := by
    unfold decodeUsage at h
    rw [Outcome.bind_ok_iff'] at h
    obtain ⟨n, hn, h⟩ := h
    obtain ⟨rfl, hlt⟩ := (reads_natBelow 256).sound _ _ hn
    clear hn hlt
    match n, h with
    | 0, h => cases h; exact Or.inl ⟨rfl, rfl⟩
    | 1, h => cases h; exact Or.inr (Or.inl ⟨rfl, rfl⟩)
    | 2, h => cases h; exact Or.inr (Or.inr ⟨rfl, rfl⟩)
    | n + 3, h => cases h
  complete j u h := by rcases h with ⟨rfl, rfl⟩ | ⟨rfl, rfl⟩ | ⟨rfl, rfl⟩ <;> exact ⟨_, rfl⟩
  safe j := by
    unfold decodeUsage
    refine Outcome.bind_safe' ((reads_natBelow 256).safe _) fun n => ?_
    split <;> simp [jsonError]

theorem reads_customParser : Reads decodeCustomParser CustomParserDoc where
  sound j m h := by
    unfold decodeCustomParser at h
    rw [Outcome.bind_ok_iff'] at h
    obtain ⟨s, hs, h⟩ := h
    have hs := fields_ok (names := customParserFields) (by decide) hs
    rw [Outcome.bind_ok_iff'] at h
    obtain ⟨a0, h0, h⟩ := h
    rw [Outcome.bind_ok_iff'] at h
    obtain ⟨a1, h1, h⟩ := h
    rw [Outcome.bind_ok_iff'] at h
    obtain ⟨a2, h2, h⟩ := h
    cases h
    exact ⟨hs.record,
      hs.required reads_text (by decide) h0,
      hs.required reads_text (by decide) h1,
      hs.required reads_usage (by decide) h2⟩
  complete j m h := by
    obtain ⟨s, hs⟩ := fields_total h.record
    have hf := fields_ok (by decide) hs
    obtain ⟨a0, h0⟩ := hf.required_total reads_text (by decide) h.language
    obtain ⟨a1, h1⟩ := hf.required_total reads_text (by decide) h.parserDirectory
    obtain ⟨a2, h2⟩ := hf.required_total reads_usage (by decide) h.parserUsage
    unfold decodeCustomParser
    exact ⟨_, Outcome.bind_ok_iff'.2 ⟨s, hs,
      Outcome.bind_ok_iff'.2 ⟨a0, h0, 
      Outcome.bind_ok_iff'.2 ⟨a1, h1, 
      Outcome.bind_ok_iff'.2 ⟨a2, h2, rfl⟩⟩⟩⟩⟩
  safe j := by
    unfold decodeCustomParser
    refine Outcome.bind_safe' (fields_safe _ _) fun s => ?_
    refine Outcome.bind_safe' (required_safe reads_text) fun _ => ?_
    refine Outcome.bind_safe' (required_safe reads_text) fun _ => ?_
    refine Outcome.bind_safe' (required_safe reads_usage) fun _ => ?_
    simp

theorem reads_entityScope : Reads decodeEntityScope EntityScopeDoc where
  sound j m h := by
    unfold decodeEntityScope at h
    rw [Outcome.bind_ok_iff'] at h
    obtain ⟨s, hs, h⟩ := h
    have hs := fields_ok (names := entityScopeFields) (by decide) hs
    rw [Outcome.bind_ok_iff'] at h
    obtain ⟨a0, h0, h⟩ := h
    rw [Outcome.bind_ok_iff'] at h
    obtain ⟨a1, h1, h⟩ := h
    cases h
    exact ⟨hs.record,
      hs.required reads_text.vec (by decide) h0,
      hs.required reads_text.vec (by decide) h1⟩
  complete j m h := by
    obtain ⟨s, hs⟩ := fields_total h.record
    have hf := fields_ok (by decide) hs
    obtain ⟨a0, h0⟩ := hf.required_total reads_text.vec (by decide) h.builtin
    obtain ⟨a1, h1⟩ := hf.required_total reads_text.vec (by decide) h.custom
    unfold decodeEntityScope
    exact ⟨_, Outcome.bind_ok_iff'.2 ⟨s, hs,
      Outcome.bind_ok_iff'.2 ⟨a0, h0, 
      Outcome.bind_ok_iff'.2 ⟨a1, h1, rfl⟩⟩⟩⟩
  safe j := by
    unfold decodeEntityScope
    refine Outcome.bind_safe' (fields_safe _ _) fun s => ?_
    refine Outcome.bind_safe' (required_safe reads_text.vec) fun _ => ?_
    refine Outcome.bind_safe' (required_safe reads_text.vec) fun _ => ?_
    simp

theorem reads_scope : Reads decodeScope ScopeDoc where
  sound j m h := by
    unfold decodeScope at h
    rw [Outcome.bind_ok_iff'] at h
    obtain ⟨s, hs, h⟩ := h
    have hs := fields_ok (names := scopeFields) (by decide) hs
    rw [Outcome.bind_ok_iff'] at h
    obtain ⟨a0, h0, h⟩ := h
    rw [Outcome.bind_ok_iff'] at h
    obtain ⟨a1, h1, h⟩ := h
    cases h
    exact ⟨hs.record,
      hs.required reads_text.vec (by decide) h0,
      hs.required reads_entityScope (by decide) h1⟩
  complete j m h := by
    obtain ⟨s, hs⟩ := fields_total h.record
    have hf := fields_ok (by decide) hs
    obtain ⟨a0, h0⟩ := hf.required_total reads_text.vec (by decide) h.intentGroup
    obtain ⟨a1, h1⟩ := hf.required_total reads_entityScope (by decide) h.entityScope
    unfold decodeScope
    exact ⟨_, Outcome.bind_ok_iff'.2 ⟨s, hs,
      Outcome.bind_ok_iff'.2 ⟨a0, h0, 
      Outcome.bind_ok_iff'.2 ⟨a1, h1, rfl⟩⟩⟩⟩
  safe j := by
    unfold decodeScope
    refine Outcome.bind_safe' (fields_safe _ _) fun s => ?_
    refine Outcome.bind_safe' (required_safe reads_text.vec) fun _ => ?_
    refine Outcome.bind_safe' (required_safe reads_entityScope) fun _ => ?_
    simp

theorem reads_ignoreStopWords : Reads decodeIgnoreStopWords IgnoreStopWordsDoc where
  sound j m h := by
    unfold decodeIgnoreStopWords at h
    rw [Outcome.bind_ok_iff'] at h
    obtain ⟨s, hs, h⟩ := h
    have hs := fields_ok (names := ignoreStopWordsFields) (by decide) hs
    exact ⟨hs.record, hs.orDefault reads_boolean (by decide) h⟩
  complete j m h := by
    obtain ⟨s, hs⟩ := fields_total h.record
    have hf := fields_ok (by decide) hs
    obtain ⟨a0, h0⟩ := hf.orDefault_total reads_boolean (by decide) h.ignoreStopWords
    unfold decodeIgnoreStopWords
    exact ⟨a0, Outcome.bind_ok_iff'.2 ⟨s, hs, h0⟩⟩
  safe j := by
    unfold decodeIgnoreStopWords
    refine Outcome.bind_safe' (fields_safe _ _) fun s => ?_
    exact orDefault_safe reads_boolean

theorem reads_lookup : Reads decodeLookup LookupDoc where
  sound j m h := by
    unfold decodeLookup at h
    rw [Outcome.bind_ok_iff'] at h
    obtain ⟨s, hs, h⟩ := h
    have hs := fields_ok (names := lookupFields) (by decide) hs
    rw [Outcome.bind_ok_iff'] at h
    obtain ⟨a0, h0, h⟩ := h
    rw [Outcome.bind_ok_iff'] at h
    obtain ⟨a1, h1, h⟩ := h
    rw [Outcome.bind_ok_iff'] at h
    obtain ⟨a2, h2, h⟩ := h
    rw [Outcome.bind_ok_iff'] at h
    obtain ⟨a3, h3, h⟩ := h
    rw [Outcome.bind_ok_iff'] at h
    obtain ⟨a4, h4, h⟩ := h
    rw [Outcome.bind_ok_iff'] at h
    obtain ⟨a5, h5, h⟩ := h
    rw [Outcome.bind_ok_iff'] at h
    obtain ⟨a6, h6, h⟩ := h
    cases h
    exact ⟨hs.record,
      hs.required reads_text (by decide) h0,
      hs.required reads_text.vec (by decide) h1,
      hs.required reads_text.vec (by decide) h2,
      hs.required (Reads.hashMap reads_i32Key (reads_i32.pair reads_i32.vec)) (by decide) h3,
      hs.required reads_scope.vec (by decide) h4,
      hs.required (Reads.hashMap reads_textKey reads_text.vec) (by decide) h5,
      hs.required reads_ignoreStopWords (by decide) h6⟩
  complete j m h := by
    obtain ⟨s, hs⟩ := fields_total h.record
    have hf := fields_ok (by decide) hs
    obtain ⟨a0, h0⟩ := hf.required_total reads_text (by decide) h.languageCode
    obtain ⟨a1, h1⟩ := hf.required_total reads_text.vec (by decide) h.slotsNames
    obtain ⟨a2, h2⟩ := hf.required_total reads_text.vec (by decide) h.intentsNames
    obtain ⟨a3, h3⟩ := hf.required_total (Reads.hashMap reads_i32Key (reads_i32.pair reads_i32.vec)) (by decide) h.map
    obtain ⟨a4, h4⟩ := hf.required_total reads_scope.vec (by decide) h.entityScopes
    obtain ⟨a5, h5⟩ := hf.required_total (Reads.hashMap reads_textKey reads_text.vec) (by decide) h.stopWordsWhitelist
    obtain ⟨a6, h6⟩ := hf.required_total reads_ignoreStopWords (by decide) h.config
    unfold decodeLookup
    exact ⟨_, Outcome.bind_ok_iff'.2 ⟨s, hs,
      Outcome.bind_ok_iff'.2 ⟨a0, h0, 
      Outcome.bind_ok_iff'.2 ⟨a1, h1, 
      Outcome.bind_ok_iff'.2 ⟨a2, h2, 
      Outcome.bind_ok_iff'.2 ⟨a3, h3, 
      Outcome.bind_ok_iff'.2 ⟨a4, h4, 
      Outcome.bind_ok_iff'.2 ⟨a5, h5, 
      Outcome.bind_ok_iff'.2 ⟨a6, h6, rfl⟩⟩⟩⟩⟩⟩⟩⟩⟩
  safe j := by
    unfold decodeLookup
    refine Outcome.bind_safe' (fields_safe _ _) fun s => ?_
    refine Outcome.bind_safe' (required_safe reads_text) fun _ => ?_
    refine Outcome.bind_safe' (required_safe reads_text.vec) fun _ => ?_
    refine Outcome.bind_safe' (required_safe reads_text.vec) fun _ => ?_
    refine Outcome.bind_safe' (required_safe (Reads.hashMap reads_i32Key (reads_i32.pair reads_i32.vec))) fun _ => ?_
    refine Outcome.bind_safe' (required_safe reads_scope.vec) fun _ => ?_
    refine Outcome.bind_safe' (required_safe (Reads.hashMap reads_textKey reads_text.vec)) fun _ => ?_
    refine Outcome.bind_safe' (required_safe reads_ignoreStopWords) fun _ => ?_
    simp

theorem reads_deterministic : Reads decodeDeterministic DeterministicDoc where
  sound j m h := by
    unfold decodeDeterministic at h
    rw [Outcome.bind_ok_iff'] at h
    obtain ⟨s, hs, h⟩ := h
    have hs := fields_ok (names := deterministicFields) (by decide) hs
    rw [Outcome.bind_ok_iff'] at h
    obtain ⟨a0, h0, h⟩ := h
    rw [Outcome.bind_ok_iff'] at h
    obtain ⟨a1, h1, h⟩ := h
    rw [Outcome.bind_ok_iff'] at h
    obtain ⟨a2, h2, h⟩ := h
    rw [Outcome.bind_ok_iff'] at h
    obtain ⟨a3, h3, h⟩ := h
    rw [Outcome.bind_ok_iff'] at h
    obtain ⟨a4, h4, h⟩ := h
    rw [Outcome.bind_ok_iff'] at h
    obtain ⟨a5, h5, h⟩ := h
    cases h
    exact ⟨hs.record,
      hs.required reads_text (by decide) h0,
      hs.required (Reads.hashMap reads_textKey reads_text.vec) (by decide) h1,
      hs.required (Reads.hashMap reads_textKey reads_text) (by decide) h2,
      hs.required (Reads.hashMap reads_textKey (Reads.hashMap reads_textKey reads_text)) (by decide) h3,
      hs.orDefault (Reads.hashMap reads_textKey reads_text.vec) (by decide) h4,
      hs.required reads_ignoreStopWords (by decide) h5⟩
  complete j m h := by
    obtain ⟨s, hs⟩ := fields_total h.record
    have hf := fields_ok (by decide) hs
    obtain ⟨a0, h0⟩ := hf.required_total reads_text (by decide) h.languageCode
    obtain ⟨a1, h1⟩ := hf.required_total (Reads.hashMap reads_textKey reads_text.vec) (by decide) h.patterns
    obtain ⟨a2, h2⟩ := hf.required_total (Reads.hashMap reads_textKey reads_text) (by decide) h.groupNamesToSlotNames
    obtain ⟨a3, h3⟩ := hf.required_total (Reads.hashMap reads_textKey (Reads.hashMap reads_textKey reads_text)) (by decide) h.slotNamesToEntities
    obtain ⟨a4, h4⟩ := hf.orDefault_total (Reads.hashMap reads_textKey reads_text.vec) (by decide) h.stopWordsWhitelist
    obtain ⟨a5, h5⟩ := hf.required_total reads_ignoreStopWords (by decide) h.config
    unfold decodeDeterministic
    exact ⟨_, Outcome.bind_ok_iff'.2 ⟨s, hs,
      Outcome.bind_ok_iff'.2 ⟨a0, h0, 
      Outcome.bind_ok_iff'.2 ⟨a1, h1, 
      Outcome.bind_ok_iff'.2 ⟨a2, h2, 
      Outcome.bind_ok_iff'.2 ⟨a3, h3, 
      Outcome.bind_ok_iff'.2 ⟨a4, h4, 
      Outcome.bind_ok_iff'.2 ⟨a5, h5, rfl⟩⟩⟩⟩⟩⟩⟩⟩
  safe j := by
    unfold decodeDeterministic
    refine Outcome.bind_safe' (fields_safe _ _) fun s => ?_
    refine Outcome.bind_safe' (required_safe reads_text) fun _ => ?_
    refine Outcome.bind_safe' (required_safe (Reads.hashMap reads_textKey reads_text.vec)) fun _ => ?_
    refine Outcome.bind_safe' (required_safe (Reads.hashMap reads_textKey reads_text)) fun _ => ?_
    refine Outcome.bind_safe' (required_safe (Reads.hashMap reads_textKey (Reads.hashMap reads_textKey reads_text))) fun _ => ?_
    refine Outcome.bind_safe' (orDefault_safe (Reads.hashMap reads_textKey reads_text.vec)) fun _ => ?_
    refine Outcome.bind_safe' (required_safe reads_ignoreStopWords) fun _ => ?_
    simp

theorem reads_slotFillerName : Reads decodeSlotFillerName SlotFillerNameDoc where
  sound j m h := by
    unfold decodeSlotFillerName at h
    rw [Outcome.bind_ok_iff'] at h
    obtain ⟨s, hs, h⟩ := h
    have hs := fields_ok (names := slotFillerNameFields) (by decide) hs
    rw [Outcome.bind_ok_iff'] at h
    obtain ⟨a0, h0, h⟩ := h
    rw [Outcome.bind_ok_iff'] at h
    obtain ⟨a1, h1, h⟩ := h
    cases h
    exact ⟨hs.record,
      hs.required reads_text (by decide) h0,
      hs.required reads_text (by decide) h1⟩
  complete j m h := by
    obtain ⟨s, hs⟩ := fields_total h.record
    have hf := fields_ok (by decide) hs
    obtain ⟨a0, h0⟩ := hf.required_total reads_text (by decide) h.intent
    obtain ⟨a1, h1⟩ := hf.required_total reads_text (by decide) h.slotFillerName
    unfold decodeSlotFillerName
    exact ⟨_, Outcome.bind_ok_iff'.2 ⟨s, hs,
      Outcome.bind_ok_iff'.2 ⟨a0, h0, 
      Outcome.bind_ok_iff'.2 ⟨a1, h1, rfl⟩⟩⟩⟩
  safe j := by
    unfold decodeSlotFillerName
    refine Outcome.bind_safe' (fields_safe _ _) fun s => ?_
    refine Outcome.bind_safe' (required_safe reads_text) fun _ => ?_
    refine Outcome.bind_safe' (required_safe reads_text) fun _ => ?_
    simp

theorem reads_probabilistic : Reads decodeProbabilistic ProbabilisticDoc where
  sound j m h := by
    unfold decodeProbabilistic at h
    rw [Outcome.bind_ok_iff'] at h
    obtain ⟨s, hs, h⟩ := h
    have hs := fields_ok (names := probabilisticFields) (by decide) hs
    exact ⟨hs.record, hs.required reads_slotFillerName.vec (by decide) h⟩
  complete j m h := by
    obtain ⟨s, hs⟩ := fields_total h.record
    have hf := fields_ok (by decide) hs
    obtain ⟨a0, h0⟩ := hf.required_total reads_slotFillerName.vec (by decide) h.slotFillers
    unfold decodeProbabilistic
    exact ⟨a0, Outcome.bind_ok_iff'.2 ⟨s, hs, h0⟩⟩
  safe j := by
    unfold decodeProbabilistic
    refine Outcome.bind_safe' (fields_safe _ _) fun s => ?_
    exact required_safe reads_slotFillerName.vec

theorem reads_classifier (rd : Rounding) : Reads (decodeClassifier rd) (ClassifierDoc rd) where
  sound j m h := by
    unfold decodeClassifier at h
    rw [Outcome.bind_ok_iff'] at h
    obtain ⟨s, hs, h⟩ := h
    have hs := fields_ok (names := classifierFields) (by decide) hs
    rw [Outcome.bind_ok_iff'] at h
    obtain ⟨a0, h0, h⟩ := h
    rw [Outcome.bind_ok_iff'] at h
    obtain ⟨a1, h1, h⟩ := h
    rw [Outcome.bind_ok_iff'] at h
    obtain ⟨a2, h2, h⟩ := h
    rw [Outcome.bind_ok_iff'] at h
    obtain ⟨a3, h3, h⟩ := h
    cases h
    exact ⟨hs.record,
      hs.optional reads_text (by decide) h0,
      hs.optional (reads_f32 rd).vec (by decide) h1,
      hs.optional (reads_f32 rd).vec.vec (by decide) h2,
      hs.required reads_text.option.vec (by decide) h3⟩
  complete j m h := by
    obtain ⟨s, hs⟩ := fields_total h.record
    have hf := fields_ok (by decide) hs
    obtain ⟨a0, h0⟩ := hf.optional_total reads_text (by decide) h.featurizer
    obtain ⟨a1, h1⟩ := hf.optional_total (reads_f32 rd).vec (by decide) h.intercept
    obtain ⟨a2, h2⟩ := hf.optional_total (reads_f32 rd).vec.vec (by decide) h.coeffs
    obtain ⟨a3, h3⟩ := hf.required_total reads_text.option.vec (by decide) h.intentList
    unfold decodeClassifier
    exact ⟨_, Outcome.bind_ok_iff'.2 ⟨s, hs,
      Outcome.bind_ok_iff'.2 ⟨a0, h0, 
      Outcome.bind_ok_iff'.2 ⟨a1, h1, 
      Outcome.bind_ok_iff'.2 ⟨a2, h2, 
      Outcome.bind_ok_iff'.2 ⟨a3, h3, rfl⟩⟩⟩⟩⟩⟩
  safe j := by
    unfold decodeClassifier
    refine Outcome.bind_safe' (fields_safe _ _) fun s => ?_
    refine Outcome.bind_safe' (optional_safe reads_text) fun _ => ?_
    refine Outcome.bind_safe' (optional_safe (reads_f32 rd).vec) fun _ => ?_
    refine Outcome.bind_safe' (optional_safe (reads_f32 rd).vec.vec) fun _ => ?_
    refine Outcome.bind_safe' (required_safe reads_text.option.vec) fun _ => ?_
    simp

theorem reads_featurizer : Reads decodeFeaturizer FeaturizerDoc where
  sound j m h := by
    unfold decodeFeaturizer at h
    rw [Outcome.bind_ok_iff'] at h
    obtain ⟨s, hs, h⟩ := h
    have hs := fields_ok (names := featurizerFields) (by decide) hs
    rw [Outcome.bind_ok_iff'] at h
    obtain ⟨a0, h0, h⟩ := h
    rw [Outcome.bind_ok_iff'] at h
    obtain ⟨a1, h1, h⟩ := h
    rw [Outcome.bind_ok_iff'] at h
    obtain ⟨a2, h2, h⟩ := h
    cases h
    exact ⟨hs.record,
      ⟨_, hs.required reads_text (by decide) h0⟩,
      hs.required reads_text (by decide) h1,
      hs.optional reads_text (by decide) h2⟩
  complete j m h := by
    obtain ⟨s, hs⟩ := fields_total h.record
    have hf := fields_ok (by decide) hs
    obtain ⟨_, r0⟩ := h.languageCode
    obtain ⟨a0, h0⟩ := hf.required_total reads_text (by decide) r0
    obtain ⟨a1, h1⟩ := hf.required_total reads_text (by decide) h.tfidfVectorizer
    obtain ⟨a2, h2⟩ := hf.optional_total reads_text (by decide) h.cooccurrenceVectorizer
    unfold decodeFeaturizer
    exact ⟨_, Outcome.bind_ok_iff'.2 ⟨s, hs,
      Outcome.bind_ok_iff'.2 ⟨a0, h0, 
      Outcome.bind_ok_iff'.2 ⟨a1, h1, 
      Outcome.bind_ok_iff'.2 ⟨a2, h2, rfl⟩⟩⟩⟩⟩
  safe j := by
    unfold decodeFeaturizer
    refine Outcome.bind_safe' (fields_safe _ _) fun s => ?_
    refine Outcome.bind_safe' (required_safe reads_text) fun _ => ?_
    refine Outcome.bind_safe' (required_safe reads_text) fun _ => ?_
    refine Outcome.bind_safe' (optional_safe reads_text) fun _ => ?_
    simp

theorem reads_vectorizer (rd : Rounding) : Reads (decodeVectorizer rd) (VectorizerDoc rd) where
  sound j m h := by
    unfold decodeVectorizer at h
    rw [Outcome.bind_ok_iff'] at h
    obtain ⟨s, hs, h⟩ := h
    have hs := fields_ok (names := vectorizerFields) (by decide) hs
    rw [Outcome.bind_ok_iff'] at h
    obtain ⟨a0, h0, h⟩ := h
    rw [Outcome.bind_ok_iff'] at h
    obtain ⟨a1, h1, h⟩ := h
    cases h
    exact ⟨hs.record,
      hs.required (reads_f32 rd).vec (by decide) h0,
      hs.required (Reads.hashMap reads_textKey reads_usize) (by decide) h1⟩
  complete j m h := by
    obtain ⟨s, hs⟩ := fields_total h.record
    have hf := fields_ok (by decide) hs
    obtain ⟨a0, h0⟩ := hf.required_total (reads_f32 rd).vec (by decide) h.idfDiag
    obtain ⟨a1, h1⟩ := hf.required_total (Reads.hashMap reads_textKey reads_usize) (by decide) h.vocab
    unfold decodeVectorizer
    exact ⟨_, Outcome.bind_ok_iff'.2 ⟨s, hs,
      Outcome.bind_ok_iff'.2 ⟨a0, h0, 
      Outcome.bind_ok_iff'.2 ⟨a1, h1, rfl⟩⟩⟩⟩
  safe j := by
    unfold decodeVectorizer
    refine Outcome.bind_safe' (fields_safe _ _) fun s => ?_
    refine Outcome.bind_safe' (required_safe (reads_f32 rd).vec) fun _ => ?_
    refine Outcome.bind_safe' (required_safe (Reads.hashMap reads_textKey reads_usize)) fun _ => ?_
    simp

theorem reads_tfidfConfig : Reads decodeTfidfConfig TfidfConfigDoc where
  sound j m h := by
    unfold decodeTfidfConfig at h
    rw [Outcome.bind_ok_iff'] at h
    obtain ⟨s, hs, h⟩ := h
    have hs := fields_ok (names := tfidfConfigFields) (by decide) hs
    rw [Outcome.bind_ok_iff'] at h
    obtain ⟨a0, h0, h⟩ := h
    rw [Outcome.bind_ok_iff'] at h
    obtain ⟨a1, h1, h⟩ := h
    cases h
    exact ⟨hs.record,
      hs.required reads_boolean (by decide) h0,
      hs.optional reads_text (by decide) h1⟩
  complete j m h := by
    obtain ⟨s, hs⟩ := fields_total h.record
    have hf := fields_ok (by decide) hs
    obtain ⟨a0, h0⟩ := hf.required_total reads_boolean (by decide) h.useStemming
    obtain ⟨a1, h1⟩ := hf.optional_total reads_text (by decide) h.wordClustersName
    unfold decodeTfidfConfig
    exact ⟨_, Outcome.bind_ok_iff'.2 ⟨s, hs,
      Outcome.bind_ok_iff'.2 ⟨a0, h0, 
      Outcome.bind_ok_iff'.2 ⟨a1, h1, rfl⟩⟩⟩⟩
  safe j := by
    unfold decodeTfidfConfig
    refine Outcome.bind_safe' (fields_safe _ _) fun s => ?_
    refine Outcome.bind_safe' (required_safe reads_boolean) fun _ => ?_
    refine Outcome.bind_safe' (optional_safe reads_text) fun _ => ?_
    simp

theorem reads_tfidf (rd : Rounding) : Reads (decodeTfidf rd) (TfidfDoc rd) where
  sound j m h := by
    unfold decodeTfidf at h
    rw [Outcome.bind_ok_iff'] at h
    obtain ⟨s, hs, h⟩ := h
    have hs := fields_ok (names := tfidfFields) (by decide) hs
    rw [Outcome.bind_ok_iff'] at h
    obtain ⟨a0, h0, h⟩ := h
    rw [Outcome.bind_ok_iff'] at h
    obtain ⟨a1, h1, h⟩ := h
    rw [Outcome.bind_ok_iff'] at h
    obtain ⟨a2, h2, h⟩ := h
    rw [Outcome.bind_ok_iff'] at h
    obtain ⟨a3, h3, h⟩ := h
    cases h
    exact ⟨hs.record,
      hs.required reads_text (by decide) h0,
      hs.required reads_text.vec (by decide) h1,
      hs.required (reads_vectorizer rd) (by decide) h2,
      hs.required reads_tfidfConfig (by decide) h3⟩
  complete j m h := by
    obtain ⟨s, hs⟩ := fields_total h.record
    have hf := fields_ok (by decide) hs
    obtain ⟨a0, h0⟩ := hf.required_total reads_text (by decide) h.languageCode
    obtain ⟨a1, h1⟩ := hf.required_total reads_text.vec (by decide) h.builtinEntityScope
    obtain ⟨a2, h2⟩ := hf.required_total (reads_vectorizer rd) (by decide) h.vectorizer
    obtain ⟨a3, h3⟩ := hf.required_total reads_tfidfConfig (by decide) h.config
    unfold decodeTfidf
    exact ⟨_, Outcome.bind_ok_iff'.2 ⟨s, hs,
      Outcome.bind_ok_iff'.2 ⟨a0, h0, 
      Outcome.bind_ok_iff'.2 ⟨a1, h1, 
      Outcome.bind_ok_iff'.2 ⟨a2, h2, 
      Outcome.bind_ok_iff'.2 ⟨a3, h3, rfl⟩⟩⟩⟩⟩⟩
  safe j := by
    unfold decodeTfidf
    refine Outcome.bind_safe' (fields_safe _ _) fun s => ?_
    refine Outcome.bind_safe' (required_safe reads_text) fun _ => ?_
    refine Outcome.bind_safe' (required_safe reads_text.vec) fun _ => ?_
    refine Outcome.bind_safe' (required_safe (reads_vectorizer rd)) fun _ => ?_
    refine Outcome.bind_safe' (required_safe reads_tfidfConfig) fun _ => ?_
    simp

theorem reads_coocConfig : Reads decodeCoocConfig CoocConfigDoc where
  sound j m h := by
    unfold decodeCoocConfig at h
    rw [Outcome.bind_ok_iff'] at h
    obtain ⟨s, hs, h⟩ := h
    have hs := fields_ok (names := coocConfigFields) (by decide) hs
    rw [Outcome.bind_ok_iff'] at h
    obtain ⟨a0, h0, h⟩ := h
    rw [Outcome.bind_ok_iff'] at h
    obtain ⟨a1, h1, h⟩ := h
    rw [Outcome.bind_ok_iff'] at h
    obtain ⟨a2, h2, h⟩ := h
    rw [Outcome.bind_ok_iff'] at h
    obtain ⟨a3, h3, h⟩ := h
    cases h
    exact ⟨hs.record,
      hs.optional reads_usize (by decide) h0,
      hs.required reads_boolean (by decide) h1,
      hs.required reads_boolean (by decide) h2,
      hs.optional reads_text (by decide) h3⟩
  complete j m h := by
    obtain ⟨s, hs⟩ := fields_total h.record
    have hf := fields_ok (by decide) hs
    obtain ⟨a0, h0⟩ := hf.optional_total reads_usize (by decide) h.windowSize
    obtain ⟨a1, h1⟩ := hf.required_total reads_boolean (by decide) h.filterStopWords
    obtain ⟨a2, h2⟩ := hf.required_total reads_boolean (by decide) h.keepOrder
    obtain ⟨a3, h3⟩ := hf.optional_total reads_text (by decide) h.unknownWordsReplacementString
    unfold decodeCoocConfig
    exact ⟨_, Outcome.bind_ok_iff'.2 ⟨s, hs,
      Outcome.bind_ok_iff'.2 ⟨a0, h0, 
      Outcome.bind_ok_iff'.2 ⟨a1, h1, 
      Outcome.bind_ok_iff'.2 ⟨a2, h2, 
      Outcome.bind_ok_iff'.2 ⟨a3, h3, rfl⟩⟩⟩⟩⟩⟩
  safe j := by
    unfold decodeCoocConfig
    refine Outcome.bind_safe' (fields_safe _ _) fun s => ?_
    refine Outcome.bind_safe' (optional_safe reads_usize) fun _ => ?_
    refine Outcome.bind_safe' (required_safe reads_boolean) fun _ => ?_
    refine Outcome.bind_safe' (required_safe reads_boolean) fun _ => ?_
    refine Outcome.bind_safe' (optional_safe reads_text) fun _ => ?_
    simp

theorem reads_cooc : Reads decodeCooc CoocDoc where
  sound j m h := by
    unfold decodeCooc at h
    rw [Outcome.bind_ok_iff'] at h
    obtain ⟨s, hs, h⟩ := h
    have hs := fields_ok (names := coocFields) (by decide) hs
    rw [Outcome.bind_ok_iff'] at h
    obtain ⟨a0, h0, h⟩ := h
    rw [Outcome.bind_ok_iff'] at h
    obtain ⟨a1, h1, h⟩ := h
    rw [Outcome.bind_ok_iff'] at h
    obtain ⟨a2, h2, h⟩ := h
    rw [Outcome.bind_ok_iff'] at h
    obtain ⟨a3, h3, h⟩ := h
    cases h
    exact ⟨hs.record,
      hs.required reads_text (by decide) h0,
      hs.required reads_text.vec (by decide) h1,
      hs.required (Reads.hashMap reads_usizeKey (reads_text.pair reads_text)) (by decide) h2,
      hs.required reads_coocConfig (by decide) h3⟩
  complete j m h := by
    obtain ⟨s, hs⟩ := fields_total h.record
    have hf := fields_ok (by decide) hs
    obtain ⟨a0, h0⟩ := hf.required_total reads_text (by decide) h.languageCode
    obtain ⟨a1, h1⟩ := hf.required_total reads_text.vec (by decide) h.builtinEntityScope
    obtain ⟨a2, h2⟩ := hf.required_total (Reads.hashMap reads_usizeKey (reads_text.pair reads_text)) (by decide) h.wordPairs
    obtain ⟨a3, h3⟩ := hf.required_total reads_coocConfig (by decide) h.config
    unfold decodeCooc
    exact ⟨_, Outcome.bind_ok_iff'.2 ⟨s, hs,
      Outcome.bind_ok_iff'.2 ⟨a0, h0, 
      Outcome.bind_ok_iff'.2 ⟨a1, h1, 
      Outcome.bind_ok_iff'.2 ⟨a2, h2, 
      Outcome.bind_ok_iff'.2 ⟨a3, h3, rfl⟩⟩⟩⟩⟩⟩
  safe j := by
    unfold decodeCooc
    refine Outcome.bind_safe' (fields_safe _ _) fun s => ?_
    refine Outcome.bind_safe' (required_safe reads_text) fun _ => ?_
    refine Outcome.bind_safe' (required_safe reads_text.vec) fun _ => ?_
    refine Outcome.bind_safe' (required_safe (Reads.hashMap reads_usizeKey (reads_text.pair reads_text))) fun _ => ?_
    refine Outcome.bind_safe' (required_safe reads_coocConfig) fun _ => ?_
    simp

theorem reads_factory : Reads decodeFactory FactoryDoc where
  sound j m h := by
    unfold decodeFactory at h
    rw [Outcome.bind_ok_iff'] at h
    obtain ⟨s, hs, h⟩ := h
    have hs := fields_ok (names := factoryFields) (by decide) hs
    rw [Outcome.bind_ok_iff'] at h
    obtain ⟨a0, h0, h⟩ := h
    rw [Outcome.bind_ok_iff'] at h
    obtain ⟨a1, h1, h⟩ := h
    rw [Outcome.bind_ok_iff'] at h
    obtain ⟨a2, h2, h⟩ := h
    cases h
    exact ⟨hs.record,
      hs.required reads_text (by decide) h0,
      hs.required reads_i32.vec (by decide) h1,
      hs.required (Reads.hashMap reads_textKey reads_anyValue) (by decide) h2⟩
  complete j m h := by
    obtain ⟨s, hs⟩ := fields_total h.record
    have hf := fields_ok (by decide) hs
    obtain ⟨a0, h0⟩ := hf.required_total reads_text (by decide) h.factoryName
    obtain ⟨a1, h1⟩ := hf.required_total reads_i32.vec (by decide) h.offsets
    obtain ⟨a2, h2⟩ := hf.required_total (Reads.hashMap reads_textKey reads_anyValue) (by decide) h.args
    unfold decodeFactory
    exact ⟨_, Outcome.bind_ok_iff'.2 ⟨s, hs,
      Outcome.bind_ok_iff'.2 ⟨a0, h0, 
      Outcome.bind_ok_iff'.2 ⟨a1, h1, 
      Outcome.bind_ok_iff'.2 ⟨a2, h2, rfl⟩⟩⟩⟩⟩
  safe j := by
    unfold decodeFactory
    refine Outcome.bind_safe' (fields_safe _ _) fun s => ?_
    refine Outcome.bind_safe' (required_safe reads_text) fun _ => ?_
    refine Outcome.bind_safe' (required_safe reads_i32.vec) fun _ => ?_
    refine Outcome.bind_safe' (required_safe (Reads.hashMap reads_textKey reads_anyValue)) fun _ => ?_
    simp

theorem reads_slotFillerConfig : Reads decodeSlotFillerConfig SlotFillerConfigDoc where
  sound j m h := by
    unfold decodeSlotFillerConfig at h
    rw [Outcome.bind_ok_iff'] at h
    obtain ⟨s, hs, h⟩ := h
    have hs := fields_ok (names := slotFillerConfigFields) (by decide) hs
    rw [Outcome.bind_ok_iff'] at h
    obtain ⟨a0, h0, h⟩ := h
    rw [Outcome.bind_ok_iff'] at h
    obtain ⟨a1, h1, h⟩ := h
    cases h
    exact ⟨hs.record,
      hs.required reads_u8 (by decide) h0,
      hs.required reads_factory.vec (by decide) h1⟩
  complete j m h := by
    obtain ⟨s, hs⟩ := fields_total h.record
    have hf := fields_ok (by decide) hs
    obtain ⟨a0, h0⟩ := hf.required_total reads_u8 (by decide) h.taggingScheme
    obtain ⟨a1, h1⟩ := hf.required_total reads_factory.vec (by decide) h.featureFactoryConfigs
    unfold decodeSlotFillerConfig
    exact ⟨_, Outcome.bind_ok_iff'.2 ⟨s, hs,
      Outcome.bind_ok_iff'.2 ⟨a0, h0, 
      Outcome.bind_ok_iff'.2 ⟨a1, h1, rfl⟩⟩⟩⟩
  safe j := by
    unfold decodeSlotFillerConfig
    refine Outcome.bind_safe' (fields_safe _ _) fun s => ?_
    refine Outcome.bind_safe' (required_safe reads_u8) fun _ => ?_
    refine Outcome.bind_safe' (required_safe reads_factory.vec) fun _ => ?_
    simp

theorem reads_slotFiller : Reads decodeSlotFiller SlotFillerDoc where
  sound j m h := by
    unfold decodeSlotFiller at h
    rw [Outcome.bind_ok_iff'] at h
    obtain ⟨s, hs, h⟩ := h
    have hs := fields_ok (names := slotFillerFields) (by decide) hs
    rw [Outcome.bind_ok_iff'] at h
    obtain ⟨a0, h0, h⟩ := h
    rw [Outcome.bind_ok_iff'] at h
    obtain ⟨a1, h1, h⟩ := h
    rw [Outcome.bind_ok_iff'] at h
    obtain ⟨a2, h2, h⟩ := h
    rw [Outcome.bind_ok_iff'] at h
    obtain ⟨a3, h3, h⟩ := h
    rw [Outcome.bind_ok_iff'] at h
    obtain ⟨a4, h4, h⟩ := h
    cases h
    exact ⟨hs.record,
      hs.required reads_text (by decide) h0,
      ⟨_, hs.required reads_text (by decide) h1⟩,
      hs.required (Reads.hashMap reads_textKey reads_text) (by decide) h2,
      hs.optional reads_text (by decide) h3,
      hs.required reads_slotFillerConfig (by decide) h4⟩
  complete j m h := by
    obtain ⟨s, hs⟩ := fields_total h.record
    have hf := fields_ok (by decide) hs
    obtain ⟨a0, h0⟩ := hf.required_total reads_text (by decide) h.languageCode
    obtain ⟨_, r1⟩ := h.intent
    obtain ⟨a1, h1⟩ := hf.required_total reads_text (by decide) r1
    obtain ⟨a2, h2⟩ := hf.required_total (Reads.hashMap reads_textKey reads_text) (by decide) h.slotNameMapping
    obtain ⟨a3, h3⟩ := hf.optional_total reads_text (by decide) h.crfModelFile
    obtain ⟨a4, h4⟩ := hf.required_total reads_slotFillerConfig (by decide) h.config
    unfold decodeSlotFiller
    exact ⟨_, Outcome.bind_ok_iff'.2 ⟨s, hs,
      Outcome.bind_ok_iff'.2 ⟨a0, h0, 
      Outcome.bind_ok_iff'.2 ⟨a1, h1, 
      Outcome.bind_ok_iff'.2 ⟨a2, h2, 
      Outcome.bind_ok_iff'.2 ⟨a3, h3, 
      Outcome.bind_ok_iff'.2 ⟨a4, h4, rfl⟩⟩⟩⟩⟩⟩⟩
  safe j := by
    unfold decodeSlotFiller
    refine Outcome.bind_safe' (fields_safe _ _) fun s => ?_
    refine Outcome.bind_safe' (required_safe reads_text) fun _ => ?_
    refine Outcome.bind_safe' (required_safe reads_text) fun _ => ?_
    refine Outcome.bind_safe' (required_safe (Reads.hashMap reads_textKey reads_text)) fun _ => ?_
    refine Outcome.bind_safe' (optional_safe reads_text) fun _ => ?_
    refine Outcome.bind_safe' (required_safe reads_slotFillerConfig) fun _ => ?_
    simp

end Snips
