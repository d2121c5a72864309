{
 "claims": [
  {
   "property": "C01",
   "status": "partial",
   "theorems": [
    "Snips.c01_engine_partial",
    "Snips.c01_engine_counterexample",
    "Snips.c01_lookup",
    "Snips.c01_deterministic",
    "Snips.c01_probabilistic_partial",
    "Snips.c01_classifier_exact",
    "Snips.c01_single_intent_counterexample",
    "Snips.c01_empty_input_counterexample",
    "Snips.c01_loaded_partial"
   ],
   "note": "Proved for engines made of any list of the three kinds of parsers, main intent and alternatives. Missing: classifiers whose intent list is not empty and lacks the absent intent; for exactly those the claim is false (c01_classifier_exact; c01_engine_counterexample, c01_single_intent_counterexample, c01_empty_input_counterexample)."
  },
  {
   "property": "C02",
   "status": "proved",
   "theorems": [
    "Snips.c02_unknown_rejected",
    "Snips.c02_effective_filter"
   ],
   "note": "All engines, filters and hash orders."
  },
  {
   "property": "C03",
   "status": "proved",
   "theorems": [
    "Snips.c03_first_parser_wins",
    "Snips.c03_result_origin"
   ],
   "note": "Forward and converse; errors and panics included."
  },
  {
   "property": "C04",
   "status": "proved",
   "theorems": [
    "Snips.c04_no_intent",
    "Snips.c04_with_alternatives"
   ],
   "note": ""
  },
  {
   "property": "C05",
   "status": "proved",
   "theorems": [
    "Snips.c05_main_unchanged",
    "Snips.c05_intent_independent_of_slot_alternatives",
    "Snips.c05_zero"
   ],
   "note": "Compared under the same hash iteration orders."
  },
  {
   "property": "C06",
   "status": "partial",
   "theorems": [
    "Snips.c06_counterexample",
    "Snips.c06_not_repeated_partial",
    "Snips.c06_exact_partial",
    "Snips.c06_strict_partial",
    "Snips.c06_deterministic",
    "Snips.c06_lookup",
    "Snips.c06_tie_counterexample"
   ],
   "note": "The claim is false of the code (c06_counterexample, c06_tie_counterexample): the code skips the first ranked intent rather than the main one. Proved: exactly which intents are listed (c06_exact_partial), the claim whenever the main intent heads the filtered ranking, and the claim in full for engines with a single deterministic parser, or a single lookup parser asked without filter (c06_deterministic, c06_lookup)."
  },
  {
   "property": "C07",
   "status": "proved",
   "theorems": [
    "Snips.c07_alternatives",
    "Snips.c07_alternative_slots"
   ],
   "note": ""
  },
  {
   "property": "C08",
   "status": "proved",
   "theorems": [
    "Snips.c08_sorted_nodup",
    "Snips.c08_maximum"
   ],
   "note": "Maximum and presence assume each parser ranks an intent at most once; order and uniqueness need no assumption."
  },
  {
   "property": "C09",
   "status": "proved",
   "theorems": [
    "Snips.c09_first_nonempty",
    "Snips.c09_all_empty",
    "Snips.c09_origin",
    "Snips.c09_get_slots",
    "Snips.c09_lookup_unknown",
    "Snips.c09_deterministic_unknown",
    "Snips.c09_lookup_own",
    "Snips.c09_deterministic_own",
    "Snips.c09_probabilistic"
   ],
   "note": "Engine level in C09_GetSlots; unknown and known intents for each of the three parser kinds in C14_RuleSlots and C40_Classifier."
  },
  {
   "property": "C10",
   "status": "proved",
   "theorems": [
    "Snips.c10_slot_identity",
    "Snips.c10_slot_identity_get_slots"
   ],
   "note": ""
  },
  {
   "property": "C11",
   "status": "proved",
   "theorems": [
    "Snips.c11_custom_resolution"
   ],
   "note": ""
  },
  {
   "property": "C12",
   "status": "proved",
   "theorems": [
    "Snips.c12_builtin_resolution",
    "Snips.c12_unknown_entity",
    "Snips.c12_unknown_entity_error"
   ],
   "note": ""
  },
  {
   "property": "C13",
   "status": "proved",
   "theorems": [
    "Snips.c13_unknown",
    "Snips.c13_custom",
    "Snips.c13_builtin",
    "Snips.c13_extract_slot"
   ],
   "note": ""
  },
  {
   "property": "C14",
   "status": "proved",
   "theorems": [
    "Snips.c14_engine",
    "Snips.c14_lookup",
    "Snips.c14_deterministic",
    "Snips.c14_lookup_get_slots",
    "Snips.c14_deterministic_get_slots",
    "Snips.c14_loaded"
   ],
   "note": "Engine level, main slots, alternatives and get_slots, given a tokenizer with right ranges (external)."
  },
  {
   "property": "C15",
   "status": "partial",
   "theorems": [
    "Snips.c15_engine_partial",
    "Snips.c15_rule_based",
    "Snips.c15_lookup",
    "Snips.c15_deterministic",
    "Snips.c15_loaded_partial"
   ],
   "note": "Engine level for any list of parsers. Missing: a BIO tagger answering with tags outside of the alphabet, for which the claim is false (c27_bio_malformed_counterexample)."
  },
  {
   "property": "C16",
   "status": "proved",
   "theorems": [
    "Snips.c16_sound",
    "Snips.c16_in_text_order",
    "Snips.c16_priority",
    "Snips.c16_disjoint_input_kept",
    "Snips.c16_idempotent",
    "Snips.c16_any_ranges",
    "Snips.c16_items",
    "Snips.c16_nodup"
   ],
   "note": "All inputs; greedy overlap removal."
  },
  {
   "property": "C17",
   "status": "partial",
   "theorems": [
    "Snips.c17_text",
    "Snips.c17_table",
    "Snips.c17_mapping_partial",
    "Snips.c17_mapping_exact",
    "Snips.c17_debug",
    "Snips.c17_no_overflow",
    "Snips.c17_mapping_counterexample",
    "Snips.c17_overflow_counterexample",
    "Snips.c17_debug_counterexample"
   ],
   "note": "Text substitution is exact for all inputs (c17_text). c17_table gives the table the code builds for all sizes; c17_mapping_partial: it is the intended one if every placeholder ends before position 2^15 of the new text; c17_mapping_exact: and only then. Beyond, the claim is false (c17_mapping_counterexample). c17_debug, c17_no_overflow: exactly when a debug build panics; c17_debug_counterexample: a debug build can also answer wrongly without panicking."
  },
  {
   "property": "C18",
   "status": "partial",
   "theorems": [
    "Snips.c18_recovery_partial",
    "Snips.c18_order_partial",
    "Snips.c18_beyond",
    "Snips.c18_counterexample",
    "Snips.c18_order_counterexample"
   ],
   "note": "Holds when every placeholder ends before position 2^15 of the new text, and the text is shorter than 2^31 characters (c18_recovery_partial, c18_order_partial). Beyond that the code violates the claim: c18_counterexample, c18_order_counterexample. c18_beyond: it violates it for every placeholder beyond position 2^15 whose length differs from that of its match."
  },
  {
   "property": "C19",
   "status": "proved",
   "theorems": [
    "Snips.c19_positions"
   ],
   "note": "Blanking keeps length and positions for every token list in text order."
  },
  {
   "property": "C20",
   "status": "proved",
   "theorems": [
    "Snips.c20_join_position",
    "Snips.c20_remap",
    "Snips.c20_token_text"
   ],
   "note": "For every tokenization with ordered tokens."
  },
  {
   "property": "C21",
   "status": "proved",
   "theorems": [
    "Snips.c21_history",
    "Snips.c21_history_independent",
    "Snips.c21_custom_extraction",
    "Snips.c21_builtin_extraction",
    "Snips.c21_builtin_extraction_exact"
   ],
   "note": "For all histories of calls, under the stated assumption that builtin match ranges/kinds do not depend on time and extractors do not panic."
  },
  {
   "property": "C22",
   "status": "proved",
   "theorems": [
    "Snips.c22_schedule_independent",
    "Snips.c22_linearizable"
   ],
   "note": "For all schedules at lock granularity."
  },
  {
   "property": "C23",
   "status": "proved",
   "theorems": [
    "Snips.c23_recency",
    "Snips.c23_bounded",
    "Snips.c23_failure_not_cached",
    "Snips.c23_success_cached"
   ],
   "note": "For all request histories and capacities."
  },
  {
   "property": "C24",
   "status": "proved",
   "theorems": [
    "Snips.c24_no_deadlock",
    "Snips.c24_terminates",
    "Snips.c24_mutual_exclusion",
    "Snips.c24_errors_are_harmless",
    "Snips.c24_no_inherited_panic",
    "Snips.c24_poisoning_counterexample"
   ],
   "note": "Progress and termination hold unconditionally; robustness assumes no extraction panics, and c24_poisoning_counterexample shows the assumption is needed."
  },
  {
   "property": "C25",
   "status": "proved",
   "theorems": [
    "Snips.c25_parse_fresh",
    "Snips.c25_get_slots_fresh",
    "Snips.c25_extract_slot_fresh"
   ],
   "note": "For all histories; cached extractions only expose ranges and kinds in the model, as at every call site in the code."
  },
  {
   "property": "C26",
   "status": "proved",
   "theorems": [
    "Snips.c26_bio",
    "Snips.c26_bilou",
    "Snips.c26_io",
    "Snips.c26_encoder",
    "Snips.c26_io_adjacent_counterexample"
   ],
   "note": "All segmentations; the prefixes are those of get_scheme_prefix (c26_encoder)."
  },
  {
   "property": "C27",
   "status": "proved",
   "theorems": [
    "Snips.c27_of_tagOk",
    "Snips.c27_io_bilou",
    "Snips.c27_bio",
    "Snips.c27_bio_malformed_counterexample",
    "Snips.c27_length_counterexample"
   ],
   "note": "IO and BILOU for arbitrary tags; BIO for tags of its alphabet (c27_bio_malformed_counterexample shows foreign tags break it)."
  },
  {
   "property": "C28",
   "status": "proved",
   "theorems": [
    "Snips.c28_slot",
    "Snips.c28_value"
   ],
   "note": ""
  },
  {
   "property": "C29",
   "status": "proved",
   "theorems": [
    "Snips.c29_window",
    "Snips.c29_total",
    "Snips.c29_key_injective"
   ],
   "note": "Offsets as unbounded integers (the code uses i32)."
  },
  {
   "property": "C30",
   "status": "proved",
   "theorems": [
    "Snips.c30_prefix",
    "Snips.c30_absent",
    "Snips.c30_builtin_feature",
    "Snips.c30_custom_feature"
   ],
   "note": "For non-empty tokens and entities."
  },
  {
   "property": "C31",
   "status": "proved",
   "theorems": [
    "Snips.c31_rebuild",
    "Snips.c31_transform",
    "Snips.c31_empty_counterexample"
   ],
   "note": ""
  },
  {
   "property": "C32",
   "status": "proved",
   "theorems": [
    "Snips.c32_prefix",
    "Snips.c32_suffix",
    "Snips.c32_ngram",
    "Snips.c32_ngram_overflow_counterexample",
    "Snips.c32_ngram_word",
    "Snips.c32_shape",
    "Snips.c32_first_last"
   ],
   "note": "Normalisation, stemming and shapes are external functions. The end of the n-gram must be a 64-bit number; otherwise the feature panics (c32_ngram_overflow_counterexample). The overflow check of a debug build in a shape n-gram is in C86."
  },
  {
   "property": "C33",
   "status": "proved",
   "theorems": [
    "Snips.c33_query",
    "Snips.c33_untrained",
    "Snips.c33_no_label"
   ],
   "note": "The tagger and the base64 codec are external."
  },
  {
   "property": "C34",
   "status": "proved",
   "theorems": [
    "Snips.c34_all_once",
    "Snips.c34_mem",
    "Snips.c34_nodup",
    "Snips.c34_count",
    "Snips.c34_order",
    "Snips.c34_candidates",
    "Snips.c34_replaced",
    "Snips.c34_found_ordered"
   ],
   "note": "Every sub-selection exactly once, in order of size; candidates and replacement text characterised."
  },
  {
   "property": "C35",
   "status": "proved",
   "theorems": [
    "Snips.c35_deterministic",
    "Snips.c35_deterministic_rounded",
    "Snips.c35_lookup",
    "Snips.c35_lookup_rounded"
   ],
   "note": "Exact arithmetic: full characterisation. Any monotone rounding: single match, tie and fewer-slots parts."
  },
  {
   "property": "C36",
   "status": "proved",
   "theorems": [
    "Snips.c36_lookup",
    "Snips.c36_deterministic"
   ],
   "note": "Sum is 1 in exact arithmetic; for a rounding of relative error e within the stated bounds."
  },
  {
   "property": "C37",
   "status": "partial",
   "theorems": [
    "Snips.c37_lookup",
    "Snips.c37_lookup_rounded",
    "Snips.c37_deterministic_partial",
    "Snips.c37_deterministic_rounded_partial"
   ],
   "note": "Lookup parser: proved. Deterministic parser: for in-range matches whose placeholders end before position 2^15 of the new text; beyond, c18_order_counterexample shows dependence on hash order. With rounding: two orders never give different intents, but one order can give an intent and another none (c84_order_counterexample, in actual single precision); C85 says when not."
  },
  {
   "property": "C38",
   "status": "proved",
   "theorems": [
    "Snips.c38_lookup",
    "Snips.c38_deterministic"
   ],
   "note": "Names are a permutation of the intents plus the absent intent; matching ones first."
  },
  {
   "property": "C39",
   "status": "partial",
   "theorems": [
    "Snips.c39_scores",
    "Snips.c39_strictly_between",
    "Snips.c39_increasing",
    "Snips.c39_binary_sum",
    "Snips.c39_rounded",
    "Snips.c39_rounded_monotone",
    "Snips.c39_feature_mismatch",
    "Snips.c39_missing_coefficients",
    "Snips.c39_loads_iff",
    "Snips.c39_superfluous",
    "Snips.c39_superfluous_counterexample"
   ],
   "note": "Proved with exact real arithmetic and with rounding, incl. one score per class and errors for feature size mismatch and missing coefficients. Which coefficients are accepted is characterised exactly (c39_loads_iff). False part: surplus coefficients are silently ignored by the code (c39_superfluous_counterexample); they have no influence (c39_superfluous)."
  },
  {
   "property": "C40",
   "status": "proved",
   "theorems": [
    "Snips.c40_sorted",
    "Snips.c40_scores",
    "Snips.c40_filter",
    "Snips.c40_first",
    "Snips.c40_certain",
    "Snips.c40_no_features",
    "Snips.c40_one_score_per_intent"
   ],
   "note": "Ranking and filter: for a classifier with at least two intents, both model parts and a non-empty input. The other cases: c40_certain (at most one intent; the whitelist is not looked at), c40_no_features (no input or a part missing)."
  },
  {
   "property": "C41",
   "status": "proved",
   "theorems": [
    "Snips.c41_vector",
    "Snips.c41_norm",
    "Snips.c41_order",
    "Snips.c41_total",
    "Snips.c41_empty_vocabulary_counterexample"
   ],
   "note": "Real arithmetic for values and norm (positive idf); order independence for any arithmetic, including rounding."
  },
  {
   "property": "C42",
   "status": "proved",
   "theorems": [
    "Snips.c42_entries",
    "Snips.c42_table",
    "Snips.c42_inconsistent_counterexample",
    "Snips.c42_window_counterexample"
   ],
   "note": "For consistently numbered tables, and the table built from a model that numbers its pairs is one. In a debug build the text must not overflow the 16-bit arithmetic of replace_entities. The window added to the number of tokens must be a 64-bit number; otherwise c42_window_counterexample."
  },
  {
   "property": "C43",
   "status": "proved",
   "theorems": [
    "Snips.c43_validated_before_writing",
    "Snips.c43_not_injectable",
    "Snips.c43_missing_stemmer"
   ],
   "note": "Entity parsers on disk, the metadata of engine and parsers, the stemmer and interruptions of writing operations are modelled. Whatever is written, every entity of the request can be injected and the stemmer is there; otherwise an error and an unchanged disk."
  },
  {
   "property": "C44",
   "status": "proved",
   "theorems": [
    "Snips.c44_success",
    "Snips.c44_order_independent"
   ],
   "note": "For requests whose parser directories are not inside of one another (true of the engines that training writes). The library that reads, updates and writes gazetteer parsers is a parameter."
  },
  {
   "property": "C45",
   "status": "partial",
   "theorems": [
    "Snips.c45_at_most_one_partial",
    "Snips.c45_not_interrupted",
    "Snips.c45_counterexample",
    "Snips.c45_not_atomic_counterexample"
   ],
   "note": "False as stated: the parser being rewritten is lost if the process is killed between remove_dir_all and dump (c45_counterexample). Proved: every other parser is old or new, and all are if no writing operation is interrupted. A failing request may have changed some parsers (c45_not_atomic_counterexample)."
  },
  {
   "property": "C46",
   "status": "proved",
   "theorems": [
    "Snips.c46_values",
    "Snips.c46_nothing_lost",
    "Snips.c46_add_value"
   ],
   "note": "Lower-casing, stems and word splitting are parameters; ToInject is the specification of the values for each usage."
  },
  {
   "property": "C47",
   "status": "proved",
   "theorems": [
    "Snips.c47_confined",
    "Snips.c47_only_entries",
    "Snips.c47_engine_dir",
    "Snips.c47_names_normal",
    "Snips.c47_ordinary_name",
    "Snips.c47_contents",
    "Snips.c47_succeeds",
    "Snips.c47_directories",
    "Snips.c47_exact",
    "Snips.c47_succeeds_iff"
   ],
   "note": "For every archive, every pattern of disk failures and every outcome: only paths strictly below the destination change, only entry paths and the directories leading to them, and the engine directory is a direct child of the destination. Contents after success and success for ordinary archives are proved too. File system without symbolic links; zip name cleaning transcribed from the zip crate."
  },
  {
   "property": "C48",
   "status": "partial",
   "theorems": [
    "Snips.c48_no_panic_partial",
    "Snips.c48_counterexample_dots",
    "Snips.c48_counterexample_conflict",
    "Snips.c48_counterexample_fault",
    "Snips.c48_panics_iff"
   ],
   "note": "False of the code: three witnesses (entry named '..', a file in the way of another entry, disk failure at File::create) panic. Proved without those three cases, for an initially empty destination; on a working disk the archives that panic are characterised exactly (c48_panics_iff)."
  },
  {
   "property": "C49",
   "status": "proved",
   "theorems": [
    "Snips.c49_version",
    "Snips.c49_wrong_version",
    "Snips.c49_no_version",
    "Snips.c49_units",
    "Snips.c49_unexpected_parser",
    "Snips.c49_unexpected_component",
    "Snips.c49_constructed"
   ],
   "note": "The grammar of JSON, the languages and the entity parsers loaded by dependencies are parameters."
  },
  {
   "property": "C50",
   "status": "partial",
   "theorems": [
    "Snips.c50_lookup_partial",
    "Snips.c50_storage",
    "Snips.c50_notation_counterexample",
    "Snips.c50_malformed"
   ],
   "note": "Lookup and choice of the compact form proved for every file; cluster names that are numbers in non-canonical notation ('007', '+7') come back changed when all names are numbers (witness), and a one-column record panics (proved)."
  },
  {
   "property": "C51",
   "status": "proved",
   "theorems": [
    "Snips.c51_gazetteer",
    "Snips.c51_gazetteer_error",
    "Snips.c51_stemmer",
    "Snips.c51_stemmer_listed"
   ],
   "note": "Gazetteer and stemmer loaders for every file: membership is exactly the set of lines, a stem is the one of the last line that lists the word, unlisted words are unchanged."
  },
  {
   "property": "C52",
   "status": "proved",
   "theorems": [
    "Snips.c52_ignored_iff",
    "Snips.c52_deterministic",
    "Snips.c52_lookup"
   ],
   "note": "For both rule-based parsers."
  },
  {
   "property": "C53",
   "status": "proved",
   "theorems": [
    "Snips.c53_success_writes",
    "Snips.c53_failure_writes_nothing",
    "Snips.c53_written_iff_success",
    "Snips.c53_new_address",
    "Snips.c53_native",
    "Snips.c53_success_is_native",
    "Snips.c53_refused",
    "Snips.c53_poisoned_refused",
    "Snips.c53_null_filters",
    "Snips.c53_defined",
    "Snips.c53_history_independent",
    "Snips.c53_other_engines",
    "Snips.c53_objects_kept",
    "Snips.c53_destroyed",
    "Snips.c53_double_destroy",
    "Snips.c53_create_from_dir",
    "Snips.c53_create_from_dir_succeeds",
    "Snips.c53_create_from_zip",
    "Snips.c53_serialised",
    "Snips.c53_sequential_order",
    "Snips.c53_threads_native",
    "Snips.c53_no_deadlock",
    "Snips.c53_terminates"
   ],
   "note": "For every call of the C interface of ffi/src/lib.rs (creation, queries, destruction), every memory and every sequence of calls: the result pointer is written exactly on success, the object written represents the answer of the native engine, invalid input, null engines, invalid UTF-8 and poisoned engines give KO without touching the result, results of a call do not depend on the history of other calls, and sessions that follow the ownership rules never meet undefined behaviour; for concurrent clients: serialisation by the engine mutex, no deadlock, termination. Undefined behaviour (null result pointers, double destroy) and panics crossing the boundary are explicit outcomes of the model. The macros of ffi-utils are external and modelled as recalled (DESIGN.md)."
  },
  {
   "property": "C54",
   "status": "proved",
   "theorems": [
    "Snips.c54_parse",
    "Snips.c54_classifier_fails",
    "Snips.c54_answer",
    "Snips.c54_get_intents"
   ],
   "note": "Composition of classifier and slot fillers, for all of their behaviours."
  },
  {
   "property": "C55",
   "status": "proved",
   "theorems": [
    "Snips.c55_consistent",
    "Snips.c55_slice",
    "Snips.c55_defined"
   ],
   "note": ""
  },
  {
   "property": "C56",
   "status": "proved",
   "theorems": [
    "Snips.c56_outside_untouched",
    "Snips.c56_disk_restored",
    "Snips.c56_no_temp",
    "Snips.c56_same_as_directory",
    "Snips.c56_success_is_directory"
   ],
   "note": "from_zip: equality with loading the archived directory, confinement, restoration of the disk. Hypotheses: names in model files are plain (see C57), the disk is a tree without symbolic links, the temporary place is free. The zip reader and tempfile are external."
  },
  {
   "property": "C57",
   "status": "proved",
   "theorems": [
    "Snips.c57_relocatable",
    "Snips.c57_same_reads",
    "Snips.c57_confined",
    "Snips.c57_outside_irrelevant",
    "Snips.c57_escape_counterexample",
    "Snips.c57_not_relocatable_counterexample"
   ],
   "note": "Under the hypothesis, part of the statement, that the names decoded from the model files are relative and without '..'; c57_escape_counterexample and c57_not_relocatable_counterexample show that the code does not check this and that the claim fails without it."
  },
  {
   "property": "C58",
   "status": "proved",
   "theorems": [
    "Snips.c58_extraction",
    "Snips.c58_release",
    "Snips.c58_parser",
    "Snips.c58_engine",
    "Snips.c58_history",
    "Snips.c58_empty_vocabulary_counterexample",
    "Snips.c58_empty_match_counterexample",
    "Snips.c58_lookup_ids_counterexample",
    "Snips.c58_debug_placeholder_counterexample",
    "Snips.c58_debug_overflow_counterexample",
    "Snips.c58_release_placeholder",
    "Snips.c58_group_counterexample",
    "Snips.c58_tags_counterexample"
   ],
   "note": "c58_parser, c58_engine (any list of well-formed parsers, any call), c58_extraction (custom entity extraction), c58_history (with caches, after any past, release build). Debug builds need a condition on the text (Fits), which a release build meets (c58_release) as soon as the windows and n-grams are small enough for the text (Small). Counterexample theorems show that each condition is needed, including debug builds in which a user typing a placeholder, or a text of 2^15 characters, makes a parser panic. Scores are modelled as rationals, so the partial_cmp(..).unwrap() on NaN is outside the claim (recorded in DESIGN.md)."
  },
  {
   "property": "C59",
   "status": "proved",
   "theorems": [
    "Snips.c59_scheme",
    "Snips.c59_features",
    "Snips.c59_processor",
    "Snips.c59_no_panic",
    "Snips.c59_code_counterexample"
   ],
   "note": "The code of the scheme of a feature is cut to its last byte (256 is taken as IO): c59_code_counterexample."
  },
  {
   "property": "C60",
   "status": "proved",
   "theorems": [
    "Snips.c60_engine",
    "Snips.c60_file_name",
    "Snips.c60_file_name_dotted",
    "Snips.c60_collision_counterexample"
   ],
   "note": "Names of resources that differ only after the last dot read the same file: c60_collision_counterexample."
  },
  {
   "property": "C61",
   "status": "proved",
   "theorems": [
    "Snips.c61_loads_iff",
    "Snips.c61_no_panic",
    "Snips.c61_panic_counterexample"
   ],
   "note": "Incomplete coefficients and a bare word at the head of a file of clusters panic: c61_panic_counterexample."
  },
  {
   "property": "C62",
   "status": "proved",
   "theorems": [
    "Snips.c62_sound",
    "Snips.c62_complete",
    "Snips.c62_parse",
    "Snips.c62_scope"
   ],
   "note": "Exact (recognised iff a pattern matches) up to the order in which overlapping groups of equal size are preferred, which depends on the sort; regular expressions are a parameter of the model."
  },
  {
   "property": "C63",
   "status": "proved",
   "theorems": [
    "Snips.c63_parse",
    "Snips.c63_slots",
    "Snips.c63_ranking",
    "Snips.c63_alternatives",
    "Snips.c63_tie_counterexample"
   ],
   "note": "Exact arithmetic for the rule-based parsers and the range of C18 for the deterministic ones are hypotheses (with rounding or long texts the code does depend on the order: c84_engine_order_counterexample and C18). c63_tie_counterexample: with ties the alternatives do depend on the order."
  },
  {
   "property": "C64",
   "status": "partial",
   "theorems": [
    "Snips.c64_positions",
    "Snips.c64_displaced",
    "Snips.c64_builtin_partial",
    "Snips.c64_custom_partial",
    "Snips.c64_lookup_partial",
    "Snips.c64_counterexample"
   ],
   "note": "Proved for texts in which every lower-case form is one character (c64_builtin_partial, c64_custom_partial, c64_lookup_partial, from c64_positions). False otherwise: the range is displaced by the characters which lower-casing adds before it (c64_displaced, c64_counterexample). Slots of the deterministic parser are related to the text in C68, those of the probabilistic parser in C26 and C69."
  },
  {
   "property": "C65",
   "status": "proved",
   "theorems": [
    "Snips.c65_utf8",
    "Snips.c65_lines",
    "Snips.c65_lines_invalid",
    "Snips.c65_gazetteer",
    "Snips.c65_gazetteer_invalid",
    "Snips.c65_stop_words",
    "Snips.c65_stop_words_invalid",
    "Snips.c65_records",
    "Snips.c65_records_flexible",
    "Snips.c65_records_strict",
    "Snips.c65_records_invalid",
    "Snips.c65_stemmer",
    "Snips.c65_stemmer_invalid",
    "Snips.c65_clusters",
    "Snips.c65_clusters_panic_iff",
    "Snips.c65_clusters_panic",
    "Snips.c65_clusters_error",
    "Snips.c65_clusters_invalid"
   ],
   "note": "Hash collisions are part of the statements. Panics: c65_clusters_panic_iff."
  },
  {
   "property": "C66",
   "status": "proved",
   "theorems": [
    "Snips.c66_unit",
    "Snips.c66_version",
    "Snips.c66_engine",
    "Snips.c66_resources",
    "Snips.c66_custom_parser",
    "Snips.c66_lookup",
    "Snips.c66_deterministic",
    "Snips.c66_probabilistic",
    "Snips.c66_classifier",
    "Snips.c66_featurizer",
    "Snips.c66_tfidf",
    "Snips.c66_cooc",
    "Snips.c66_slot_filler",
    "Snips.c66_safe",
    "Snips.c66_order",
    "Snips.c66_unknown",
    "Snips.c66_file"
   ],
   "note": "For documents without tables decoding is characterised exactly; for the others the decoder accepts exactly the documents that describe something and answers a value they describe (tables up to the order of their entries). The grammar of JSON itself is a parameter."
  },
  {
   "property": "C67",
   "status": "proved",
   "theorems": [
    "Snips.c67_blocks",
    "Snips.c67_failure",
    "Snips.c67_linear",
    "Snips.c67_linear_terms",
    "Snips.c67_ranking"
   ],
   "note": "c67_linear and c67_linear_terms are for exact arithmetic and describe the score completely; c67_blocks, c67_failure and c67_ranking hold with any arithmetic."
  },
  {
   "property": "C68",
   "status": "proved",
   "theorems": [
    "Snips.c68_slots",
    "Snips.c68_get_slots"
   ],
   "note": "Captures that cut a placeholder in two are not described (patterns capture whole placeholders). The ranges of tokens and of groups of regular expressions are assumed faithful, and placeholders end before position 2^15 (C18 shows what happens otherwise)."
  },
  {
   "property": "C69",
   "status": "proved",
   "theorems": [
    "Snips.c69_encoding",
    "Snips.c69_ascii",
    "Snips.c69_round_trip",
    "Snips.c69_decode",
    "Snips.c69_slots",
    "Snips.c69_any_answer",
    "Snips.c69_query"
   ],
   "note": "The tagger is a parameter. What base64::decode does with texts that are not canonical base64 is a parameter as well. The segmentation theorem assumes, for the IO scheme, that no two slots are adjacent (C26)."
  },
  {
   "property": "C70",
   "status": "proved",
   "theorems": [
    "Snips.c70_logit",
    "Snips.c70_nan_scores",
    "Snips.c70_ranking",
    "Snips.c70_blank",
    "Snips.c70_single",
    "Snips.c70_no_nan",
    "Snips.c70_infinite_coefficient",
    "Snips.c70_json",
    "Snips.c70_features",
    "Snips.c70_refines"
   ],
   "note": "IEEE 754 special values, one zero. The order of summation inside ndarray's dot is sequential in c70_no_nan and c70_infinite_coefficient, arbitrary elsewhere."
  },
  {
   "property": "C71",
   "status": "proved",
   "theorems": [
    "Snips.c71_answer",
    "Snips.c71_parse",
    "Snips.c71_getSlots",
    "Snips.c71_getIntents",
    "Snips.c71_truncated",
    "Snips.c71_negative",
    "Snips.c71_message",
    "Snips.c71_init",
    "Snips.c71_source",
    "Snips.c71_no_source",
    "Snips.c71_invariant",
    "Snips.c71_session"
   ],
   "note": "Memory, arguments and answers of the ctypes wrapper over the model of the C interface; programs by induction over their calls (c71_session). Null characters cut texts and negative numbers wrap (c71_truncated, c71_negative)."
  },
  {
   "property": "C72",
   "status": "partial",
   "theorems": [
    "Snips.c72_answer_partial",
    "Snips.c72_json_partial",
    "Snips.c72_message",
    "Snips.c72_create",
    "Snips.c72_modelVersion",
    "Snips.c72_close",
    "Snips.c72_after_close",
    "Snips.c72_empty_filter",
    "Snips.c72_collected",
    "Snips.c72_leak"
   ],
   "note": "Proved when the collector does not run during the call, filters are not empty lists and the engine is open. Without: c72_collected, c72_empty_filter, c72_after_close (undefined behaviour), c72_leak."
  },
  {
   "property": "C73",
   "status": "partial",
   "theorems": [
    "Snips.c73_answer_partial",
    "Snips.c73_leak",
    "Snips.c73_trap",
    "Snips.c73_null_message",
    "Snips.c73_init_null_message",
    "Snips.c73_init_partial",
    "Snips.c73_init_bytes",
    "Snips.c73_deinit"
   ],
   "note": "Answers proved; on errors the message is thrown but message and variable stay allocated (c73_leak). Not so: negative numbers (c73_trap), messages with a null byte (c73_null_message, c73_init_null_message: undefined for every question and constructor), empty data (c73_init_bytes)."
  },
  {
   "property": "C74",
   "status": "partial",
   "theorems": [
    "Snips.c74_value",
    "Snips.c74_interval",
    "Snips.c74_interval_lost",
    "Snips.c74_faithful",
    "Snips.c74_slot",
    "Snips.c74_parse_partial",
    "Snips.c74_getSlots_partial",
    "Snips.c74_getIntents",
    "Snips.c74_place"
   ],
   "note": "Exactly the values with OValue.Shown are represented (c74_value): not places (the answer is lost, c74_place), nor intervals whose end differs from their start (c74_interval), nor ordinals beyond 32 bits."
  },
  {
   "property": "C75",
   "status": "proved",
   "theorems": [
    "Snips.c75_isolated",
    "Snips.c75_no_interference",
    "Snips.c75_panics_stay",
    "Snips.c75_exclusive",
    "Snips.c75_no_deadlock",
    "Snips.c75_terminates",
    "Snips.c75_poisoning_counterexample",
    "Snips.c75_unset_counterexample"
   ],
   "note": "Threads with a stateful tagger behind its mutex and the caches behind theirs; invariant over reachable states, refinement of the stateless tagger used elsewhere. c75_poisoning_counterexample: a tagger without labels panics under the lock, after which innocent calls end with an error (not a panic). c75_unset_counterexample: what the order set, probability is for."
  },
  {
   "property": "C76",
   "status": "proved",
   "theorems": [
    "Snips.c76_same_answer",
    "Snips.c76_complement",
    "Snips.c76_same_program",
    "Snips.c76_unknown_intent_counterexample"
   ],
   "note": "That the parsers know only the trained intents is a hypothesis (OnlyKnows); c76_unknown_intent_counterexample shows what it is for. With lists in both calls the programs are equal without it (c76_same_program)."
  },
  {
   "property": "C77",
   "status": "partial",
   "theorems": [
    "Snips.c77_deterministic",
    "Snips.c77_probabilistic",
    "Snips.c77_lookup_partial",
    "Snips.c77_engine_partial",
    "Snips.c77_lookup_counterexample",
    "Snips.c77_engine_counterexample"
   ],
   "note": "Holds for deterministic parsers (any rounding) and for probabilistic ones; for lookup parsers with exact arithmetic, no intent-specific stop words and no group entirely forbidden; for engines if the parsers before the one that answers still find nothing. The code violates the full claim: c77_lookup_counterexample (stop words of another intent of the group), c77_engine_counterexample (a parser that no longer hesitates)."
  },
  {
   "property": "C78",
   "status": "partial",
   "theorems": [
    "Snips.c78_deterministic",
    "Snips.c78_probabilistic",
    "Snips.c78_lookup_partial",
    "Snips.c78_engine_partial",
    "Snips.c78_lookup_counterexample",
    "Snips.c78_engine_counterexample",
    "Snips.c78_empty_counterexample"
   ],
   "note": "Holds for deterministic parsers (any rounding and filter) and for probabilistic ones; for lookup parsers with exact arithmetic, no intent-specific stop words and the intent in every group; for engines if the parsers before the one that answers have no slot to offer for the intent. The code violates the full claim: c78_lookup_counterexample, c78_engine_counterexample; c78_empty_counterexample: answers without slots."
  },
  {
   "property": "C79",
   "status": "proved",
   "theorems": [
    "Snips.c79_reads",
    "Snips.c79_unambiguous",
    "Snips.c79_writes",
    "Snips.c79_file",
    "Snips.c79_no_text"
   ],
   "note": "serde_json is external: its parser and writer are transcribed. What f64 makes of a decimal number, and the text of a number, are parameters."
  },
  {
   "property": "C80",
   "status": "proved",
   "theorems": [
    "Snips.c80_no_null",
    "Snips.c80_shows",
    "Snips.c80_unique",
    "Snips.c80_distinct",
    "Snips.c80_parse",
    "Snips.c80_getSlots",
    "Snips.c80_getIntents"
   ],
   "note": "The Serialize implementations are external (snips_nlu_ontology): transcribed, with the dictionaries of the Python tests as evidence. That the text of a number is read back is a hypothesis (WritesResult); for an f32, up to rounding to 32 bits. json.loads is taken to agree with the grammar of RFC 8259."
  },
  {
   "property": "C81",
   "status": "proved",
   "theorems": [
    "Snips.c81_sound",
    "Snips.c81_fewest",
    "Snips.c81_fewest_own",
    "Snips.c81_only",
    "Snips.c81_nothing",
    "Snips.c81_tie",
    "Snips.c81_typed_placeholder_counterexample"
   ],
   "note": "c81_fewest, c81_only and c81_tie suppose that no entity is found twice at the same place. The hash of a text is a parameter, so an entry for a text is an entry for its hash. The table does not guarantee that the entities of a reading are as many as the slots of its entry: c81_typed_placeholder_counterexample."
  },
  {
   "property": "C82",
   "status": "proved",
   "theorems": [
    "Snips.c82_answers",
    "Snips.c82_file",
    "Snips.c82_can_make"
   ],
   "note": "Supposes that the numbers of an answer can be written in JSON, and, for the engine that answers, that extraction neither depends on the time (other than in resolved values) nor panics. c82_file is about engines whose JSON reader is the one of C79."
  },
  {
   "property": "C83",
   "status": "proved",
   "theorems": [
    "Snips.c83_parse",
    "Snips.c83_only",
    "Snips.c83_nothing",
    "Snips.c83_get_slots",
    "Snips.c83_alternatives"
   ],
   "note": "Supposes: tables whose entries name existing intents and slots, non-empty entities inside the sentence (lookup parser), the tables computed by the constructor (deterministic parser, holds after loading by C49), an intent list with the absent intent, sensible tokenizers, and taggers that answer one tag of their alphabet per token (probabilistic parser). c83_only for a lookup parser supposes that no entity is found twice at the same place."
  },
  {
   "property": "C84",
   "status": "proved",
   "theorems": [
    "Snips.c84_rounding",
    "Snips.c84_exact",
    "Snips.c84_unique",
    "Snips.c84_lookup_top",
    "Snips.c84_deterministic_top",
    "Snips.c84_lookup",
    "Snips.c84_deterministic",
    "Snips.c84_order_counterexample",
    "Snips.c84_engine_order_counterexample"
   ],
   "note": "round32 is a concrete function; c84_rounding and c84_unique say it is IEEE 754 rounding to nearest, ties to even. The weights are added in the order of the results (Iterator::sum). c84_order_counterexample and c84_engine_order_counterexample: five matches with 0, 1, 5, 5 and 5 slots, whose weights sum to 2 in one order and to the number below 2 in another."
  },
  {
   "property": "C85",
   "status": "proved",
   "theorems": [
    "Snips.c85_deterministic",
    "Snips.c85_deterministic_order",
    "Snips.c85_lookup",
    "Snips.c85_lookup_order"
   ],
   "note": "The deterministic parser's independence of hash order supposes in-range matches whose placeholders end before position 2^15 (as C37)."
  },
  {
   "property": "C86",
   "status": "proved",
   "theorems": [
    "Snips.c86_operation",
    "Snips.c86_custom",
    "Snips.c86_features_release",
    "Snips.c86_features_debug",
    "Snips.c86_entities",
    "Snips.c86_match",
    "Snips.c86_deterministic",
    "Snips.c86_features_counterexample",
    "Snips.c86_shape_counterexample",
    "Snips.c86_range_counterexample"
   ],
   "note": "Machine versions of each function equal the unbounded ones. c86_features_counterexample: offset -2^31 in a model file makes a build with overflow checks panic; c86_range_counterexample: beyond 2^32 characters the range of a capture is wrong."
  },
  {
   "property": "C87",
   "status": "proved",
   "theorems": [
    "Snips.c87_pattern_text",
    "Snips.c87_engines",
    "Snips.c87_loaded",
    "Snips.c87_unique",
    "Snips.c87_boundaries",
    "Snips.c87_recognised",
    "Snips.c87_understood"
   ],
   "note": "The engine's behaviour on trained patterns is the assumption LoadEnv.Compiles, which c87_engines shows to be satisfiable (backtracking matcher in Model/TrainedPattern). Words may be run together (\\s* matches nothing)."
  },
  {
   "property": "C88",
   "status": "proved",
   "theorems": [
    "Snips.c88_isolated",
    "Snips.c88_panics_stay",
    "Snips.c88_no_interference",
    "Snips.c88_engine",
    "Snips.c88_frozen",
    "Snips.c88_answers",
    "Snips.c88_every_answer",
    "Snips.c88_exclusive",
    "Snips.c88_no_deadlock",
    "Snips.c88_terminates",
    "Snips.c88_one_time_counterexample",
    "Snips.c88_poisoning_counterexample"
   ],
   "note": "Assumes that the builtin parser's ranges and kinds do not depend on time and that extractors do not panic (as C21, C22). The exception of poisoned taggers is part of the claim; c88_poisoning_counterexample shows it happens, c88_one_time_counterexample that one call may mix two times."
  },
  {
   "property": "C89",
   "status": "partial",
   "theorems": [
    "Snips.c89_same",
    "Snips.c89_missing_partial",
    "Snips.c89_resources_unnamed",
    "Snips.c89_version",
    "Snips.c89_no_engine",
    "Snips.c89_undecodable"
   ],
   "note": "Violated by the code: opening the metadata of the resources has no context, so that nothing names the file (c89_resources_unnamed). Errors of the directories loaded by gazetteer-entity-parser and the builtin parser are those of the dependency. Proved for every other file (c89_missing_partial)."
  },
  {
   "property": "C90",
   "status": "proved",
   "theorems": [
    "Snips.c90_injected",
    "Snips.c90_before"
   ],
   "note": "Assumes (structure Composed) that the dependencies load one parser per directory listed in the metadata and read back what they dumped."
  },
  {
   "property": "C91",
   "status": "proved",
   "theorems": [
    "Snips.c91_chain",
    "Snips.c91_parts",
    "Snips.c91_commute"
   ],
   "note": "Assumes Composed as C90. Splitting and reordering are for uninterrupted injections; c91_chain holds for interruptions that did not prevent success."
  },
  {
   "property": "C92",
   "status": "proved",
   "theorems": [
    "Snips.c92_features",
    "Snips.c92_linear",
    "Snips.c92_scores",
    "Snips.c92_decides",
    "Snips.c92_saturates",
    "Snips.c92_saturates_counterexample"
   ],
   "note": "Exponents are unlimited: neither underflow nor overflow (MachineOps). Fewer than 2^24 words, so that counts are exact. A disagreement is proved beside it: linear scores of 17 or more all give the score 1, so that the intent listed first wins over a higher one."
  },
  {
   "property": "C93",
   "status": "proved",
   "theorems": [
    "Snips.c93_same",
    "Snips.c93_told",
    "Snips.c93_not_injectable",
    "Snips.c93_damage",
    "Snips.c93_resources"
   ],
   "note": "The texts of errors of dependencies and of the operating system, and the quoting of paths, are parameters (MessageEnv). The statement about former and new states assumes, as C45, that no parser directory of the request lies inside another."
  },
  {
   "property": "C94",
   "status": "proved",
   "theorems": [
    "Snips.c94_features",
    "Snips.c94_scores",
    "Snips.c94_decides",
    "Snips.c94_overflow_counterexample",
    "Snips.c94_underflow_counterexample"
   ],
   "note": "The operations are those of Fl (C70) with round32; the zero has no sign. The accuracy of exp and the correct rounding of sqrt are assumptions (Machine32), as is that the scalar product adds all products in some order. c94_overflow_counterexample and c94_underflow_counterexample show that bounds on the magnitudes are needed."
  },
  {
   "property": "C95",
   "status": "proved",
   "theorems": [
    "Snips.c95_pretty",
    "Snips.c95_starts",
    "Snips.c95_answers",
    "Snips.c95_fails",
    "Snips.c95_not_utf8",
    "Snips.c95_never_ends",
    "Snips.c95_never_ends_counterexample"
   ],
   "note": "The reading of the command line by clap, the logger and failures of the standard streams are not modelled. to_string_pretty, str::trim, usize::from_str and read_line are transcribed. The endless loop is stated as it is (c95_never_ends, c95_never_ends_counterexample)."
  },
  {
   "property": "C96",
   "status": "proved",
   "theorems": [
    "Snips.c96_intents",
    "Snips.c96_slots",
    "Snips.c96_get_slots",
    "Snips.c96_extract_slot"
   ],
   "note": "The two calls are compared under the same iteration orders of the hash containers. That the entity libraries only add alternatives is an assumption about them (Ext.MoreAdds)."
  },
  {
   "property": "C97",
   "status": "proved",
   "theorems": [
    "Snips.c97_answered",
    "Snips.c97_unknown",
    "Snips.c97_refused",
    "Snips.c97_same",
    "Snips.c97_messages",
    "Snips.c97_alternatives_counterexample"
   ],
   "note": "That the entity libraries answer, and report only custom entities they were asked for, are assumptions (World.NoError, World.Scoped). c97_alternatives_counterexample: a parser that does not know an intent ranked by another one makes parse_with_alternatives fail where parse succeeds."
  },
  {
   "property": "C98",
   "status": "proved",
   "theorems": [
    "Snips.c98_answers",
    "Snips.c98_history",
    "Snips.c98_loading",
    "Snips.c98_loaded",
    "Snips.c98_lookup_panics",
    "Snips.c98_deterministic_panics"
   ],
   "note": "The checks of a debug build that are modelled are the debug_assert of the lookup parser and the i16 arithmetic of replace_entities; overflow of usize in the size of shape n-grams (C32) is not."
  },
  {
   "property": "C99",
   "status": "proved",
   "theorems": [
    "Snips.c99_loaded",
    "Snips.c99_call",
    "Snips.c99_history",
    "Snips.c99_threads",
    "Snips.c99_shared"
   ],
   "note": "ValidFiles speaks of the decoded files only; LoadEnv.Sensible collects what is assumed of the libraries. The threads of c99_threads are those of C22 (caches shared, taggers without state), those of c99_shared are those of C88 (mutexes and state of the taggers, advancing clock)."
  },
  {
   "property": "C100",
   "status": "proved",
   "theorems": [
    "Snips.c100_parsers",
    "Snips.c100_call",
    "Snips.c100_instants",
    "Snips.c100_history",
    "Snips.c100_threads",
    "Snips.c100_shared"
   ],
   "note": "c100_parsers for the parsers, c100_instants for one call at two times, c100_call for a call during which the clock advances, c100_history with caches, c100_threads with caches, taggers, threads and clock; c100_shared shows that the hypothesis of c100_threads holds of every engine for some libraries."
  },
  {
   "property": "C101",
   "status": "proved",
   "theorems": [
    "Snips.c101_once",
    "Snips.c101_needed",
    "Snips.c101_again",
    "Snips.c101_again_few"
   ],
   "note": "c101_once: stretches within the capacity after any calls; c101_needed: the converse from loading on; c101_again, c101_again_few: repeated engine calls. That a request is extracted is defined by what it does with an extractor that panics. Failed extractions are not cached and are made again. Extractors do not panic (else the mutex is poisoned, C24); the capacity is positive (1000 in the code)."
  },
  {
   "property": "C102",
   "status": "proved",
   "theorems": [
    "Snips.c102_builtin",
    "Snips.c102_custom",
    "Snips.c102_resolve",
    "Snips.c102_kept"
   ],
   "note": "c102_builtin: all engine calls about a query, any answers; c102_custom: the calls of the intent parsers; c102_resolve: resolution; c102_kept: each builtin request extracted once when the capacity is at least the number of scopes, vectorizers and features (1000 in the code)."
  },
  {
   "property": "C103",
   "status": "partial",
   "theorems": [
    "Snips.c103_bound_partial",
    "Snips.c103_at_least",
    "Snips.c103_polynomial_false"
   ],
   "note": "The code violates it: c103_polynomial_false gives, for every c and d, a query of some length n with more than c*n^d candidates (every character an entity), and c103_at_least shows at least 2^k candidates whenever k distinct entities are found for a scope with a permitted intent. What holds is c103_bound_partial: at most the sum over the scopes of the number of permitted intents times 2^k."
  },
  {
   "property": "C104",
   "status": "partial",
   "theorems": [
    "Snips.c104_lookup_partial",
    "Snips.c104_lookup_false",
    "Snips.c104_gazetteer_partial",
    "Snips.c104_gazetteer_false",
    "Snips.c104_stemmer_false"
   ],
   "note": "The code violates it: texts are told apart by 32-bit keys only. For every function with 32-bit values there are a table made from one sentence and another sentence for which the intent of the first is returned with score 1 (c104_lookup_false), a gazetteer of one word that contains another (c104_gazetteer_false) and a stemmer that changes a word it does not list (c104_stemmer_false). c104_lookup_partial and c104_gazetteer_partial prove the claim where the keys of the texts at hand differ; for the stemmer this is c51_stemmer."
  },
  {
   "property": "C105",
   "status": "proved",
   "theorems": [
    "Snips.c105_call",
    "Snips.c105_history",
    "Snips.c105_parse",
    "Snips.c105_slots",
    "Snips.c105_unknown",
    "Snips.c105_distinct_needed"
   ],
   "note": "c105_call and c105_history take the hash maps of the two engines to be iterated in orders that do not look at the keys (HashOrd.Blind); c105_parse and c105_slots are for any two orders, for parsers whose answers do not depend on them (C63). In c105_call an error may also be left unchanged, since the functions of the model that stand for dependencies may fail with any error; c105_unknown gives the errors of the engine about unknown intents exactly. c105_distinct_needed: the names must differ."
  },
  {
   "property": "C106",
   "status": "proved",
   "theorems": [
    "Snips.c106_once",
    "Snips.c106_schedules",
    "Snips.c106_asked",
    "Snips.c106_count",
    "Snips.c106_clock",
    "Snips.c106_clock_schedules"
   ],
   "note": "c106_once, c106_asked and c106_count are for the threads of Model/Concurrent (each call sees one time); c106_clock is for the threads of Model/EngineShared (taggers behind mutexes, a clock that advances during calls), where the number of requests is that of the execution itself. The mutex is held during the extraction, which the model shows as one step; c24_mutual_exclusion is about that step."
  },
  {
   "property": "C107",
   "status": "partial",
   "theorems": [
    "Snips.c107_swift_partial",
    "Snips.c107_kotlin_partial",
    "Snips.c107_swift_can_make",
    "Snips.c107_kotlin_can_make"
   ],
   "note": "Swift (c107_swift_partial): for answers without null characters that Swift can show (C74; not places, ends of intervals, ordinals beyond 32 bits) and messages without null byte (C73); the history may contain any calls that do not end the process. Kotlin (c107_kotlin_partial): no empty list as filter, no collection during a call, conversions that do not throw (C72: each needed). Both suppose of the engine that answers that extraction neither depends on the time (other than in resolved values) nor panics. Making of engines proved."
  },
  {
   "property": "C108",
   "status": "partial",
   "theorems": [
    "Snips.c108_world",
    "Snips.c108_call_partial",
    "Snips.c108_history_partial",
    "Snips.c108_parse_partial",
    "Snips.c108_rules",
    "Snips.c108_pairs_counterexample",
    "Snips.c108_shape_counterexample"
   ],
   "note": "Full statement false: word pairs are compared as they are written, so with co-occurrence features the intent may depend on case (c108_pairs_counterexample), and shape features are about case (c108_shape_counterexample). Proved for engines of rule-based parsers without restriction (c108_rules) and for all engines without these two kinds of features (c108_call_partial, c108_history_partial, c108_parse_partial). Lower-casing, normalisation, tokenisers and regular expressions (compiled with case_insensitive) are external: that they ignore the relation of letters is a hypothesis, met by the functions of the examples for ASCII letters (asciiCase_rel, ruleFns_cased). c108_call_partial and c108_history_partial take the hash maps of the two calls to be iterated in orders that do not look at the values; c108_parse_partial is for any two orders."
  },
  {
   "property": "C109",
   "status": "proved",
   "theorems": [
    "Snips.c109_call",
    "Snips.c109_history",
    "Snips.c109_parse",
    "Snips.c109_unknown",
    "Snips.c109_exists",
    "Snips.c109_distinct_needed"
   ],
   "note": "c109_call and c109_history are for every call and sequence of calls, with hash maps iterated in orders that do not look at the values; c109_parse is for any two orders, for the parsers of C63; c109_unknown gives the error on an unknown slot exactly. The taggers of the renamed engine answer with the renamed tags (their training is not modelled); c109_exists: for every slot filler with well-formed tags there is such a renamed one. c109_distinct_needed: the names must differ."
  },
  {
   "property": "C110",
   "status": "partial",
   "theorems": [
    "Snips.c110_get_slots_partial",
    "Snips.c110_parse_partial",
    "Snips.c110_extract",
    "Snips.c110_typed_counterexample",
    "Snips.c110_placeholder_counterexample"
   ],
   "note": "Full statement false for the lookup parser: it takes the names of slots from the table and the entities from the query, in order. A placeholder typed by the user shifts them (release builds, c110_typed_counterexample), and entities whose names differ in spaces only have the same placeholder (c110_placeholder_counterexample). Proved if the placeholders of the table are legible in the query: a reading of the query with the key of a training sentence has the entities of this sentence (Lookup.Legible, part of AgreesWith; met in the example). For engines without lookup parser the theorems have no such assumption. c110_extract is for every engine."
  },
  {
   "property": "C111",
   "status": "proved",
   "theorems": [
    "Snips.c111_parse",
    "Snips.c111_get_slots",
    "Snips.c111_get_intents",
    "Snips.c111_engine_parse",
    "Snips.c111_engine_get_slots",
    "Snips.c111_lookup_counterexample"
   ],
   "note": "Exact arithmetic (env.rd = exact), as for C37/C63: with rounding the order of summation matters. The claim is about the deterministic parser; c111_lookup_counterexample shows that the same is false of the lookup parser. Engine: whitelists only, since a blacklist means other intents in a larger dataset."
  },
  {
   "property": "C112",
   "status": "proved",
   "theorems": [
    "Snips.c112_parse",
    "Snips.c112_get_slots",
    "Snips.c112_get_intents",
    "Snips.c112_whitelisted"
   ],
   "note": "Exact arithmetic (env.rd = exact), as for C37/C63. That tokens do not reach over blanks (SplitsAtBlanks) and that the entity parsers find the same matches (SameMatches) are hypotheses about code outside the repository; both are shown for the example. c112_whitelisted: a word that an intent keeps in its own list is not skipped for it, so the hypothesis on the intents is needed. The deterministic parser blanks stop words instead of removing them; it is the subject of C19."
  },
  {
   "property": "C113",
   "status": "proved",
   "theorems": [
    "Snips.c113_score",
    "Snips.c113_order",
    "Snips.c113_order_best",
    "Snips.c113_fewer",
    "Snips.c113_parse",
    "Snips.c113_more",
    "Snips.c113_two_intents",
    "Snips.c113_ties"
   ],
   "note": "Rounding is arbitrary in all but c113_two_intents (exact arithmetic over the reals). The hash order of the featurizer's maps is the same on both sides (what that order can change is the subject of C63). c113_ties shows that with equal scores the order in the model file decides, so the proviso on ties is needed."
  },
  {
   "property": "C114",
   "status": "proved",
   "theorems": [
    "Snips.c114_formula",
    "Snips.c114_same",
    "Snips.c114_renumbered"
   ],
   "note": "Exact arithmetic over the reals, as for C67 (in floating point the order of summation, hence the numbering, shows in the last digits; C92/C94 bound that). The replacement of entity matches by their names is taken from C17."
  },
  {
   "property": "C115",
   "status": "proved",
   "theorems": [
    "Snips.c115_idle",
    "Snips.c115_alone",
    "Snips.c115_order",
    "Snips.c115_slots",
    "Snips.c115_ranking",
    "Snips.c115_says",
    "Snips.c115_none_score"
   ],
   "note": "parse without intent alternatives. c115_says: the answers of the three kinds of parsers are of the kind the hypotheses ask for, by C63. c115_none_score: when no parser recognises an intent the confidence is that of the last parser, so the proviso that one recognises something is needed."
  },
  {
   "property": "C116",
   "status": "proved",
   "theorems": [
    "Snips.c116_parse",
    "Snips.c116_get_slots",
    "Snips.c116_get_intents",
    "Snips.c116_whitelisted",
    "Snips.c116_untrained"
   ],
   "note": "Both queries are parsed by the same parser, whose own hash maps have one iteration order. c116_whitelisted: a word kept for an intent changes what is read. c116_untrained: a pattern with a blank instead of \\s* no longer matches, so the form of the patterns is needed; C87 describes it."
  },
  {
   "property": "C117",
   "status": "proved",
   "theorems": [
    "Snips.c117_parse",
    "Snips.c117_get_slots",
    "Snips.c117_lookup",
    "Snips.c117_deterministic",
    "Snips.c117_rules",
    "Snips.c117_undecided"
   ],
   "note": "parse without intent alternatives. c117_rules is the claim for the usual list of parsers; c117_lookup and c117_deterministic (C112, C116) give the hypothesis of c117_parse for the two kinds of parsers. c117_undecided: when they recognise nothing a later parser may answer the longer query in another way."
  },
  {
   "property": "C118",
   "status": "proved",
   "theorems": [
    "Snips.c118_lookup",
    "Snips.c118_deterministic",
    "Snips.c118_engine"
   ],
   "note": "Follows from C112, C116 and C117: a text of blanks has no tokens, so all of them are stop words."
  },
  {
   "property": "C119",
   "status": "proved",
   "theorems": [
    "Snips.c119_get_slots",
    "Snips.c119_features"
   ],
   "note": "Assumes that byte ranges of tokens agree with their character ranges (BytesAgree) and that tokens do not reach over blanks; `Plain` says that the text is made of tokens and blanks and ends with a token, so that the text rebuilt from the tokens is the query."
  },
  {
   "property": "C120",
   "status": "proved",
   "theorems": [
    "Snips.c120_classifier",
    "Snips.c120_get_intents",
    "Snips.c120_get_slots",
    "Snips.c120_parse",
    "Snips.c120_empty_counterexample"
   ],
   "note": "For builds with and without overflow checks: RoomFor asks something of the query only when the checks of replace_entities are on. c120_empty_counterexample shows that the query must not be empty."
  },
  {
   "property": "C121",
   "status": "proved",
   "theorems": [
    "Snips.c121_parse",
    "Snips.c121_get_slots"
   ],
   "note": "Follows from C117, C118 and C120."
  },
  {
   "property": "C122",
   "status": "proved",
   "theorems": [
    "Snips.c122_get_intents",
    "Snips.c122_parse",
    "Snips.c122_lookup",
    "Snips.c122_rules",
    "Snips.c122_blanks"
   ],
   "note": "The order of hash maps does not look at the elements (HashOrd.Blind), as in C105: equally scored intents come in an order that depends on it."
  },
  {
   "property": "C123",
   "status": "proved",
   "theorems": [
    "Snips.c123_lookup",
    "Snips.c123_deterministic",
    "Snips.c123_probabilistic",
    "Snips.c123_engine",
    "Snips.c123_resource",
    "Snips.c123_whitelist"
   ],
   "note": "Equality of the whole outcome for every build, without conditions on the extractors. c123_resource, c123_whitelist: lists and whitelists that agree on the words of the query meet the condition."
  },
  {
   "property": "C124",
   "status": "proved",
   "theorems": [
    "Snips.c124_features",
    "Snips.c124_slots",
    "Snips.c124_tfidf",
    "Snips.c124_probabilistic",
    "Snips.c124_engine",
    "Snips.c124_gazetteer",
    "Snips.c124_stemmer",
    "Snips.c124_clusters",
    "Snips.c124_clusters_counterexample"
   ],
   "note": "Equality of the programs of the parser, hence of the outcome whatever the entity parsers answer. The custom entity parser, which is built with the same stemmer, is an external component: its answers are taken to be the same. c124_gazetteer, c124_stemmer, c124_clusters: records put into the files meet the condition. c124_clusters_counterexample: when cluster names are not plain (C50) a record about another word can change the cluster of a word."
  }
 ]
}