import Verif.Props.C01_Engine
import Verif.Props.C02_Filter
import Verif.Props.C03_Cascade
import Verif.Props.C04_Alternatives
import Verif.Props.C05_Alternatives
import Verif.Props.C06_AltRanking
import Verif.Props.C06_Single
import Verif.Props.C08_Ranking
import Verif.Props.C09_GetSlots
import Verif.Props.C100_Clock
import Verif.Props.C101_Extracting
import Verif.Props.C102_Requests
import Verif.Props.C103_Candidates
import Verif.Props.C104_Keys
import Verif.Props.C105_Renaming
import Verif.Props.C106_ThreadRequests
import Verif.Props.C107_Sessions
import Verif.Props.C108_LetterCase
import Verif.Props.C109_SlotRenaming
import Verif.Props.C10_Resolution
import Verif.Props.C110_Declared
import Verif.Props.C111_Extension
import Verif.Props.C112_StopWords
import Verif.Props.C113_Rows
import Verif.Props.C114_FeatureNames
import Verif.Props.C115_ParserList
import Verif.Props.C116_PatternStopWords
import Verif.Props.C117_EngineStopWords
import Verif.Props.C118_Blanks
import Verif.Props.C119_SlotFillerBlanks
import Verif.Props.C120_ReadBlanks
import Verif.Props.C121_EngineBlanks
import Verif.Props.C122_RankedMoved
import Verif.Props.C123_OtherStopWords
import Verif.Props.C124_OtherResources
import Verif.Props.C12_Unknown
import Verif.Props.C14_RuleSlots
import Verif.Props.C16_Dedup
import Verif.Props.C17_Replace
import Verif.Props.C18_Ranges
import Verif.Props.C19_Blanking
import Verif.Props.C20_Shifts
import Verif.Props.C21_Cache
import Verif.Props.C22_Concurrent
import Verif.Props.C23_Lru
import Verif.Props.C25_Fresh
import Verif.Props.C26_Tags
import Verif.Props.C29_Features
import Verif.Props.C34_Combinations
import Verif.Props.C35_Decision
import Verif.Props.C36_Rankings
import Verif.Props.C39_LogReg
import Verif.Props.C40_Classifier
import Verif.Props.C41_Tfidf
import Verif.Props.C42_Cooc
import Verif.Props.C43_Injection
import Verif.Props.C47_Archive
import Verif.Props.C47_Tree
import Verif.Props.C48_Exact
import Verif.Props.C49_Loading
import Verif.Props.C50_Clusters
import Verif.Props.C53_Ffi
import Verif.Props.C56_FromZip
import Verif.Props.C57_Relocation
import Verif.Props.C58_NoPanic
import Verif.Props.C59_Factories
import Verif.Props.C60_Layout
import Verif.Props.C61_Loadable
import Verif.Props.C62_Patterns
import Verif.Props.C63_Reproducible
import Verif.Props.C64_Lower
import Verif.Props.C65_Readers
import Verif.Props.C66_Json
import Verif.Props.C67_Score
import Verif.Props.C68_SlotOrigin
import Verif.Props.C69_Tags
import Verif.Props.C70_Nan
import Verif.Props.C71_Python
import Verif.Props.C72_Kotlin
import Verif.Props.C73_Swift
import Verif.Props.C74_SwiftValues
import Verif.Props.C75_Tagger
import Verif.Props.C76_Filters
import Verif.Props.C77_Narrowing
import Verif.Props.C78_SlotsAgree
import Verif.Props.C79_JsonText
import Verif.Props.C80_ResultJson
import Verif.Props.C81_LookupTable
import Verif.Props.C82_Python
import Verif.Props.C83_Reading
import Verif.Props.C84_Binary32
import Verif.Props.C85_Shares
import Verif.Props.C86_Machine
import Verif.Props.C87_Trained
import Verif.Props.C88_EngineThreads
import Verif.Props.C89_Messages
import Verif.Props.C90_InjectedEngine
import Verif.Props.C91_Injections
import Verif.Props.C92_SinglePrecision
import Verif.Props.C93_InjectMessages
import Verif.Props.C94_Machine32
import Verif.Props.C95_Cli
import Verif.Props.C96_MoreAlternatives
import Verif.Props.C97_Answering
import Verif.Props.C98_Builds
import Verif.Props.C99_ValidModel

/-! Axioms of every property theorem (generated by tools/gen.py). -/

namespace Snips

#print axioms c01_engine_partial
#print axioms c01_engine_counterexample
#print axioms c01_lookup
#print axioms c01_deterministic
#print axioms c01_probabilistic_partial
#print axioms c01_classifier_exact
#print axioms c01_single_intent_counterexample
#print axioms c01_empty_input_counterexample
#print axioms c01_loaded_partial
#print axioms c02_unknown_rejected
#print axioms c02_effective_filter
#print axioms c03_first_parser_wins
#print axioms c03_result_origin
#print axioms c04_no_intent
#print axioms c04_with_alternatives
#print axioms c05_main_unchanged
#print axioms c05_intent_independent_of_slot_alternatives
#print axioms c05_zero
#print axioms c06_counterexample
#print axioms c06_not_repeated_partial
#print axioms c06_exact_partial
#print axioms c06_strict_partial
#print axioms c06_deterministic
#print axioms c06_lookup
#print axioms c06_tie_counterexample
#print axioms c07_alternatives
#print axioms c07_alternative_slots
#print axioms c08_sorted_nodup
#print axioms c08_maximum
#print axioms c09_first_nonempty
#print axioms c09_all_empty
#print axioms c09_origin
#print axioms c09_get_slots
#print axioms c09_lookup_unknown
#print axioms c09_deterministic_unknown
#print axioms c09_lookup_own
#print axioms c09_deterministic_own
#print axioms c09_probabilistic
#print axioms c10_slot_identity
#print axioms c10_slot_identity_get_slots
#print axioms c11_custom_resolution
#print axioms c12_builtin_resolution
#print axioms c12_unknown_entity
#print axioms c12_unknown_entity_error
#print axioms c13_unknown
#print axioms c13_custom
#print axioms c13_builtin
#print axioms c13_extract_slot
#print axioms c14_engine
#print axioms c14_lookup
#print axioms c14_deterministic
#print axioms c14_lookup_get_slots
#print axioms c14_deterministic_get_slots
#print axioms c14_loaded
#print axioms c15_engine_partial
#print axioms c15_rule_based
#print axioms c15_lookup
#print axioms c15_deterministic
#print axioms c15_loaded_partial
#print axioms c16_sound
#print axioms c16_in_text_order
#print axioms c16_priority
#print axioms c16_disjoint_input_kept
#print axioms c16_idempotent
#print axioms c16_any_ranges
#print axioms c16_items
#print axioms c16_nodup
#print axioms c17_text
#print axioms c17_table
#print axioms c17_mapping_partial
#print axioms c17_mapping_exact
#print axioms c17_debug
#print axioms c17_no_overflow
#print axioms c17_mapping_counterexample
#print axioms c17_overflow_counterexample
#print axioms c17_debug_counterexample
#print axioms c18_recovery_partial
#print axioms c18_order_partial
#print axioms c18_beyond
#print axioms c18_counterexample
#print axioms c18_order_counterexample
#print axioms c19_positions
#print axioms c20_join_position
#print axioms c20_remap
#print axioms c20_token_text
#print axioms c21_history
#print axioms c21_history_independent
#print axioms c21_custom_extraction
#print axioms c21_builtin_extraction
#print axioms c21_builtin_extraction_exact
#print axioms c22_schedule_independent
#print axioms c22_linearizable
#print axioms c23_recency
#print axioms c23_bounded
#print axioms c23_failure_not_cached
#print axioms c23_success_cached
#print axioms c24_no_deadlock
#print axioms c24_terminates
#print axioms c24_mutual_exclusion
#print axioms c24_errors_are_harmless
#print axioms c24_no_inherited_panic
#print axioms c24_poisoning_counterexample
#print axioms c25_parse_fresh
#print axioms c25_get_slots_fresh
#print axioms c25_extract_slot_fresh
#print axioms c26_bio
#print axioms c26_bilou
#print axioms c26_io
#print axioms c26_encoder
#print axioms c26_io_adjacent_counterexample
#print axioms c27_of_tagOk
#print axioms c27_io_bilou
#print axioms c27_bio
#print axioms c27_bio_malformed_counterexample
#print axioms c27_length_counterexample
#print axioms c28_slot
#print axioms c28_value
#print axioms c29_window
#print axioms c29_total
#print axioms c29_key_injective
#print axioms c30_prefix
#print axioms c30_absent
#print axioms c30_builtin_feature
#print axioms c30_custom_feature
#print axioms c31_rebuild
#print axioms c31_transform
#print axioms c31_empty_counterexample
#print axioms c32_prefix
#print axioms c32_suffix
#print axioms c32_ngram
#print axioms c32_ngram_overflow_counterexample
#print axioms c32_ngram_word
#print axioms c32_shape
#print axioms c32_first_last
#print axioms c33_query
#print axioms c33_untrained
#print axioms c33_no_label
#print axioms c34_all_once
#print axioms c34_mem
#print axioms c34_nodup
#print axioms c34_count
#print axioms c34_order
#print axioms c34_candidates
#print axioms c34_replaced
#print axioms c34_found_ordered
#print axioms c35_deterministic
#print axioms c35_deterministic_rounded
#print axioms c35_lookup
#print axioms c35_lookup_rounded
#print axioms c36_lookup
#print axioms c36_deterministic
#print axioms c37_lookup
#print axioms c37_lookup_rounded
#print axioms c37_deterministic_partial
#print axioms c37_deterministic_rounded_partial
#print axioms c38_lookup
#print axioms c38_deterministic
#print axioms c39_scores
#print axioms c39_strictly_between
#print axioms c39_increasing
#print axioms c39_binary_sum
#print axioms c39_rounded
#print axioms c39_rounded_monotone
#print axioms c39_feature_mismatch
#print axioms c39_missing_coefficients
#print axioms c39_loads_iff
#print axioms c39_superfluous
#print axioms c39_superfluous_counterexample
#print axioms c40_sorted
#print axioms c40_scores
#print axioms c40_filter
#print axioms c40_first
#print axioms c40_certain
#print axioms c40_no_features
#print axioms c40_one_score_per_intent
#print axioms c41_vector
#print axioms c41_norm
#print axioms c41_order
#print axioms c41_total
#print axioms c41_empty_vocabulary_counterexample
#print axioms c42_entries
#print axioms c42_table
#print axioms c42_inconsistent_counterexample
#print axioms c42_window_counterexample
#print axioms c43_validated_before_writing
#print axioms c43_not_injectable
#print axioms c43_missing_stemmer
#print axioms c44_success
#print axioms c44_order_independent
#print axioms c45_at_most_one_partial
#print axioms c45_not_interrupted
#print axioms c45_counterexample
#print axioms c45_not_atomic_counterexample
#print axioms c46_values
#print axioms c46_nothing_lost
#print axioms c46_add_value
#print axioms c47_confined
#print axioms c47_only_entries
#print axioms c47_engine_dir
#print axioms c47_names_normal
#print axioms c47_ordinary_name
#print axioms c47_contents
#print axioms c47_succeeds
#print axioms c47_directories
#print axioms c47_exact
#print axioms c47_succeeds_iff
#print axioms c48_no_panic_partial
#print axioms c48_counterexample_dots
#print axioms c48_counterexample_conflict
#print axioms c48_counterexample_fault
#print axioms c48_panics_iff
#print axioms c49_version
#print axioms c49_wrong_version
#print axioms c49_no_version
#print axioms c49_units
#print axioms c49_unexpected_parser
#print axioms c49_unexpected_component
#print axioms c49_constructed
#print axioms c50_lookup_partial
#print axioms c50_storage
#print axioms c50_notation_counterexample
#print axioms c50_malformed
#print axioms c51_gazetteer
#print axioms c51_gazetteer_error
#print axioms c51_stemmer
#print axioms c51_stemmer_listed
#print axioms c52_ignored_iff
#print axioms c52_deterministic
#print axioms c52_lookup
#print axioms c53_success_writes
#print axioms c53_failure_writes_nothing
#print axioms c53_written_iff_success
#print axioms c53_new_address
#print axioms c53_native
#print axioms c53_success_is_native
#print axioms c53_refused
#print axioms c53_poisoned_refused
#print axioms c53_null_filters
#print axioms c53_defined
#print axioms c53_history_independent
#print axioms c53_other_engines
#print axioms c53_objects_kept
#print axioms c53_destroyed
#print axioms c53_double_destroy
#print axioms c53_create_from_dir
#print axioms c53_create_from_dir_succeeds
#print axioms c53_create_from_zip
#print axioms c53_serialised
#print axioms c53_sequential_order
#print axioms c53_threads_native
#print axioms c53_no_deadlock
#print axioms c53_terminates
#print axioms c54_parse
#print axioms c54_classifier_fails
#print axioms c54_answer
#print axioms c54_get_intents
#print axioms c55_consistent
#print axioms c55_slice
#print axioms c55_defined
#print axioms c56_outside_untouched
#print axioms c56_disk_restored
#print axioms c56_no_temp
#print axioms c56_same_as_directory
#print axioms c56_success_is_directory
#print axioms c57_relocatable
#print axioms c57_same_reads
#print axioms c57_confined
#print axioms c57_outside_irrelevant
#print axioms c57_escape_counterexample
#print axioms c57_not_relocatable_counterexample
#print axioms c58_extraction
#print axioms c58_release
#print axioms c58_parser
#print axioms c58_engine
#print axioms c58_history
#print axioms c58_empty_vocabulary_counterexample
#print axioms c58_empty_match_counterexample
#print axioms c58_lookup_ids_counterexample
#print axioms c58_debug_placeholder_counterexample
#print axioms c58_debug_overflow_counterexample
#print axioms c58_release_placeholder
#print axioms c58_group_counterexample
#print axioms c58_tags_counterexample
#print axioms c59_scheme
#print axioms c59_features
#print axioms c59_processor
#print axioms c59_no_panic
#print axioms c59_code_counterexample
#print axioms c60_engine
#print axioms c60_file_name
#print axioms c60_file_name_dotted
#print axioms c60_collision_counterexample
#print axioms c61_loads_iff
#print axioms c61_no_panic
#print axioms c61_panic_counterexample
#print axioms c62_sound
#print axioms c62_complete
#print axioms c62_parse
#print axioms c62_scope
#print axioms c63_parse
#print axioms c63_slots
#print axioms c63_ranking
#print axioms c63_alternatives
#print axioms c63_tie_counterexample
#print axioms c64_positions
#print axioms c64_displaced
#print axioms c64_builtin_partial
#print axioms c64_custom_partial
#print axioms c64_lookup_partial
#print axioms c64_counterexample
#print axioms c65_utf8
#print axioms c65_lines
#print axioms c65_lines_invalid
#print axioms c65_gazetteer
#print axioms c65_gazetteer_invalid
#print axioms c65_stop_words
#print axioms c65_stop_words_invalid
#print axioms c65_records
#print axioms c65_records_flexible
#print axioms c65_records_strict
#print axioms c65_records_invalid
#print axioms c65_stemmer
#print axioms c65_stemmer_invalid
#print axioms c65_clusters
#print axioms c65_clusters_panic_iff
#print axioms c65_clusters_panic
#print axioms c65_clusters_error
#print axioms c65_clusters_invalid
#print axioms c66_unit
#print axioms c66_version
#print axioms c66_engine
#print axioms c66_resources
#print axioms c66_custom_parser
#print axioms c66_lookup
#print axioms c66_deterministic
#print axioms c66_probabilistic
#print axioms c66_classifier
#print axioms c66_featurizer
#print axioms c66_tfidf
#print axioms c66_cooc
#print axioms c66_slot_filler
#print axioms c66_safe
#print axioms c66_order
#print axioms c66_unknown
#print axioms c66_file
#print axioms c67_blocks
#print axioms c67_failure
#print axioms c67_linear
#print axioms c67_linear_terms
#print axioms c67_ranking
#print axioms c68_slots
#print axioms c68_get_slots
#print axioms c69_encoding
#print axioms c69_ascii
#print axioms c69_round_trip
#print axioms c69_decode
#print axioms c69_slots
#print axioms c69_any_answer
#print axioms c69_query
#print axioms c70_logit
#print axioms c70_nan_scores
#print axioms c70_ranking
#print axioms c70_blank
#print axioms c70_single
#print axioms c70_no_nan
#print axioms c70_infinite_coefficient
#print axioms c70_json
#print axioms c70_features
#print axioms c70_refines
#print axioms c71_answer
#print axioms c71_parse
#print axioms c71_getSlots
#print axioms c71_getIntents
#print axioms c71_truncated
#print axioms c71_negative
#print axioms c71_message
#print axioms c71_init
#print axioms c71_source
#print axioms c71_no_source
#print axioms c71_invariant
#print axioms c71_session
#print axioms c72_answer_partial
#print axioms c72_json_partial
#print axioms c72_message
#print axioms c72_create
#print axioms c72_modelVersion
#print axioms c72_close
#print axioms c72_after_close
#print axioms c72_empty_filter
#print axioms c72_collected
#print axioms c72_leak
#print axioms c73_answer_partial
#print axioms c73_leak
#print axioms c73_trap
#print axioms c73_null_message
#print axioms c73_init_null_message
#print axioms c73_init_partial
#print axioms c73_init_bytes
#print axioms c73_deinit
#print axioms c74_value
#print axioms c74_interval
#print axioms c74_interval_lost
#print axioms c74_faithful
#print axioms c74_slot
#print axioms c74_parse_partial
#print axioms c74_getSlots_partial
#print axioms c74_getIntents
#print axioms c74_place
#print axioms c75_isolated
#print axioms c75_no_interference
#print axioms c75_panics_stay
#print axioms c75_exclusive
#print axioms c75_no_deadlock
#print axioms c75_terminates
#print axioms c75_poisoning_counterexample
#print axioms c75_unset_counterexample
#print axioms c76_same_answer
#print axioms c76_complement
#print axioms c76_same_program
#print axioms c76_unknown_intent_counterexample
#print axioms c77_deterministic
#print axioms c77_probabilistic
#print axioms c77_lookup_partial
#print axioms c77_engine_partial
#print axioms c77_lookup_counterexample
#print axioms c77_engine_counterexample
#print axioms c78_deterministic
#print axioms c78_probabilistic
#print axioms c78_lookup_partial
#print axioms c78_engine_partial
#print axioms c78_lookup_counterexample
#print axioms c78_engine_counterexample
#print axioms c78_empty_counterexample
#print axioms c79_reads
#print axioms c79_unambiguous
#print axioms c79_writes
#print axioms c79_file
#print axioms c79_no_text
#print axioms c80_no_null
#print axioms c80_shows
#print axioms c80_unique
#print axioms c80_distinct
#print axioms c80_parse
#print axioms c80_getSlots
#print axioms c80_getIntents
#print axioms c81_sound
#print axioms c81_fewest
#print axioms c81_fewest_own
#print axioms c81_only
#print axioms c81_nothing
#print axioms c81_tie
#print axioms c81_typed_placeholder_counterexample
#print axioms c82_answers
#print axioms c82_file
#print axioms c82_can_make
#print axioms c83_parse
#print axioms c83_only
#print axioms c83_nothing
#print axioms c83_get_slots
#print axioms c83_alternatives
#print axioms c84_rounding
#print axioms c84_exact
#print axioms c84_unique
#print axioms c84_lookup_top
#print axioms c84_deterministic_top
#print axioms c84_lookup
#print axioms c84_deterministic
#print axioms c84_order_counterexample
#print axioms c84_engine_order_counterexample
#print axioms c85_deterministic
#print axioms c85_deterministic_order
#print axioms c85_lookup
#print axioms c85_lookup_order
#print axioms c86_operation
#print axioms c86_custom
#print axioms c86_features_release
#print axioms c86_features_debug
#print axioms c86_entities
#print axioms c86_match
#print axioms c86_deterministic
#print axioms c86_features_counterexample
#print axioms c86_shape_counterexample
#print axioms c86_range_counterexample
#print axioms c87_pattern_text
#print axioms c87_engines
#print axioms c87_loaded
#print axioms c87_unique
#print axioms c87_boundaries
#print axioms c87_recognised
#print axioms c87_understood
#print axioms c88_isolated
#print axioms c88_panics_stay
#print axioms c88_no_interference
#print axioms c88_engine
#print axioms c88_frozen
#print axioms c88_answers
#print axioms c88_every_answer
#print axioms c88_exclusive
#print axioms c88_no_deadlock
#print axioms c88_terminates
#print axioms c88_one_time_counterexample
#print axioms c88_poisoning_counterexample
#print axioms c89_same
#print axioms c89_missing_partial
#print axioms c89_resources_unnamed
#print axioms c89_version
#print axioms c89_no_engine
#print axioms c89_undecodable
#print axioms c90_injected
#print axioms c90_before
#print axioms c91_chain
#print axioms c91_parts
#print axioms c91_commute
#print axioms c92_features
#print axioms c92_linear
#print axioms c92_scores
#print axioms c92_decides
#print axioms c92_saturates
#print axioms c92_saturates_counterexample
#print axioms c93_same
#print axioms c93_told
#print axioms c93_not_injectable
#print axioms c93_damage
#print axioms c93_resources
#print axioms c94_features
#print axioms c94_scores
#print axioms c94_decides
#print axioms c94_overflow_counterexample
#print axioms c94_underflow_counterexample
#print axioms c95_pretty
#print axioms c95_starts
#print axioms c95_answers
#print axioms c95_fails
#print axioms c95_not_utf8
#print axioms c95_never_ends
#print axioms c95_never_ends_counterexample
#print axioms c96_intents
#print axioms c96_slots
#print axioms c96_get_slots
#print axioms c96_extract_slot
#print axioms c97_answered
#print axioms c97_unknown
#print axioms c97_refused
#print axioms c97_same
#print axioms c97_messages
#print axioms c97_alternatives_counterexample
#print axioms c98_answers
#print axioms c98_history
#print axioms c98_loading
#print axioms c98_loaded
#print axioms c98_lookup_panics
#print axioms c98_deterministic_panics
#print axioms c99_loaded
#print axioms c99_call
#print axioms c99_history
#print axioms c99_threads
#print axioms c99_shared
#print axioms c100_parsers
#print axioms c100_call
#print axioms c100_instants
#print axioms c100_history
#print axioms c100_threads
#print axioms c100_shared
#print axioms c101_once
#print axioms c101_needed
#print axioms c101_again
#print axioms c101_again_few
#print axioms c102_builtin
#print axioms c102_custom
#print axioms c102_resolve
#print axioms c102_kept
#print axioms c103_bound_partial
#print axioms c103_at_least
#print axioms c103_polynomial_false
#print axioms c104_lookup_partial
#print axioms c104_lookup_false
#print axioms c104_gazetteer_partial
#print axioms c104_gazetteer_false
#print axioms c104_stemmer_false
#print axioms c105_call
#print axioms c105_history
#print axioms c105_parse
#print axioms c105_slots
#print axioms c105_unknown
#print axioms c105_distinct_needed
#print axioms c106_once
#print axioms c106_schedules
#print axioms c106_asked
#print axioms c106_count
#print axioms c106_clock
#print axioms c106_clock_schedules
#print axioms c107_swift_partial
#print axioms c107_kotlin_partial
#print axioms c107_swift_can_make
#print axioms c107_kotlin_can_make
#print axioms c108_world
#print axioms c108_call_partial
#print axioms c108_history_partial
#print axioms c108_parse_partial
#print axioms c108_rules
#print axioms c108_pairs_counterexample
#print axioms c108_shape_counterexample
#print axioms c109_call
#print axioms c109_history
#print axioms c109_parse
#print axioms c109_unknown
#print axioms c109_exists
#print axioms c109_distinct_needed
#print axioms c110_get_slots_partial
#print axioms c110_parse_partial
#print axioms c110_extract
#print axioms c110_typed_counterexample
#print axioms c110_placeholder_counterexample
#print axioms c111_parse
#print axioms c111_get_slots
#print axioms c111_get_intents
#print axioms c111_engine_parse
#print axioms c111_engine_get_slots
#print axioms c111_lookup_counterexample
#print axioms c112_parse
#print axioms c112_get_slots
#print axioms c112_get_intents
#print axioms c112_whitelisted
#print axioms c113_score
#print axioms c113_order
#print axioms c113_order_best
#print axioms c113_fewer
#print axioms c113_parse
#print axioms c113_more
#print axioms c113_two_intents
#print axioms c113_ties
#print axioms c114_formula
#print axioms c114_same
#print axioms c114_renumbered
#print axioms c115_idle
#print axioms c115_alone
#print axioms c115_order
#print axioms c115_slots
#print axioms c115_ranking
#print axioms c115_says
#print axioms c115_none_score
#print axioms c116_parse
#print axioms c116_get_slots
#print axioms c116_get_intents
#print axioms c116_whitelisted
#print axioms c116_untrained
#print axioms c117_parse
#print axioms c117_get_slots
#print axioms c117_lookup
#print axioms c117_deterministic
#print axioms c117_rules
#print axioms c117_undecided
#print axioms c118_lookup
#print axioms c118_deterministic
#print axioms c118_engine
#print axioms c119_get_slots
#print axioms c119_features
#print axioms c120_classifier
#print axioms c120_get_intents
#print axioms c120_get_slots
#print axioms c120_parse
#print axioms c120_empty_counterexample
#print axioms c121_parse
#print axioms c121_get_slots
#print axioms c122_get_intents
#print axioms c122_parse
#print axioms c122_lookup
#print axioms c122_rules
#print axioms c122_blanks
#print axioms c123_lookup
#print axioms c123_deterministic
#print axioms c123_probabilistic
#print axioms c123_engine
#print axioms c123_resource
#print axioms c123_whitelist
#print axioms c124_features
#print axioms c124_slots
#print axioms c124_tfidf
#print axioms c124_probabilistic
#print axioms c124_engine
#print axioms c124_gazetteer
#print axioms c124_stemmer
#print axioms c124_clusters
#print axioms c124_clusters_counterexample

end Snips
