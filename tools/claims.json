{
"C16": {
"status": "proved",
"note": "All inputs; greedy overlap removal.",
"1": "Kept matches are disjoint, in text order, priority to longer then earlier ones; any ranges (c16_any_ranges, c16_idempotent), non-empty ones (the others), and any items, overlaps and priorities (c16_items)."
},
"C17": {
"status": "partial",
"note": "Text substitution is exact for all inputs (c17_text). c17_table gives the table the code builds for all sizes; c17_mapping_partial: it is the intended one if every placeholder ends before position 2^15 of the new text; c17_mapping_exact: and only then. Beyond, the claim is false (c17_mapping_counterexample). c17_debug, c17_no_overflow: exactly when a debug build panics; c17_debug_counterexample: a debug build can also answer wrongly without panicking."
},
"C20": {
"status": "proved",
"note": "For every tokenization with ordered tokens."
},
"C21": {
"status": "proved",
"note": "For all histories of calls, under the stated assumption that builtin match ranges/kinds do not depend on time and extractors do not panic."
},
"C22": {
"status": "proved",
"note": "For all schedules at lock granularity."
},
"C23": {
"status": "proved",
"note": "For all request histories and capacities."
},
"C24": {
"status": "proved",
"note": "Progress and termination hold unconditionally; robustness assumes no extraction panics, and c24_poisoning_counterexample shows the assumption is needed."
},
"C02": {
"status": "proved",
"note": "All engines, filters and hash orders."
},
"C03": {
"status": "proved",
"note": "Forward and converse; errors and panics included."
},
"C04": {
"status": "proved",
"note": ""
},
"C05": {
"status": "proved",
"note": "Compared under the same hash iteration orders."
},
"C06": {
"status": "partial",
"note": "The claim is false of the code (c06_counterexample, c06_tie_counterexample): the code skips the first ranked intent rather than the main one. Proved: exactly which intents are listed (c06_exact_partial), the claim whenever the main intent heads the filtered ranking, and the claim in full for engines with a single deterministic parser, or a single lookup parser asked without filter (c06_deterministic, c06_lookup)."
},
"C07": {
"status": "proved",
"note": ""
},
"C08": {
"status": "proved",
"note": "Maximum and presence assume each parser ranks an intent at most once; order and uniqueness need no assumption."
},
"C09": {
"status": "proved",
"note": "Engine level in C09_GetSlots; unknown and known intents for each of the three parser kinds in C14_RuleSlots and C40_Classifier."
},
"C10": {
"status": "proved",
"note": ""
},
"C11": {
"status": "proved",
"note": ""
},
"C12": {
"status": "proved",
"note": ""
},
"C13": {
"status": "proved",
"note": ""
},
"C25": {
"status": "proved",
"note": "For all histories; cached extractions only expose ranges and kinds in the model, as at every call site in the code."
},
"C26": {
"status": "proved",
"note": "All segmentations; the prefixes are those of get_scheme_prefix (c26_encoder)."
},
"C27": {
"status": "proved",
"note": "IO and BILOU for arbitrary tags; BIO for tags of its alphabet (c27_bio_malformed_counterexample shows foreign tags break it)."
},
"C28": {
"status": "proved",
"note": ""
},
"C29": {
"status": "proved",
"note": "Offsets as unbounded integers (the code uses i32)."
},
"C30": {
"status": "proved",
"note": "For non-empty tokens and entities."
},
"C31": {
"status": "proved",
"note": ""
},
"C32": {
"status": "proved",
"note": "Normalisation, stemming and shapes are external functions. The end of the n-gram must be a 64-bit number; otherwise the feature panics (c32_ngram_overflow_counterexample). The overflow check of a debug build in a shape n-gram is in C86."
},
"C33": {
"status": "proved",
"note": "The tagger and the base64 codec are external."
},
"C55": {
"status": "proved",
"note": ""
},
"C18": {
"status": "partial",
"note": "Holds when every placeholder ends before position 2^15 of the new text, and the text is shorter than 2^31 characters (c18_recovery_partial, c18_order_partial). Beyond that the code violates the claim: c18_counterexample, c18_order_counterexample. c18_beyond: it violates it for every placeholder beyond position 2^15 whose length differs from that of its match."
},
"C19": {
"status": "proved",
"note": "Blanking keeps length and positions for every token list in text order."
},
"C34": {
"status": "proved",
"note": "Every sub-selection exactly once, in order of size; candidates and replacement text characterised."
},
"C35": {
"status": "proved",
"note": "Exact arithmetic: full characterisation. Any monotone rounding: single match, tie and fewer-slots parts."
},
"C36": {
"status": "proved",
"note": "Sum is 1 in exact arithmetic; for a rounding of relative error e within the stated bounds."
},
"C37": {
"status": "partial",
"note": "Lookup parser: proved. Deterministic parser: for in-range matches whose placeholders end before position 2^15 of the new text; beyond, c18_order_counterexample shows dependence on hash order. With rounding: two orders never give different intents, but one order can give an intent and another none (c84_order_counterexample, in actual single precision); C85 says when not."
},
"C38": {
"status": "proved",
"note": "Names are a permutation of the intents plus the absent intent; matching ones first."
},
"C52": {
"status": "proved",
"note": "For both rule-based parsers."
},
"C39": {
"status": "partial",
"note": "Proved with exact real arithmetic and with rounding, incl. one score per class and errors for feature size mismatch and missing coefficients. Which coefficients are accepted is characterised exactly (c39_loads_iff). False part: surplus coefficients are silently ignored by the code (c39_superfluous_counterexample); they have no influence (c39_superfluous)."
},
"C40": {
"status": "proved",
"note": "Ranking and filter: for a classifier with at least two intents, both model parts and a non-empty input. The other cases: c40_certain (at most one intent; the whitelist is not looked at), c40_no_features (no input or a part missing)."
},
"C54": {
"status": "proved",
"note": "Composition of classifier and slot fillers, for all of their behaviours."
},
"C41": {
"status": "proved",
"note": "Real arithmetic for values and norm (positive idf); order independence for any arithmetic, including rounding."
},
"C42": {
"status": "proved",
"note": "For consistently numbered tables, and the table built from a model that numbers its pairs is one. In a debug build the text must not overflow the 16-bit arithmetic of replace_entities. The window added to the number of tokens must be a 64-bit number; otherwise c42_window_counterexample."
},
"C01": {
"status": "partial",
"note": "Proved for engines made of any list of the three kinds of parsers, main intent and alternatives. Missing: classifiers whose intent list is not empty and lacks the absent intent; for exactly those the claim is false (c01_classifier_exact; c01_engine_counterexample, c01_single_intent_counterexample, c01_empty_input_counterexample)."
},
"C14": {
"status": "proved",
"note": "Engine level, main slots, alternatives and get_slots, given a tokenizer with right ranges (external)."
},
"C15": {
"status": "partial",
"note": "Engine level for any list of parsers. Missing: a BIO tagger answering with tags outside of the alphabet, for which the claim is false (c27_bio_malformed_counterexample)."
},
"C47": {
"status": "proved",
"note": "For every archive, every pattern of disk failures and every outcome: only paths strictly below the destination change, only entry paths and the directories leading to them, and the engine directory is a direct child of the destination. Contents after success and success for ordinary archives are proved too. File system without symbolic links; zip name cleaning transcribed from the zip crate."
},
"C48": {
"status": "partial",
"note": "False of the code: three witnesses (entry named '..', a file in the way of another entry, disk failure at File::create) panic. Proved without those three cases, for an initially empty destination; on a working disk the archives that panic are characterised exactly (c48_panics_iff)."
},
"C50": {
"status": "partial",
"note": "Lookup and choice of the compact form proved for every file; cluster names that are numbers in non-canonical notation ('007', '+7') come back changed when all names are numbers (witness), and a one-column record panics (proved)."
},
"C51": {
"status": "proved",
"note": "Gazetteer and stemmer loaders for every file: membership is exactly the set of lines, a stem is the one of the last line that lists the word, unlisted words are unchanged."
},
"C49": {
"status": "proved",
"note": "The grammar of JSON, the languages and the entity parsers loaded by dependencies are parameters."
},
"C43": {
"status": "proved",
"note": "Entity parsers on disk, the metadata of engine and parsers, the stemmer and interruptions of writing operations are modelled. Whatever is written, every entity of the request can be injected and the stemmer is there; otherwise an error and an unchanged disk."
},
"C44": {
"status": "proved",
"note": "For requests whose parser directories are not inside of one another (true of the engines that training writes). The library that reads, updates and writes gazetteer parsers is a parameter."
},
"C45": {
"status": "partial",
"note": "False as stated: the parser being rewritten is lost if the process is killed between remove_dir_all and dump (c45_counterexample). Proved: every other parser is old or new, and all are if no writing operation is interrupted. A failing request may have changed some parsers (c45_not_atomic_counterexample)."
},
"C46": {
"status": "proved",
"note": "Lower-casing, stems and word splitting are parameters; ToInject is the specification of the values for each usage."
},
"C53": {
"status": "proved",
"note": "For every call of the C interface of ffi/src/lib.rs (creation, queries, destruction), every memory and every sequence of calls: the result pointer is written exactly on success, the object written represents the answer of the native engine, invalid input, null engines, invalid UTF-8 and poisoned engines give KO without touching the result, results of a call do not depend on the history of other calls, and sessions that follow the ownership rules never meet undefined behaviour; for concurrent clients: serialisation by the engine mutex, no deadlock, termination. Undefined behaviour (null result pointers, double destroy) and panics crossing the boundary are explicit outcomes of the model. The macros of ffi-utils are external and modelled as recalled (DESIGN.md)."
},
"C56": {
"status": "proved",
"note": "from_zip: equality with loading the archived directory, confinement, restoration of the disk. Hypotheses: names in model files are plain (see C57), the disk is a tree without symbolic links, the temporary place is free. The zip reader and tempfile are external."
},
"C57": {
"status": "proved",
"note": "Under the hypothesis, part of the statement, that the names decoded from the model files are relative and without '..'; c57_escape_counterexample and c57_not_relocatable_counterexample show that the code does not check this and that the claim fails without it."
},
"C58": {
"status": "proved",
"note": "c58_parser, c58_engine (any list of well-formed parsers, any call), c58_extraction (custom entity extraction), c58_history (with caches, after any past, release build). Debug builds need a condition on the text (Fits), which a release build meets (c58_release) as soon as the windows and n-grams are small enough for the text (Small). Counterexample theorems show that each condition is needed, including debug builds in which a user typing a placeholder, or a text of 2^15 characters, makes a parser panic. Scores are modelled as rationals, so the partial_cmp(..).unwrap() on NaN is outside the claim (recorded in DESIGN.md)."
},
"C59": {
"status": "proved",
"note": "The code of the scheme of a feature is cut to its last byte (256 is taken as IO): c59_code_counterexample."
},
"C60": {
"status": "proved",
"note": "Names of resources that differ only after the last dot read the same file: c60_collision_counterexample."
},
"C61": {
"status": "proved",
"note": "Incomplete coefficients and a bare word at the head of a file of clusters panic: c61_panic_counterexample."
},
"C62": {
"status": "proved",
"note": "Exact (recognised iff a pattern matches) up to the order in which overlapping groups of equal size are preferred, which depends on the sort; regular expressions are a parameter of the model."
},
"C63": {
"status": "proved",
"note": "Exact arithmetic for the rule-based parsers and the range of C18 for the deterministic ones are hypotheses (with rounding or long texts the code does depend on the order: c84_engine_order_counterexample and C18). c63_tie_counterexample: with ties the alternatives do depend on the order."
},
"C64": {
"status": "partial",
"note": "Proved for texts in which every lower-case form is one character (c64_builtin_partial, c64_custom_partial, c64_lookup_partial, from c64_positions). False otherwise: the range is displaced by the characters which lower-casing adds before it (c64_displaced, c64_counterexample). Slots of the deterministic parser are related to the text in C68, those of the probabilistic parser in C26 and C69."
},
"C65": {
"status": "proved",
"note": "Hash collisions are part of the statements. Panics: c65_clusters_panic_iff."
},
"C66": {
"status": "proved",
"note": "For documents without tables decoding is characterised exactly; for the others the decoder accepts exactly the documents that describe something and answers a value they describe (tables up to the order of their entries). The grammar of JSON itself is a parameter."
},
"C67": {
"status": "proved",
"note": "c67_linear and c67_linear_terms are for exact arithmetic and describe the score completely; c67_blocks, c67_failure and c67_ranking hold with any arithmetic."
},
"C68": {
"status": "proved",
"note": "Captures that cut a placeholder in two are not described (patterns capture whole placeholders). The ranges of tokens and of groups of regular expressions are assumed faithful, and placeholders end before position 2^15 (C18 shows what happens otherwise)."
},
"C69": {
"status": "proved",
"note": "The tagger is a parameter. What base64::decode does with texts that are not canonical base64 is a parameter as well. The segmentation theorem assumes, for the IO scheme, that no two slots are adjacent (C26)."
},
"C70": {
"status": "proved",
"note": "IEEE 754 special values, one zero. The order of summation inside ndarray's dot is sequential in c70_no_nan and c70_infinite_coefficient, arbitrary elsewhere."
},
"C71": {
"status": "proved",
"note": "Memory, arguments and answers of the ctypes wrapper over the model of the C interface; programs by induction over their calls (c71_session). Null characters cut texts and negative numbers wrap (c71_truncated, c71_negative)."
},
"C72": {
"status": "partial",
"note": "Proved when the collector does not run during the call, filters are not empty lists and the engine is open. Without: c72_collected, c72_empty_filter, c72_after_close (undefined behaviour), c72_leak."
},
"C73": {
"status": "partial",
"note": "Answers proved; on errors the message is thrown but message and variable stay allocated (c73_leak). Not so: negative numbers (c73_trap), messages with a null byte (c73_null_message, c73_init_null_message: undefined for every question and constructor), empty data (c73_init_bytes)."
},
"C74": {
"status": "partial",
"note": "Exactly the values with OValue.Shown are represented (c74_value): not places (the answer is lost, c74_place), nor intervals whose end differs from their start (c74_interval), nor ordinals beyond 32 bits."
},
"C75": {
"status": "proved",
"note": "Threads with a stateful tagger behind its mutex and the caches behind theirs; invariant over reachable states, refinement of the stateless tagger used elsewhere. c75_poisoning_counterexample: a tagger without labels panics under the lock, after which innocent calls end with an error (not a panic). c75_unset_counterexample: what the order set, probability is for."
},
"C76": {
"status": "proved",
"note": "That the parsers know only the trained intents is a hypothesis (OnlyKnows); c76_unknown_intent_counterexample shows what it is for. With lists in both calls the programs are equal without it (c76_same_program)."
},
"C77": {
"status": "partial",
"note": "Holds for deterministic parsers (any rounding) and for probabilistic ones; for lookup parsers with exact arithmetic, no intent-specific stop words and no group entirely forbidden; for engines if the parsers before the one that answers still find nothing. The code violates the full claim: c77_lookup_counterexample (stop words of another intent of the group), c77_engine_counterexample (a parser that no longer hesitates)."
},
"C78": {
"status": "partial",
"note": "Holds for deterministic parsers (any rounding and filter) and for probabilistic ones; for lookup parsers with exact arithmetic, no intent-specific stop words and the intent in every group; for engines if the parsers before the one that answers have no slot to offer for the intent. The code violates the full claim: c78_lookup_counterexample, c78_engine_counterexample; c78_empty_counterexample: answers without slots."
},
"C79": {
"status": "proved",
"note": "serde_json is external: its parser and writer are transcribed. What f64 makes of a decimal number, and the text of a number, are parameters."
},
"C80": {
"status": "proved",
"note": "The Serialize implementations are external (snips_nlu_ontology): transcribed, with the dictionaries of the Python tests as evidence. That the text of a number is read back is a hypothesis (WritesResult); for an f32, up to rounding to 32 bits. json.loads is taken to agree with the grammar of RFC 8259."
},
"C81": {
"status": "proved",
"note": "c81_fewest, c81_only and c81_tie suppose that no entity is found twice at the same place. The hash of a text is a parameter, so an entry for a text is an entry for its hash. The table does not guarantee that the entities of a reading are as many as the slots of its entry: c81_typed_placeholder_counterexample."
},
"C82": {
"status": "proved",
"note": "Supposes that the numbers of an answer can be written in JSON, and, for the engine that answers, that extraction neither depends on the time (other than in resolved values) nor panics. c82_file is about engines whose JSON reader is the one of C79."
},
"C83": {
"status": "proved",
"note": "Supposes: tables whose entries name existing intents and slots, non-empty entities inside the sentence (lookup parser), the tables computed by the constructor (deterministic parser, holds after loading by C49), an intent list with the absent intent, sensible tokenizers, and taggers that answer one tag of their alphabet per token (probabilistic parser). c83_only for a lookup parser supposes that no entity is found twice at the same place."
},
"C84": {
"status": "proved",
"note": "round32 is a concrete function; c84_rounding and c84_unique say it is IEEE 754 rounding to nearest, ties to even. The weights are added in the order of the results (Iterator::sum). c84_order_counterexample and c84_engine_order_counterexample: five matches with 0, 1, 5, 5 and 5 slots, whose weights sum to 2 in one order and to the number below 2 in another."
},
"C85": {
"status": "proved",
"note": "The deterministic parser's independence of hash order supposes in-range matches whose placeholders end before position 2^15 (as C37)."
},
"C86": {
"status": "proved",
"note": "Machine versions of each function equal the unbounded ones. c86_features_counterexample: offset -2^31 in a model file makes a build with overflow checks panic; c86_range_counterexample: beyond 2^32 characters the range of a capture is wrong."
},
"C87": {
"status": "proved",
"note": "The engine's behaviour on trained patterns is the assumption LoadEnv.Compiles, which c87_engines shows to be satisfiable (backtracking matcher in Model/TrainedPattern). Words may be run together (\\s* matches nothing)."
},
"C88": {
"status": "proved",
"note": "Assumes that the builtin parser's ranges and kinds do not depend on time and that extractors do not panic (as C21, C22). The exception of poisoned taggers is part of the claim; c88_poisoning_counterexample shows it happens, c88_one_time_counterexample that one call may mix two times."
},
"C89": {
"status": "partial",
"note": "Violated by the code: opening the metadata of the resources has no context, so that nothing names the file (c89_resources_unnamed). Errors of the directories loaded by gazetteer-entity-parser and the builtin parser are those of the dependency. Proved for every other file (c89_missing_partial)."
},
"C90": {
"status": "proved",
"note": "Assumes (structure Composed) that the dependencies load one parser per directory listed in the metadata and read back what they dumped."
},
"C91": {
"status": "proved",
"note": "Assumes Composed as C90. Splitting and reordering are for uninterrupted injections; c91_chain holds for interruptions that did not prevent success."
},
"C92": {
"status": "proved",
"note": "Exponents are unlimited: neither underflow nor overflow (MachineOps). Fewer than 2^24 words, so that counts are exact. A disagreement is proved beside it: linear scores of 17 or more all give the score 1, so that the intent listed first wins over a higher one."
},
"C93": {
"status": "proved",
"note": "The texts of errors of dependencies and of the operating system, and the quoting of paths, are parameters (MessageEnv). The statement about former and new states assumes, as C45, that no parser directory of the request lies inside another."
},
"C94": {
"status": "proved",
"note": "The operations are those of Fl (C70) with round32; the zero has no sign. The accuracy of exp and the correct rounding of sqrt are assumptions (Machine32), as is that the scalar product adds all products in some order. c94_overflow_counterexample and c94_underflow_counterexample show that bounds on the magnitudes are needed."
},
"C95": {
"status": "proved",
"note": "The reading of the command line by clap, the logger and failures of the standard streams are not modelled. to_string_pretty, str::trim, usize::from_str and read_line are transcribed. The endless loop is stated as it is (c95_never_ends, c95_never_ends_counterexample)."
},
"C96": {
"status": "proved",
"note": "The two calls are compared under the same iteration orders of the hash containers. That the entity libraries only add alternatives is an assumption about them (Ext.MoreAdds)."
},
"C97": {
"status": "proved",
"note": "That the entity libraries answer, and report only custom entities they were asked for, are assumptions (World.NoError, World.Scoped). c97_alternatives_counterexample: a parser that does not know an intent ranked by another one makes parse_with_alternatives fail where parse succeeds."
},
"C98": {
"status": "proved",
"note": "The checks of a debug build that are modelled are the debug_assert of the lookup parser and the i16 arithmetic of replace_entities; overflow of usize in the size of shape n-grams (C32) is not."
},
"C99": {
"status": "proved",
"note": "ValidFiles speaks of the decoded files only; LoadEnv.Sensible collects what is assumed of the libraries. The threads of c99_threads are those of C22 (caches shared, taggers without state), those of c99_shared are those of C88 (mutexes and state of the taggers, advancing clock)."
},
"C100": {
"status": "proved",
"note": "c100_parsers for the parsers, c100_instants for one call at two times, c100_call for a call during which the clock advances, c100_history with caches, c100_threads with caches, taggers, threads and clock; c100_shared shows that the hypothesis of c100_threads holds of every engine for some libraries."
},
"C101": {
"status": "proved",
"note": "c101_once: stretches within the capacity after any calls; c101_needed: the converse from loading on; c101_again, c101_again_few: repeated engine calls. That a request is extracted is defined by what it does with an extractor that panics. Failed extractions are not cached and are made again. Extractors do not panic (else the mutex is poisoned, C24); the capacity is positive (1000 in the code)."
},
"C102": {
"status": "proved",
"note": "c102_builtin: all engine calls about a query, any answers; c102_custom: the calls of the intent parsers; c102_resolve: resolution; c102_kept: each builtin request extracted once when the capacity is at least the number of scopes, vectorizers and features (1000 in the code)."
},
"C103": {
"status": "partial",
"note": "The code violates it: c103_polynomial_false gives, for every c and d, a query of some length n with more than c*n^d candidates (every character an entity), and c103_at_least shows at least 2^k candidates whenever k distinct entities are found for a scope with a permitted intent. What holds is c103_bound_partial: at most the sum over the scopes of the number of permitted intents times 2^k."
},
"C104": {
"status": "partial",
"note": "The code violates it: texts are told apart by 32-bit keys only. For every function with 32-bit values there are a table made from one sentence and another sentence for which the intent of the first is returned with score 1 (c104_lookup_false), a gazetteer of one word that contains another (c104_gazetteer_false) and a stemmer that changes a word it does not list (c104_stemmer_false). c104_lookup_partial and c104_gazetteer_partial prove the claim where the keys of the texts at hand differ; for the stemmer this is c51_stemmer."
},
"C105": {
"status": "proved",
"note": "c105_call and c105_history take the hash maps of the two engines to be iterated in orders that do not look at the keys (HashOrd.Blind); c105_parse and c105_slots are for any two orders, for parsers whose answers do not depend on them (C63). In c105_call an error may also be left unchanged, since the functions of the model that stand for dependencies may fail with any error; c105_unknown gives the errors of the engine about unknown intents exactly. c105_distinct_needed: the names must differ."
},
"C106": {
"status": "proved",
"note": "c106_once, c106_asked and c106_count are for the threads of Model/Concurrent (each call sees one time); c106_clock is for the threads of Model/EngineShared (taggers behind mutexes, a clock that advances during calls), where the number of requests is that of the execution itself. The mutex is held during the extraction, which the model shows as one step; c24_mutual_exclusion is about that step."
},
"C107": {
"status": "partial",
"note": "Swift (c107_swift_partial): for answers without null characters that Swift can show (C74; not places, ends of intervals, ordinals beyond 32 bits) and messages without null byte (C73); the history may contain any calls that do not end the process. Kotlin (c107_kotlin_partial): no empty list as filter, no collection during a call, conversions that do not throw (C72: each needed). Both suppose of the engine that answers that extraction neither depends on the time (other than in resolved values) nor panics. Making of engines proved."
},
"C108": {
"status": "partial",
"note": "Full statement false: word pairs are compared as they are written, so with co-occurrence features the intent may depend on case (c108_pairs_counterexample), and shape features are about case (c108_shape_counterexample). Proved for engines of rule-based parsers without restriction (c108_rules) and for all engines without these two kinds of features (c108_call_partial, c108_history_partial, c108_parse_partial). Lower-casing, normalisation, tokenisers and regular expressions (compiled with case_insensitive) are external: that they ignore the relation of letters is a hypothesis, met by the functions of the examples for ASCII letters (asciiCase_rel, ruleFns_cased). c108_call_partial and c108_history_partial take the hash maps of the two calls to be iterated in orders that do not look at the values; c108_parse_partial is for any two orders."
},
"C109": {
"status": "proved",
"note": "c109_call and c109_history are for every call and sequence of calls, with hash maps iterated in orders that do not look at the values; c109_parse is for any two orders, for the parsers of C63; c109_unknown gives the error on an unknown slot exactly. The taggers of the renamed engine answer with the renamed tags (their training is not modelled); c109_exists: for every slot filler with well-formed tags there is such a renamed one. c109_distinct_needed: the names must differ."
},
"C110": {
"status": "partial",
"note": "Full statement false for the lookup parser: it takes the names of slots from the table and the entities from the query, in order. A placeholder typed by the user shifts them (release builds, c110_typed_counterexample), and entities whose names differ in spaces only have the same placeholder (c110_placeholder_counterexample). Proved if the placeholders of the table are legible in the query: a reading of the query with the key of a training sentence has the entities of this sentence (Lookup.Legible, part of AgreesWith; met in the example). For engines without lookup parser the theorems have no such assumption. c110_extract is for every engine."
},
"C111": {
"status": "proved",
"note": "Exact arithmetic (env.rd = exact), as for C37/C63: with rounding the order of summation matters. The claim is about the deterministic parser; c111_lookup_counterexample shows that the same is false of the lookup parser. Engine: whitelists only, since a blacklist means other intents in a larger dataset."
},
"C112": {
"status": "proved",
"note": "Exact arithmetic (env.rd = exact), as for C37/C63. That tokens do not reach over blanks (SplitsAtBlanks) and that the entity parsers find the same matches (SameMatches) are hypotheses about code outside the repository; both are shown for the example. c112_whitelisted: a word that an intent keeps in its own list is not skipped for it, so the hypothesis on the intents is needed. The deterministic parser blanks stop words instead of removing them; it is the subject of C19."
},
"C113": {
"status": "proved",
"note": "Rounding is arbitrary in all but c113_two_intents (exact arithmetic over the reals). The hash order of the featurizer's maps is the same on both sides (what that order can change is the subject of C63). c113_ties shows that with equal scores the order in the model file decides, so the proviso on ties is needed."
},
"C114": {
"status": "proved",
"note": "Exact arithmetic over the reals, as for C67 (in floating point the order of summation, hence the numbering, shows in the last digits; C92/C94 bound that). The replacement of entity matches by their names is taken from C17."
},
"C115": {
"status": "proved",
"note": "parse without intent alternatives. c115_says: the answers of the three kinds of parsers are of the kind the hypotheses ask for, by C63. c115_none_score: when no parser recognises an intent the confidence is that of the last parser, so the proviso that one recognises something is needed."
},
"C116": {
"status": "proved",
"note": "Both queries are parsed by the same parser, whose own hash maps have one iteration order. c116_whitelisted: a word kept for an intent changes what is read. c116_untrained: a pattern with a blank instead of \\s* no longer matches, so the form of the patterns is needed; C87 describes it."
},
"C117": {
"status": "proved",
"note": "parse without intent alternatives. c117_rules is the claim for the usual list of parsers; c117_lookup and c117_deterministic (C112, C116) give the hypothesis of c117_parse for the two kinds of parsers. c117_undecided: when they recognise nothing a later parser may answer the longer query in another way."
},
"C118": {
"status": "proved",
"note": "Follows from C112, C116 and C117: a text of blanks has no tokens, so all of them are stop words."
},
"C119": {
"status": "proved",
"note": "Assumes that byte ranges of tokens agree with their character ranges (BytesAgree) and that tokens do not reach over blanks; `Plain` says that the text is made of tokens and blanks and ends with a token, so that the text rebuilt from the tokens is the query."
},
"C120": {
"status": "proved",
"note": "For builds with and without overflow checks: RoomFor asks something of the query only when the checks of replace_entities are on. c120_empty_counterexample shows that the query must not be empty."
},
"C121": {
"status": "proved",
"note": "Follows from C117, C118 and C120."
},
"C122": {
"status": "proved",
"note": "The order of hash maps does not look at the elements (HashOrd.Blind), as in C105: equally scored intents come in an order that depends on it."
},
"C123": {
"status": "proved",
"note": "Equality of the whole outcome for every build, without conditions on the extractors. c123_resource, c123_whitelist: lists and whitelists that agree on the words of the query meet the condition."
},
"C124": {
"status": "proved",
"note": "Equality of the programs of the parser, hence of the outcome whatever the entity parsers answer. The custom entity parser, which is built with the same stemmer, is an external component: its answers are taken to be the same. c124_gazetteer, c124_stemmer, c124_clusters: records put into the files meet the condition. c124_clusters_counterexample: when cluster names are not plain (C50) a record about another word can change the cluster of a word."
}
}