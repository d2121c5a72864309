{"id": "C01", "title": "Intent filters are respected", "statement": "Whenever parse is called with an intents whitelist and/or blacklist and returns an intent, that intent belongs to the whitelist (when one is given) and does not belong to the blacklist; the same holds for every intent listed among the alternatives.", "quantifier": "every engine built from any list of lookup / deterministic / probabilistic parsers, every input text, every pair of filter lists, every outcome of the underlying extractors and taggers", "why_tests_cant": "The filter is re-implemented independently in each parser and in each early-return branch of the classifier; a test exercises one branch for one engine while the claim is about every model, every input (also the empty one) and every filter.", "anchors": ["src/nlu_engine.rs: parse_with_alternatives, get_intents_whitelist", "src/intent_classifier/log_reg_intent_classifier.rs: get_intents_with_whitelist", "src/intent_parser/deterministic_intent_parser.rs: parse_top_intents", "src/intent_parser/lookup_intent_parser.rs: parse_top_intents"]}
{"id": "C02", "title": "Unknown intents in a filter are rejected up front", "statement": "If the whitelist or the blacklist names an intent that the engine was not trained on, parse returns an error, and it does so without consulting any intent parser; if all names are known the filter itself never causes an error and the set handed to the parsers is exactly whitelist minus blacklist (no list given means no restriction).", "quantifier": "every engine metadata, every pair of optional filter lists, every input", "why_tests_cant": "The set algebra must be right for all combinations of present/absent/overlapping/duplicated lists.", "anchors": ["src/nlu_engine.rs: get_intents_whitelist", "src/utils.rs: IterOps::intersect"]}
{"id": "C03", "title": "The first parser that recognises an intent wins", "statement": "parse returns the intent, confidence and slots of the first intent parser (in configured order) which yields an intent; parsers after it have no influence, parsers before it yielded none; an error of a consulted parser is the error of parse.", "quantifier": "every list of intent parsers, of any length and behaviour, every input and filter", "why_tests_cant": "It is a statement about arbitrary lists of arbitrary parsers.", "anchors": ["src/nlu_engine.rs: parse_with_alternatives"]}
{"id": "C04", "title": "A result without intent carries no slots and the last parser's score", "statement": "When no parser yields an intent, parse succeeds with an absent intent name, an empty slot list, and the confidence reported by the last parser consulted (0 when the engine has no parser).", "quantifier": "every engine, input, filter", "why_tests_cant": "Quantifies over all parser lists and all inputs for which each of them abstains.", "anchors": ["src/nlu_engine.rs: parse_with_alternatives"]}
{"id": "C05", "title": "Asking for alternatives never changes the main answer", "statement": "For any requested number of intent alternatives, if the call succeeds the input, main intent, its confidence and the slots are those returned when no intent alternative is requested; the main intent and confidence do not depend on the number of slot alternatives either; the number of returned alternatives is at most the number requested, and zero requested means none; parse is parse_with_alternatives with zero alternatives.", "quantifier": "every engine, input, filters, and every pair of requested alternative counts", "why_tests_cant": "The claim relates two runs of the API for all numeric arguments.", "anchors": ["src/nlu_engine.rs: parse, parse_with_alternatives"]}
{"id": "C06", "title": "The main intent is not repeated among the alternatives", "statement": "No alternative returned with a result names the same intent as the main result, and the best remaining intent is never skipped.", "quantifier": "every engine, input, filters, numbers of alternatives", "why_tests_cant": "Whether the first element of the merged ranking is the main answer depends on all parsers' scores at once.", "anchors": ["src/nlu_engine.rs: parse_with_alternatives (skip(1))", "src/nlu_engine.rs: get_intents"]}
{"id": "C07", "title": "Alternatives are ranked and obey the filter", "statement": "The alternatives are listed by non-increasing confidence, name each intent at most once, every named alternative passes the filter, and an alternative with no intent has no slots.", "quantifier": "every engine, input, filters and alternative counts, every hash iteration order", "why_tests_cant": "Depends on hash-map iteration order and on all score combinations.", "anchors": ["src/nlu_engine.rs: parse_with_alternatives, get_intents"]}
{"id": "C08", "title": "Intent ranking is a correct merge", "statement": "get_intents returns each intent name at most once, in non-increasing order of score; the score shown for an intent is the maximum over the parsers that rank it (parsers each ranking an intent once, with non-negative scores) and every intent ranked by the first parser with a non-empty answer, or with a positive score by a later one, is present.", "quantifier": "every list of parsers and every answers of theirs, every hash iteration order", "why_tests_cant": "A fold over arbitrary many parsers through a hash map with unspecified iteration order.", "anchors": ["src/nlu_engine.rs: get_intents"]}
{"id": "C09", "title": "get_slots takes the first non-empty answer", "statement": "get_slots returns the resolved slots of the first parser (in order) that finds at least one slot for the intent; an empty list when none does; a rule-based or probabilistic parser asked about an intent it does not know makes the call fail rather than be answered with slots of another intent.", "quantifier": "every parser list, input, intent name", "why_tests_cant": "Quantifies over arbitrary parser lists and intents.", "anchors": ["src/nlu_engine.rs: get_slots, get_slots_with_alternatives", "src/intent_parser/deterministic_intent_parser.rs: get_slots", "src/intent_parser/lookup_intent_parser.rs: get_slots", "src/intent_parser/probabilistic_intent_parser.rs: get_slots"]}
{"id": "C10", "title": "Resolution keeps slot identity", "statement": "Every slot of a parse result stems from a distinct slot found by the winning parser, in the same order, with the same raw text, the same character range, the same entity and the same slot name; resolution only ever drops slots or attaches values.", "quantifier": "every list of slots, every dataset metadata, every answer of the entity parsers", "why_tests_cant": "It must hold for every mix of builtin and custom slots and every entity parser answer.", "anchors": ["src/slot_utils.rs: resolve_builtin_slot, resolve_custom_slot, convert_to_builtin_slot, convert_to_custom_slot", "src/nlu_engine.rs: resolve_slots"]}
{"id": "C11", "title": "Custom slot resolution rule", "statement": "A custom slot is resolved to the entity value matched at exactly its range when there is one; otherwise to the match of its own text, if that match covers as many characters as the raw text; otherwise it is kept with its raw text as value exactly when the entity is automatically extensible, and dropped exactly when it is not.", "quantifier": "every slot, metadata, entity parser answer, number of alternatives", "why_tests_cant": "Decision logic with four outcomes over unbounded inputs.", "anchors": ["src/slot_utils.rs: resolve_custom_slot, convert_to_custom_slot", "src/nlu_engine.rs: resolve_slots"]}
{"id": "C12", "title": "Builtin slot resolution rule", "statement": "A builtin slot is resolved to the value of an entity of the same kind at exactly its range when the sentence-level extraction has one, otherwise to the last value extracted from its own text; it is dropped exactly when both find nothing, and an unknown entity identifier is an error.", "quantifier": "every slot, every extraction answer", "why_tests_cant": "Decision logic over unbounded inputs.", "anchors": ["src/slot_utils.rs: resolve_builtin_slot, convert_to_builtin_slot", "src/nlu_engine.rs: resolve_slots"]}
{"id": "C13", "title": "extract_slot contract", "statement": "extract_slot fails for an unknown intent or for a slot the intent does not have; for a builtin entity it returns the first entity of that kind found in the input with raw text equal to the input at the reported range, or nothing; for a custom entity it returns the last match, else the whole input when the entity is automatically extensible, else nothing.", "quantifier": "every engine metadata, input, intent name, slot name, entity parser answer", "why_tests_cant": "Quantifies over all metadata, inputs and extractor answers.", "anchors": ["src/nlu_engine.rs: extract_slot, extract_slot_with_alternatives, extract_custom_slot, extract_builtin_slot"]}
{"id": "C14", "title": "Raw slot text is the text at the slot range", "statement": "For every slot in a parse result the raw value is exactly the substring of the original input at the reported character range.", "quantifier": "every engine, every input text (any Unicode), every tagger/extractor answer, every tokenizer whose byte and character ranges agree", "why_tests_cant": "Byte/char offset confusion shows only for particular Unicode inputs and offsets.", "anchors": ["src/slot_filler/crf_utils.rs: tags_to_slots", "src/intent_parser/deterministic_intent_parser.rs: get_matching_result", "src/intent_parser/lookup_intent_parser.rs: parse_map_output", "src/slot_utils.rs"]}
{"id": "C15", "title": "Slots of a result never overlap and come in text order", "statement": "The character ranges of the slots of a parse result are pairwise disjoint and increasing.", "quantifier": "every engine and input, every regex / tagger / extractor answer", "why_tests_cant": "Depends on arbitrary tag sequences, arbitrary overlapping matches.", "anchors": ["src/slot_filler/crf_utils.rs: _tags_to_slots", "src/intent_parser/deterministic_intent_parser.rs: deduplicate_overlapping_slots", "src/utils.rs: deduplicate_overlapping_entities", "src/intent_parser/lookup_intent_parser.rs: get_candidates"]}
{"id": "C16", "title": "Overlap removal is sound, greedy and complete", "statement": "Removing overlapping matches returns a subset of the given matches with pairwise disjoint ranges, in text order; every discarded match overlaps a kept one that is at least as long; applying it twice changes nothing, and non-overlapping input is only reordered.", "quantifier": "every finite list of ranged items (any ranges, any ties)", "why_tests_cant": "Universally quantified over lists of ranges; greedy algorithms fail on rare overlap patterns.", "anchors": ["src/utils.rs: deduplicate_overlapping_items, deduplicate_overlapping_entities"]}
{"id": "C17", "title": "Placeholder substitution keeps exact range bookkeeping", "statement": "Substituting matched entities by placeholders yields the text in which each kept match is replaced by its placeholder and all other characters are untouched, and the returned range table maps, for every kept match, exactly the range of its placeholder in the new text to its range in the original text.", "quantifier": "every text, every list of in-bounds matches, every placeholder function", "why_tests_cant": "Offsets accumulate over arbitrarily many replacements of arbitrary length (16-bit arithmetic in the code).", "anchors": ["src/utils.rs: replace_entities, deduplicate_overlapping_entities"]}
{"id": "C18", "title": "Captured ranges are mapped back to the original text", "statement": "For a range of the placeholder text that is a placeholder the recovered range is the original entity's; for a range that touches no placeholder, the recovered range in the original text carries exactly the same characters. The answer does not depend on hash iteration order.", "quantifier": "every text, list of matches, placeholder function, captured range, hash iteration order", "why_tests_cant": "Arithmetic on accumulated shifts over all inputs and iteration orders.", "anchors": ["src/intent_parser/deterministic_intent_parser.rs: get_range_shift, get_matching_result", "src/utils.rs: replace_entities"]}
{"id": "C19", "title": "Stop-word blanking preserves positions", "statement": "The text the deterministic parser matches against has exactly as many characters as the input; every token that is not an ignored stop word stands unchanged at its own position and every other position is a space.", "quantifier": "every text, every tokenization into ordered in-bounds tokens, every stop word set", "why_tests_cant": "All later offsets rely on this length preservation for every input.", "anchors": ["src/intent_parser/deterministic_intent_parser.rs: preprocess_text"]}
{"id": "C20", "title": "Custom entity ranges refer to the sentence", "statement": "Ranges found in the space-joined token string are translated to the sentence such that the translated range starts at the first and ends at the last matched token's own position.", "quantifier": "every list of ordered tokens (any gaps, any lengths), every match aligned with token borders", "why_tests_cant": "Cumulative signed shifts over arbitrary token gaps.", "anchors": ["src/entity_parser/custom_entity_parser.rs: compute_char_shifts, _extract_entities"]}
{"id": "C21", "title": "Caching is invisible", "statement": "Whatever sequence of extraction requests was served before, a cached extraction returns exactly what an uncached extraction would return; consequently the results of every engine call are independent of the history of calls.", "quantifier": "every history of calls (any length), every cache capacity, every key", "why_tests_cant": "Quantifies over all histories, including evictions.", "anchors": ["src/entity_parser/utils.rs: Cache::try_cache", "src/entity_parser/builtin_entity_parser.rs", "src/entity_parser/custom_entity_parser.rs", "src/nlu_engine.rs"]}
{"id": "C22", "title": "Concurrent use is linear: every schedule gives sequential answers", "statement": "When several threads use one engine at the same time, each call returns the answer it would return alone, under every interleaving of their accesses to the shared caches.", "quantifier": "every number of threads, programs and schedules", "why_tests_cant": "Schedules cannot be enumerated by tests.", "anchors": ["src/entity_parser/builtin_entity_parser.rs: Mutex<Cache>", "src/entity_parser/custom_entity_parser.rs: Mutex<Cache>"]}
{"id": "C23", "title": "The entity cache is bounded, recency-ordered and never stores failures", "statement": "The number of cached entries never exceeds the capacity; a failing extraction is not remembered (the next identical request is tried again); among the served keys the entries kept are the most recently used ones.", "quantifier": "every history of successful and failing requests, every capacity", "why_tests_cant": "Invariant over all histories.", "anchors": ["src/entity_parser/utils.rs: Cache"]}
{"id": "C24", "title": "Failures do not poison later calls, and calls cannot deadlock", "statement": "A call that ends in an error leaves the engine usable: later calls behave as if it had not happened. As long as no extraction panics, no call panics because of a previous one, and in every reachable state of concurrent calls some unfinished call can proceed.", "quantifier": "every history and every schedule of successful and failing calls", "why_tests_cant": "Invariant over all schedules and failure points.", "anchors": ["src/entity_parser/builtin_entity_parser.rs: lock().unwrap()", "src/entity_parser/custom_entity_parser.rs: lock().unwrap()"]}
{"id": "C25", "title": "Resolved builtin values are fresh", "statement": "The resolved values of builtin slots (such as dates relative to now) in any result are those the extractor gives at the time of the call, never values cached from an earlier call.", "quantifier": "every history of calls at any times, every extractor whose matched ranges and kinds do not depend on time", "why_tests_cant": "Staleness shows only for particular histories.", "anchors": ["src/nlu_engine.rs: resolve_slots, extract_builtin_slot", "src/slot_utils.rs: resolve_builtin_slot", "src/entity_parser/builtin_entity_parser.rs: use_cache"]}
{"id": "C26", "title": "Tagging schemes round-trip", "statement": "Encoding a segmentation of the tokens into slots with the BIO or BILOU scheme and decoding it gives back exactly these slots (names and token spans); with the IO scheme this holds whenever no two slots are adjacent.", "quantifier": "every number of tokens, every segmentation, every slot names", "why_tests_cant": "Induction over arbitrarily long sequences.", "anchors": ["src/slot_filler/crf_utils.rs: get_scheme_prefix, _tags_to_slots, tags_to_slot_ranges, is_start_of_*, is_end_of_*"]}
{"id": "C27", "title": "Any predicted tag sequence decodes to well-formed slots", "statement": "For any tag sequence the tagger can predict in its scheme, the decoded slots are non-empty token spans, pairwise disjoint, increasing, and together cover exactly the tokens not tagged as outside.", "quantifier": "every tag sequence of any length", "why_tests_cant": "A tagger may output inconsistent sequences; all of them must be decoded sanely.", "anchors": ["src/slot_filler/crf_utils.rs: _tags_to_slots"]}
{"id": "C28", "title": "Slot text and ranges agree for any Unicode text", "statement": "A slot decoded from tokens has a character range from the first token's start to the last token's end, and its text, cut with byte offsets, equals the characters of the text at that character range.", "quantifier": "every UTF-8 text, every consistent tokenization, every tag sequence", "why_tests_cant": "Byte and character offsets coincide on ASCII tests only.", "anchors": ["src/slot_filler/crf_utils.rs: tags_to_slots, tags_to_slot_ranges"]}
{"id": "C29", "title": "Feature windows are exact", "statement": "The features given to the tagger for token t contain name[+o]=v exactly when the feature declares offset o, position t+o exists in the sentence and the feature's value at t+o is v; there is one feature list per token.", "quantifier": "every token list, every set of feature functions and offsets (any sign and size)", "why_tests_cant": "Off-by-one and boundary behaviour over all offsets and lengths.", "anchors": ["src/slot_filler/feature_processor.rs: compute_features, offsets_with_name"]}
{"id": "C30", "title": "Entity-match features describe the match", "statement": "For a token inside a matched entity, the entity-match feature is the tagging-scheme prefix of its position in that entity, and it is absent for tokens outside all matched entities.", "quantifier": "every token list, every list of matched entity ranges, every scheme, every position", "why_tests_cant": "All positions, schemes and ranges.", "anchors": ["src/slot_filler/features.rs: CustomEntityMatchFeature, BuiltinEntityMatchFeature, transform_tokens", "src/slot_filler/crf_utils.rs: get_scheme_prefix"]}
{"id": "C31", "title": "Rebuilding text from tokens keeps positions", "statement": "The text rebuilt from tokens has every token at its own character range, so that ranges found in it can be compared with token ranges.", "quantifier": "every non-empty ordered token list with any gaps", "why_tests_cant": "All gaps and lengths.", "anchors": ["src/slot_filler/features_utils.rs: initial_string_from_tokens", "src/slot_filler/features.rs: transform_tokens"]}
{"id": "C32", "title": "Prefix, suffix and n-gram features are exact", "statement": "A prefix (suffix) feature of size n is the first (last) n characters of the word, present exactly when the word has at least n characters; an n-gram feature at position t is the n consecutive words starting at t, present exactly when all of them exist; provided the position plus n is a 64-bit number (otherwise computing the n-gram panics).", "quantifier": "every word (any Unicode), every size, every position", "why_tests_cant": "All sizes and positions, including multi-byte characters and boundaries.", "anchors": ["src/slot_filler/features_utils.rs: get_word_chunk", "src/slot_filler/features.rs: PrefixFeature, SuffixFeature, NgramFeature, ShapeNgramFeature, IsFirstFeature, IsLastFeature"]}
{"id": "C33", "title": "Slot sequence probability only queries known labels", "statement": "Computing the probability of a slot sequence replaces exactly the labels unknown to the tagger, by the outside label when the tagger knows it, so the tagger is only asked about its own labels; it fails only if the tagger has no labels.", "quantifier": "every label set, every slot list and token list", "why_tests_cant": "All label sets.", "anchors": ["src/slot_filler/crf_utils.rs: get_substitution_label", "src/slot_filler/crf_slot_filler.rs: get_sequence_probability"]}
{"id": "C34", "title": "Every choice of matched entities is tried", "statement": "The combinations of matched entities considered for lookup are exactly all subsets (in original order), each once, the empty one first and then by decreasing size.", "quantifier": "every list of items of any length", "why_tests_cant": "Exponential domain, any length.", "anchors": ["src/intent_parser/lookup_intent_parser.rs: get_items_combinations, get_candidates"]}
{"id": "C35", "title": "Ambiguous sentences yield no intent; unambiguous ones yield theirs", "statement": "The lookup and deterministic parsers return an intent exactly when its weight 1/(1+number of slots) exceeds the total weight of all other matching intents; with a single matching intent the confidence is 1; with two intents matching with equally many slots none is returned; a returned intent has strictly fewer slots than every competitor.", "quantifier": "every number of matching intents and slots, every hash iteration order, every rounding of floating point operations that is monotone", "why_tests_cant": "All combinations of counts, iteration orders and rounding.", "anchors": ["src/intent_parser/deterministic_intent_parser.rs: parse, parse_top_intents", "src/intent_parser/lookup_intent_parser.rs: parse, parse_top_intents"]}
{"id": "C36", "title": "Rule parsers' confidences form a distribution", "statement": "The confidences of the ranked results of the lookup and deterministic parsers lie in (0,1], are sorted in non-increasing order, and sum to 1 (up to floating point rounding).", "quantifier": "every non-empty list of matches", "why_tests_cant": "All match lists.", "anchors": ["src/intent_parser/deterministic_intent_parser.rs: parse_top_intents", "src/intent_parser/lookup_intent_parser.rs: parse_top_intents"]}
{"id": "C37", "title": "Rule parsing does not depend on hash order", "statement": "parse of the lookup and deterministic parsers returns the same intent, slots and confidence whatever the iteration order of the hash maps involved (up to floating point rounding).", "quantifier": "every input, every pair of iteration orders", "why_tests_cant": "Hash iteration order differs between process runs.", "anchors": ["src/intent_parser/deterministic_intent_parser.rs: parse_top_intents, get_range_shift", "src/intent_parser/lookup_intent_parser.rs: parse_top_intents"]}
{"id": "C38", "title": "Rule parsers rank every intent once", "statement": "get_intents of the lookup and deterministic parsers lists every intent of the parser exactly once plus the absent intent once, matching intents first with their confidences and all others with score 0.", "quantifier": "every input and parser model", "why_tests_cant": "All models and inputs.", "anchors": ["src/intent_parser/deterministic_intent_parser.rs: get_intents", "src/intent_parser/lookup_intent_parser.rs: get_intents"]}
{"id": "C39", "title": "Logistic scores are probabilities", "statement": "The classifier score of each intent lies strictly between 0 and 1 and is increasing in the linear score; with a single output row the two scores sum to 1; there is one score per intent; mismatching dimensions are an error or panic, never silently a wrong score.", "quantifier": "all weights, intercepts and feature vectors", "why_tests_cant": "Real-valued domain.", "anchors": ["src/intent_classifier/logreg.rs: new, run, logit"]}
{"id": "C40", "title": "Classifier ranking and filter", "statement": "The classifier ranks intents by non-increasing score, parse's intent is the first of that ranking, and a whitelist only removes entries: scores and relative order of the remaining intents are unchanged, and the absent intent is never removed. With at most one intent that intent is certain; for an input or a model without features the absent intent is certain and comes first, the other intents have score zero.", "quantifier": "every model, every input, every whitelist", "why_tests_cant": "All models, scores and filters.", "anchors": ["src/intent_classifier/log_reg_intent_classifier.rs: get_intent, get_intents, get_intents_with_whitelist"]}
{"id": "C41", "title": "Tf-idf vectors are normalised", "statement": "The tf-idf feature vector has one entry per vocabulary index, is proportional to term count times inverse document frequency on known terms and zero elsewhere, and has unit Euclidean norm unless no known term occurs, in which case it is zero; it does not depend on the order of the tokens.", "quantifier": "every vocabulary, idf table, utterance", "why_tests_cant": "Real-valued, all vocabularies and utterances.", "anchors": ["src/intent_classifier/featurizer.rs: TfidfVectorizer::transform"]}
{"id": "C42", "title": "Word co-occurrence features are exact", "statement": "A co-occurrence entry is 1 exactly when the corresponding word pair occurs in the filtered utterance at a distance within the window (in order, or in any order when order is ignored), and 0 otherwise; computing it never fails on a consistently numbered pair table and a window that can be added to the number of tokens without exceeding 64 bits (otherwise it panics).", "quantifier": "every utterance, window size, pair table, both order modes", "why_tests_cant": "All window boundaries and orders.", "anchors": ["src/intent_classifier/featurizer.rs: CooccurrenceVectorizer::transform, extract_word_pairs"]}
{"id": "C43", "title": "Injection validates before it writes", "statement": "If any entity of an injection request cannot be injected, or the stemmer it requires is missing, inject returns an error and no file of the engine has been changed, whatever the position of the offending entity in the request.", "quantifier": "every injection request, engine directory, hash iteration order", "why_tests_cant": "All requests and positions of the offending entity.", "anchors": ["src/injection/injection.rs: inject, get_entity_parsers_dirs, stem_entity_value"]}
{"id": "C44", "title": "Successful injection changes exactly the requested entities", "statement": "After a successful injection the parser of each requested entity contains exactly the result of injecting its values in its former content, every other entity parser is unchanged, and the outcome does not depend on the hash iteration order of the request.", "quantifier": "every request and engine directory, every iteration order", "why_tests_cant": "All requests and orders.", "anchors": ["src/injection/injection.rs: inject"]}
{"id": "C45", "title": "An interrupted injection damages at most one entity parser", "statement": "If injection is interrupted at any point (crash or I/O failure), every entity parser on disk is either in its old or in its new complete state (claimed natural property; the code only guarantees it for all parsers but the one being rewritten).", "quantifier": "every crash point and failing operation", "why_tests_cant": "Crash points cannot be covered by tests.", "anchors": ["src/injection/injection.rs: inject (remove_dir_all, dump)"]}
{"id": "C46", "title": "Injected values are normalised as the parser expects", "statement": "For each user value the injected raw forms are the lower-cased value, its stemmed form, or both without duplicates, according to the parser's declared usage, and the resolved value is always the text given by the user; no value is lost.", "quantifier": "every value list, usage mode and stemmer", "why_tests_cant": "All values and modes.", "anchors": ["src/injection/injection.rs: normalize_entity_value, stem_entity_value", "src/entity_parser/custom_entity_parser.rs: CustomEntityParserUsage"]}
{"id": "C47", "title": "Archives are extracted inside the destination", "statement": "Loading an engine from an archive writes only below the destination directory whatever entry names the archive contains, and the engine is loaded from a directory below it.", "quantifier": "every archive (any number of entries and any names)", "why_tests_cant": "Adversarial entry names cannot be enumerated.", "anchors": ["src/utils.rs: extract_nlu_engine_zip_archive"]}
{"id": "C48", "title": "Archive extraction never panics", "statement": "A malformed archive leads to an error value, never to a panic.", "quantifier": "every archive", "why_tests_cant": "Adversarial archives cannot be enumerated.", "anchors": ["src/utils.rs: extract_nlu_engine_zip_archive (File::create(..).unwrap())"]}
{"id": "C49", "title": "Only models of the supported version are loaded", "statement": "Loading succeeds only if the model's version is exactly the supported one; otherwise the error reports both versions and nothing else of the model is read; each processing unit is only accepted where its kind is expected.", "quantifier": "every model directory content", "why_tests_cant": "All version strings and unit kinds.", "anchors": ["src/nlu_engine.rs: from_path, check_model_version, load_intent_parsers", "src/intent_parser/mod.rs: build_intent_parser", "src/models/processing_unit_metadata.rs"]}
{"id": "C50", "title": "Word cluster lookup returns what the file says", "statement": "The cluster of a word is that of the last record whose word has the same hash, independently of whether numeric or textual storage is used; words without record have none; textual cluster names are returned unchanged.", "quantifier": "every cluster file, every word", "why_tests_cant": "The storage switch happens at an arbitrary record.", "anchors": ["src/resources/word_clusterer.rs: from_reader, get_cluster"]}
{"id": "C51", "title": "Gazetteer and stemmer lookups", "statement": "Every word listed in a gazetteer is reported as contained; a word is reported only if it collides with a listed one; stem returns the stem of the last record for the word's normalised form, and the word itself when there is none.", "quantifier": "every resource file, every word", "why_tests_cant": "All file contents and words.", "anchors": ["src/resources/gazetteer.rs", "src/resources/stemmer.rs"]}
{"id": "C52", "title": "Stop-word whitelists are honoured", "statement": "For each intent a stop word that is whitelisted for it is never ignored when matching that intent, every other stop word is, and with stop-word handling disabled none is ignored.", "quantifier": "every stop word set, whitelist table and intent", "why_tests_cant": "All sets and intents.", "anchors": ["src/intent_parser/deterministic_intent_parser.rs: new", "src/intent_parser/lookup_intent_parser.rs: new, preprocess_text"]}
{"id": "C53", "title": "C API contract", "statement": "Through the C interface a call writes its result pointer exactly when it reports success; a null filter means no filter; calls on a shared engine are serialised; results equal those of the native call.", "quantifier": "every history of C calls with any arguments", "why_tests_cant": "All call histories and argument shapes.", "anchors": ["ffi/src/lib.rs"]}
{"id": "C54", "title": "Probabilistic parser composition", "statement": "The probabilistic parser returns the classifier's best intent under the filter with the slots of that intent's own slot filler, no intent exactly when the classifier abstains, and an error for an intent without slot filler.", "quantifier": "every classifier and slot filler behaviour, input and filter", "why_tests_cant": "All component behaviours.", "anchors": ["src/intent_parser/probabilistic_intent_parser.rs"]}
{"id": "C55", "title": "Byte/character conversions are consistent", "statement": "Converting a byte range on character boundaries to a character range and cutting characters gives the same text as cutting the bytes.", "quantifier": "every UTF-8 text and boundary-aligned range", "why_tests_cant": "All Unicode texts.", "anchors": ["src/intent_parser/deterministic_intent_parser.rs: get_matching_result (convert_to_char_range)", "src/slot_filler/crf_utils.rs: tags_to_slots"]}
{"id": "C56", "title": "Loading from an archive", "statement": "Loading an engine from an archive of a directory gives exactly what loading the directory gives; nothing outside the temporary directory changes, whatever the archive and whatever fails; and when the temporary directory can be removed, the disk ends up as it was, even after an error or a panic.", "quantifier": "every archive, directory, disk, temporary location and sequence of disk failures", "why_tests_cant": "All archives and failure points.", "anchors": ["src/nlu_engine.rs: from_zip", "src/utils.rs: extract_nlu_engine_zip_archive"]}
{"id": "C57", "title": "Engines can be moved and loading stays inside the engine directory", "statement": "Two directories with the same contents load alike wherever they are, reading the same files in the same order; every file read is below the engine directory; what is outside has no influence. This holds when the names in the model files are relative and free of '..'.", "quantifier": "every disk, directory, model files with plain names", "why_tests_cant": "All directory contents and locations.", "anchors": ["src/nlu_engine.rs: from_path", "src/resources/loading.rs", "src/intent_parser/*: from_path", "src/intent_classifier/*: from_path", "src/slot_filler/*: from_path"]}
{"id": "C58", "title": "A well-formed model never panics", "statement": "Every call of the engine (parse, get_intents, get_slots, extract_slot, with or without alternatives) answers with a result or an error and never panics, whatever the text, filters, names and cache history, provided the tables of the model refer to existing entries (intent and slot numbers, regex groups, vocabulary weights, word pairs), windows and n-gram sizes are not of the order of 2^64, the extractors, tokenizer and tagger are sane, scores are numbers, and the build is a release build (in a debug build: the text must be short enough for the 16-bit arithmetic and must not contain a placeholder).", "quantifier": "every engine made of any number of parsers with well-formed tables, every input text, filter, intent, slot, number of alternatives, history of previous calls", "why_tests_cant": "All texts (including those containing placeholders or odd Unicode) against all well-formed models.", "anchors": ["src/nlu_engine.rs", "src/intent_parser/lookup_intent_parser.rs", "src/intent_parser/deterministic_intent_parser.rs", "src/intent_parser/probabilistic_intent_parser.rs", "src/intent_classifier/featurizer.rs", "src/slot_filler/crf_slot_filler.rs", "src/slot_filler/crf_utils.rs", "src/slot_filler/features.rs", "src/entity_parser/custom_entity_parser.rs"]}
{"id": "C59", "title": "The configured features are the ones computed", "statement": "A slot filler with a list of feature configurations computes exactly the features that these configurations describe, in order, each with its offsets: every argument must be there with the right type, every named gazetteer, stemmer, cluster and entity must exist; otherwise loading answers with an error and never panics. Tagging schemes have codes 0 (IO), 1 (BIO), 2 (BILOU) and nothing else is a scheme.", "quantifier": "every list of configurations, arguments, resources and codes", "why_tests_cant": "All configurations, including ill-typed and missing arguments.", "anchors": ["src/slot_filler/features.rs", "src/slot_filler/features_utils.rs", "src/slot_filler/feature_processor.rs", "src/slot_filler/crf_utils.rs: TaggingScheme::from_u8"]}
{"id": "C60", "title": "A loaded engine is what its files say", "statement": "When loading succeeds, every part of the engine is the one described by its files: the dataset, the resources (stemmer, gazetteers, clusters, stop words: exactly the non-empty lines), the extraction engines, and the parsers in the listed order with their tables, regular expressions in order, vocabulary, weights, coefficients, features, tagger, each vectorizer and slot filler with the text functions of its own language, and for each intent the last slot filler listed for it. A resource without dots in its name is read from that name with '.txt'.", "quantifier": "every directory, disk and decoder of the files", "why_tests_cant": "All models and directory contents.", "anchors": ["src/nlu_engine.rs: from_path", "src/resources/loading.rs", "src/intent_parser/*: from_path, new", "src/intent_classifier/*: from_path, new", "src/slot_filler/*: from_path, new"]}
{"id": "C61", "title": "Loading succeeds exactly when the files are there", "statement": "An engine is loaded from a directory if and only if the directory contains every file named by the model, each decodes, every language, kind, resource and scheme it refers to exists, and the version is the expected one. Loading never panics if every class of the classifier has its coefficients and no file of word clusters begins with a word without cluster.", "quantifier": "every directory, disk and decoder of the files", "why_tests_cant": "All directory contents, including incomplete and malformed ones.", "anchors": ["src/nlu_engine.rs: from_path", "src/resources/loading.rs", "src/intent_parser/*: from_path, new", "src/intent_classifier/*: from_path, new", "src/slot_filler/*: from_path, new"]}
{"id": "C62", "title": "The deterministic parser reads a sentence as its patterns say", "statement": "The deterministic parser recognises an intent exactly when one of the patterns of this intent matches the sentence, as it is or with the entities of the intent replaced by placeholders, stop words blanked. The first such pattern decides, on the plain sentence if it matches it. The slots are then the named groups of the match: each has the slot name of its group, the entity declared for the intent, the text of the input at its range; among overlapping groups the larger ones are kept. The entities looked for are exactly those declared for the slots of the intent.", "quantifier": "every parser, extraction engine, sentence, intent, filter and regular expression", "why_tests_cant": "All patterns, sentences and entity matches.", "anchors": ["src/intent_parser/deterministic_intent_parser.rs: parse, _get_intents, get_matching_result, preprocess_text", "src/intent_parser/deterministic_intent_parser.rs: new"]}
{"id": "C63", "title": "An engine's answers do not depend on hash iteration order", "statement": "Whatever order the hash maps and sets used during a call are iterated in, parsing a text, asking for the slots of an intent and ranking the intents give the same answer: the same result of parse and get_slots, the same intents with the same scores in the ranking, and the same alternatives unless intents of equal score compete for the last places.", "quantifier": "every engine made of lookup, deterministic and probabilistic parsers, every input, filter, number of alternatives and every two iteration orders (rule-based parsers: exact arithmetic; deterministic ones: inputs and matches in the range of C18)", "why_tests_cant": "Iteration orders are drawn at random for every hash map at run time; a test sees a few of them and cannot control them.", "anchors": ["src/nlu_engine.rs: parse_with_alternatives, get_intents, get_slots_with_alternatives, get_intents_whitelist", "src/intent_parser/lookup_intent_parser.rs: parse_top_intents", "src/intent_parser/deterministic_intent_parser.rs: parse_top_intents, get_range_shift", "src/intent_classifier/featurizer.rs: TfidfVectorizer::transform, CooccurrenceVectorizer::transform"]}
{"id": "C64", "title": "Entity ranges refer to the user's own text", "statement": "Entities are looked for in the lower-cased text but their ranges are used in the text of the user: the range of every entity found lies in the user's text, and what was found is the lower-case form of the user's text at that range (hence so is the raw value of every slot of the lookup parser).", "quantifier": "every text, extraction request, answer of the extraction engines; every lower-casing that replaces each character by a form, possibly depending on context", "why_tests_cant": "Only texts with characters whose lower-case form has another length are affected; tests use ASCII texts.", "anchors": ["src/entity_parser/builtin_entity_parser.rs: CachingBuiltinEntityParser::extract_entities", "src/entity_parser/custom_entity_parser.rs: CachingCustomEntityParser::extract_entities, _extract_entities", "src/intent_parser/lookup_intent_parser.rs", "src/intent_parser/deterministic_intent_parser.rs"]}
{"id": "C65", "title": "Resource files mean what is written in them", "statement": "A gazetteer contains exactly the non-empty lines of its file (up to hash collisions) and the stop words are exactly the non-empty lines of theirs. In a file of stems each line that is not empty is a stem followed by its words, in a file of word clusters a word followed by its cluster; the last line about a word counts. A file that is not UTF-8 is refused. A file of clusters whose lines have different numbers of fields is refused. Reading panics exactly on a file of clusters whose first line is a word alone.", "quantifier": "every sequence of bytes of a file", "why_tests_cant": "All byte sequences, including line endings of every kind, characters of several bytes and malformed encodings.", "anchors": ["src/resources/gazetteer.rs: from_reader", "src/resources/stemmer.rs: from_reader", "src/resources/word_clusterer.rs: from_reader", "src/resources/loading.rs: load_stop_words"]}
{"id": "C66", "title": "Model files are accepted exactly if they describe a model", "statement": "For each kind of model file (engine, version, unit metadata, resources, custom entity parser, lookup, deterministic and probabilistic parser, intent classifier, featurizer, tf-idf and co-occurrence vectorizer, slot filler) a JSON document is decoded exactly if it has the required fields with values of the right kinds: required fields present (also those that are not used afterwards), optional fields present, null or absent, fields with a default possibly absent, no known field repeated. The decoded value is the one the document describes; in tables the last entry of a key counts and integer keys are numerals in range. The order of fields and unknown fields do not matter. Decoding never panics.", "quantifier": "every JSON document", "why_tests_cant": "All documents, including malformed, reordered and extended ones; tests only load well-formed models.", "anchors": ["src/models/nlu_engine.rs", "src/models/intent_parser.rs", "src/models/intent_classifier.rs", "src/models/slot_filler.rs", "src/models/processing_unit_metadata.rs", "src/resources/loading.rs: ResourcesMetadata", "src/entity_parser/custom_entity_parser.rs: CustomEntityParserMetadata, CustomEntityParserUsage"]}
{"id": "C67", "title": "An intent's score combines the terms and word pairs of the sentence with the model's weights", "statement": "The feature vector is the tf-idf vector followed by the co-occurrence vector. In exact arithmetic the score of a class is the logistic function of its intercept, plus its weights for the terms times the normalised tf-idf vector of the words of the sentence, plus the sum of its weights for exactly those word pairs of the model that co-occur in the sentence; the weights for terms come first in the row of the class. The classifier's ranking pairs each intent of the model with the score of its own row.", "quantifier": "every model, sentence, answer of the entity parsers and (for the ranking) arithmetic", "why_tests_cant": "Relates the whole pipeline from sentence to score for all models and sentences; tests compare a few numbers.", "anchors": ["src/intent_classifier/featurizer.rs: Featurizer::transform", "src/intent_classifier/logreg.rs: run", "src/intent_classifier/log_reg_intent_classifier.rs: from_path, get_intents_with_whitelist"]}
{"id": "C68", "title": "The deterministic parser's slots are what its patterns captured, in the user's own text", "statement": "Every slot of an intent returned by the deterministic parser, or asked for with get_slots, comes from a named group of a pattern of this intent: it has the slot name of the group and the entity declared for it. If the group captured text of the sentence as typed, the slot has the range and the text of what was captured (up to blanked stop words). If it captured a whole placeholder, the slot has the range and the text of the entity in the user's text; if it captured plain text of the sentence with placeholders, the slot is this text at its place in the user's text, outside the entities.", "quantifier": "every parser, sentence (placeholders ending before position 2^15, see C18), filter, hash order and answer of the entity parsers", "why_tests_cant": "Byte offsets in a blanked and rewritten text are mapped back to the user's text for all Unicode sentences and numbers of entities.", "anchors": ["src/intent_parser/deterministic_intent_parser.rs: get_matching_result, preprocess_text, get_range_shift", "src/utils.rs: replace_entities"]}
{"id": "C69", "title": "What the tagger says is what the slots are", "statement": "Tags are exchanged with the CRF tagger as base64 of their UTF-8 bytes, which is pure ASCII and is decoded back to the same tag. If the tagger labels the tokens of a sentence with the encoded tags of a segmentation, the slot filler answers exactly that segmentation: names, mapped entities, character ranges and the text there. For any other answer the slots are disjoint token spans covering exactly the tokens not tagged as outside. When a probability is asked, only labels the tagger itself has are handed to it.", "quantifier": "every tag (any Unicode text), every sentence, segmentation, tagger, feature set and tagging scheme", "why_tests_cant": "Tests use a few ASCII slot names; the round trip and the composition of tagging, decoding and cutting must hold for all names, sentences and tagger answers.", "anchors": ["src/slot_filler/crf_slot_filler.rs: get_slots, get_sequence_probability, encode_tag, decode_tag"]}
{"id": "C70", "title": "Infinite scores and scores that are not a number", "statement": "A confidence score is a finite number between 0 and 1 for every linear score that is a number, be it infinite (1 and 0), and is not a number exactly when the linear score is not one. Ranking the intents panics exactly when two or more results are kept by the filter and one of their scores is not a number; otherwise the kept results are returned by decreasing score. With finite coefficients and features whose products are in range, summed one after the other, no score is NaN. A coefficient beyond f32 in the model file becomes infinite, and makes the classifier panic on sentences without its feature.", "quantifier": "every f32 vector with infinities and NaN, every rounding, exponential and square root, every classifier, sentence and filter", "why_tests_cant": "NaN and overflow arise only for extreme coefficients; no finite set of sentences shows that sound models never reach the unwrap of partial_cmp.", "anchors": ["src/intent_classifier/log_reg_intent_classifier.rs: get_intents_with_whitelist", "src/intent_classifier/logreg.rs: run, logit", "src/intent_classifier/featurizer.rs: normalize"]}
{"id": "C71", "title": "Python programs get the native answers", "statement": "Whatever a Python program does with the engines it holds (make, ask, release), it gets a value, an exception with the message of the library, or the panic of the library; never undefined behaviour. A question is answered with the JSON of the native answer to the same question, provided no text holds a null character and the numbers fit in 32 bits; all memory lent to the library is taken back and every answer and message released.", "quantifier": "every sequence of calls, text, filter, number, engine, file system and error message", "why_tests_cant": "A leak, a double release or a wrong argument shows up only for particular sequences and errors; tests call each method once on sound arguments.", "anchors": ["platforms/python/snips_nlu_rust/nlu_engine.py: NLUEngine", "platforms/python/snips_nlu_rust/utils.py: string_array_pointer, string_pointer, check_ffi_error, bytes_pointer", "ffi/src/lib.rs"]}
{"id": "C72", "title": "Kotlin programs get the native answers", "statement": "A question put through the Kotlin wrapper is answered by the native answer to it (as structure or as JSON), errors become exceptions with the message of the library, all memory is given back, close releases exactly the engine.", "quantifier": "every text, filter, number, engine, behaviour of the garbage collector and of the conversion", "why_tests_cant": "Whether strings in the filter array survive a collection depends on the collector; tests never see it.", "anchors": ["platforms/kotlin/src/main/kotlin/ai/snips/nlu/NluEngine.kt: NluEngine, LibSnipsNlu"]}
{"id": "C73", "title": "Swift programs get the native answers", "statement": "A question put through the Swift wrapper is answered by the native answer, errors are thrown with the message of the library, all memory is given back, deinit releases exactly the engine.", "quantifier": "every text, filter, number, engine, file system and error message", "why_tests_cant": "Leaks on error paths and the reading of unset pointers are invisible to tests of return values.", "anchors": ["platforms/swift/SnipsNlu/SnipsNlu/NluEngine.swift: NluEngine"]}
{"id": "C74", "title": "Swift structures say what the native answer says", "statement": "Every value, slot, intent and alternative of the native answer is represented in Swift by one with the same contents; different values have different representations.", "quantifier": "every parse result and every ontology value (texts, numbers, ordinals, times, intervals, money, temperature, duration, percentage, music, places)", "why_tests_cant": "Each kind of value has its own conversion; tests have no sample of each kind, let alone of each combination.", "anchors": ["platforms/swift/SnipsNlu/SnipsNlu/NluEngine.swift: SlotValue, TimeIntervalValue, Slot, IntentParserResult", "platforms/c/libsnips_nlu.h"]}
{"id": "C75", "title": "Threads sharing one CRF slot filler do not see each other's features", "statement": "The tagger keeps the features it was last given. Under every interleaving of calls of get_slots and get_sequence_probability on one slot filler, a call that ends gives the answer it gives alone; the only exception is the error for a poisoned mutex, after a call that panics even alone. One thread at a time is inside the tagger, there is no deadlock with the caches of the entity parsers, and every schedule ends.", "quantifier": "every number of threads, calls, schedule, initial state of the tagger and of the caches, tagger", "why_tests_cant": "A call answered with the features of another one needs a particular schedule; tests use one thread.", "anchors": ["src/slot_filler/crf_slot_filler.rs: get_slots, get_sequence_probability", "src/slot_filler/mod.rs: SlotFiller (Send + Sync)"]}
{"id": "C76", "title": "Only the set of allowed intents matters", "statement": "Two pairs of lists of allowed and forbidden intents which allow the same trained intents lead to the same answer with the same alternatives; in particular a list of allowed intents is as good as the list of the forbidden others.", "quantifier": "every engine whose parsers know only the trained intents, input, pair of lists (absent, repeated, reordered), numbers of alternatives, hash order and entity parsers", "why_tests_cant": "There are many ways to write one set of intents; tests use one or two.", "anchors": ["src/nlu_engine.rs: get_intents_whitelist, parse_with_alternatives", "src/intent_parser/deterministic_intent_parser.rs: parse_top_intents", "src/intent_parser/lookup_intent_parser.rs: parse_top_intents", "src/intent_classifier/log_reg_intent_classifier.rs: get_intent"]}
{"id": "C77", "title": "Forbidding other intents does not change the answer", "statement": "If the answer to a sentence is an intent, and a stricter pair of lists of allowed and forbidden intents still allows this intent, then the answer is still this intent, with the same slots and no less confidence.", "quantifier": "every parser, every engine, input, pair of lists, rounding and entity parsers", "why_tests_cant": "The claim relates two calls; forbidding an intent can only be tested for the few intents and sentences of a test, and needs a parser that hesitates to go wrong.", "anchors": ["src/nlu_engine.rs: parse_with_alternatives", "src/intent_parser/deterministic_intent_parser.rs: parse_top_intents", "src/intent_parser/lookup_intent_parser.rs: parse_top_intents, get_candidates", "src/intent_parser/probabilistic_intent_parser.rs: parse"]}
{"id": "C78", "title": "get_slots of the answer's intent gives the answer's slots", "statement": "If the answer of parse to a sentence is an intent with some slots, then get_slots for that sentence and that intent gives the same slots.", "quantifier": "every parser, every engine, input, pair of lists, rounding and entity parsers", "why_tests_cant": "The two calls go through different loops over the parsers; tests compare them on one or two sentences.", "anchors": ["src/nlu_engine.rs: parse_with_alternatives, get_slots_with_alternatives", "src/intent_parser/deterministic_intent_parser.rs: get_slots", "src/intent_parser/lookup_intent_parser.rs: get_slots", "src/intent_parser/probabilistic_intent_parser.rs: get_slots"]}
{"id": "C79", "title": "Model files are read as RFC 8259 says", "statement": "A file is read as a JSON document exactly if it is UTF-8 and its text, in the grammar of RFC 8259 with at most 127 nested arrays and objects, denotes that document; no text denotes two documents; a document that is written is read back.", "quantifier": "every byte sequence, document and conversion of numbers", "why_tests_cant": "There are infinitely many texts; the parser is recursive, with escapes, surrogate pairs, exponents and a limit of recursion.", "anchors": ["src/nlu_engine.rs: from_path", "src/intent_parser/deterministic_intent_parser.rs: from_path", "src/intent_classifier/log_reg_intent_classifier.rs: from_path", "src/slot_filler/crf_slot_filler.rs: from_path", "src/models/*"]}
{"id": "C80", "title": "The JSON of an answer shows the answer", "statement": "What the C interface writes for a result, for slots and for intents, and what Python's parse, get_slots and get_intents decode, is a JSON text without null byte that denotes a document which has the answer in it, entry by entry; different results have different JSON.", "quantifier": "every engine, input, answer with machine numbers, value of a slot, text of numbers that is read back, meaning of built-in values", "why_tests_cant": "Inputs and values can hold any character, quotes and control characters included; tests compare two or three dictionaries.", "anchors": ["ffi/src/lib.rs: run_parse_into_json, run_get_slots_into_json, run_get_intents_into_json, point_to_string", "platforms/python/snips_nlu_rust/nlu_engine.py: parse, get_slots, get_intents"]}
{"id": "C81", "title": "The lookup parser reads a sentence as its table says", "statement": "An intent that the lookup parser returns is one the table says: the sentence is cut into plain pieces and some of the entities kept for a group of intents, the entities become placeholders, the table has an entry for this text without the stop words of a permitted intent of the group, the entry is of this intent, and the slots are the entities in order under the names of the entry. Every reading with another intent has more slots. If the table says one intent only it is returned with confidence 1; if it says none, or two with the same least number of slots, none is returned.", "quantifier": "every table whose entries name existing intents and slots, sentence, filter, extractor that finds non-empty entities inside the sentence, rounding and iteration order", "why_tests_cant": "Choices among overlapping entities, groups, stop words per intent and combinations of entities multiply; tests have two intents and short sentences.", "anchors": ["src/intent_parser/lookup_intent_parser.rs: parse, parse_top_intents, get_candidates, get_all_entities, parse_map_output, preprocess_text, replace_entities_with_placeholders", "src/utils.rs: deduplicate_overlapping_entities"]}
{"id": "C82", "title": "What a Python program is told is what the model files say", "statement": "In a Python program that makes engines, asks them questions, catches exceptions, releases engines and sees its files change, a question to an engine it still holds is answered by an engine that the files of the directory described when it was made (or that the archive contained): parse, get_slots and get_intents return UTF-8 JSON that denotes the answer of that engine at the time of the question, raise its error, or panic as it does, whatever was asked before. An engine can be made from a directory exactly if the files describe one, and the engine file is then a JSON text that describes the dataset and the parsers.", "quantifier": "every program, sequence of calls, directory and archive, change of the disk between calls, time, iteration order, question without null characters; extractors whose matches do not depend on the time and that do not panic", "why_tests_cant": "A call depends on all calls before it through the entity caches, the error slot and the addresses of engines; tests make one engine and ask it a few questions.", "anchors": ["platforms/python/snips_nlu_rust/nlu_engine.py: NLUEngine", "platforms/python/ffi/src/lib.rs", "ffi/src/lib.rs", "src/nlu_engine.rs: from_path, parse_with_alternatives, get_intents, get_slots_with_alternatives", "src/entity_parser: caches"]}
{"id": "C83", "title": "An engine's answer is what the sentence means to one of its parsers", "statement": "If an engine answers with an intent, there is a parser to which the sentence means this intent: its table says so, or the patterns of the intent recognise the sentence, or its classifier gives the intent the greatest score among the permitted ones and the absent one; and the intent is permitted. The slots returned are those of this meaning (entities of the entry, named groups of the pattern, spans marked by the tagger from the features of the tokens), each resolved to the entity found at its place, else to the one found in its text, else, for extensible entities, to its text; slots that do not resolve are left out, the order is kept. No earlier parser with a table or patterns takes the sentence to mean one permitted intent only. If the first parser to which the sentence means anything is such a one and takes it to mean one intent only, this is the answer with confidence 1; if the sentence means nothing to any parser there is no intent. The slots of get_slots and of the alternatives are those of a parser's meaning for the intent asked.", "quantifier": "every engine made of lookup, deterministic and probabilistic parsers with sound tables and taggers that answer one tag per token, extractor, sentence, filters, numbers of alternatives, rounding and iteration order", "why_tests_cant": "The answer is the composition of three parsers, entity extraction, stop words, placeholders, tags and resolution; tests check a few sentences against recorded answers.", "anchors": ["src/nlu_engine.rs: parse_with_alternatives, get_slots_with_alternatives, resolve_slots", "src/intent_parser/lookup_intent_parser.rs", "src/intent_parser/deterministic_intent_parser.rs", "src/intent_parser/probabilistic_intent_parser.rs", "src/intent_classifier/log_reg_intent_classifier.rs", "src/slot_filler/crf_slot_filler.rs"]}
{"id": "C84", "title": "The confidences of the rule-based parsers in single precision", "statement": "Every f32 operation yields the binary32 number nearest to the exact result, the even one of two equally near, and an infinity exactly from half a step beyond the largest number on; this number is unique. Computed with such numbers, infinities and NaN included, the weights, their sum and the confidences of the lookup and deterministic parsers are the numbers obtained by rounding to 24 significant bits: no infinity, NaN, underflow or panicking comparison occurs, and parse answers accordingly. Whether parse answers at all can depend on the hash order when a match has exactly half of the weight.", "quantifier": "every table or set of patterns with fewer than 2^64 slots per entry or groups per pattern, text, filter, iteration order and extractor", "why_tests_cant": "Tests compare a few confidences with tolerances; they do not reach sums of many weights, and the iteration order differs from run to run.", "anchors": ["src/intent_parser/lookup_intent_parser.rs: parse, parse_top_intents", "src/intent_parser/deterministic_intent_parser.rs: parse, parse_top_intents"]}
{"id": "C85", "title": "Single precision decides like exact arithmetic unless a share is nearly one half", "statement": "A match of a rule-based parser has weight 1/(1+slots); its share is its weight over the sum of the weights of all matches. If no share is within (k+7)/2^24 of one half, k being the number of matches, then the parser, computing in f32, returns the match whose share exceeds one half, or no intent if there is none, with a confidence that equals the share up to the factor 1-(k+7)/2^24; intent and slots then do not depend on the hash order. Without the condition they can.", "quantifier": "every table with fewer than 2^21 slots per entry, or set of patterns, text, filter and iteration orders", "why_tests_cant": "The order of a hash map changes between runs, and the sums that differ by one unit in the last place are rare.", "anchors": ["src/intent_parser/lookup_intent_parser.rs: parse, parse_top_intents", "src/intent_parser/deterministic_intent_parser.rs: parse, parse_top_intents"]}
{"id": "C86", "title": "Machine arithmetic on positions never goes wrong on texts of less than 2^29 characters", "statement": "Positions, shifts, offsets and sort keys are computed in i32, ends of n-grams in usize: casts keep the low 32 bits, an operation whose result does not fit panics with overflow checks and wraps around without. For a sentence of less than 2^29 characters the custom entities found, for less than 2^31 tokens the features (without overflow checks for any i32 offsets and any 64-bit sizes of n-grams, with them if no offset is as low as the number of tokens less 2^31 and no size of a shape n-gram above 2^64 less the number of tokens), for entities shorter than 2^31 the choice among overlapping ones, and for texts (with and without placeholders) of less than 2^30 characters the whole answer of the deterministic parser are exactly those computed with unbounded integers.", "quantifier": "every text within the bounds, tokenizer, gazetteer, model, filter, iteration order, and both kinds of build", "why_tests_cant": "A test would need texts of hundreds of megabytes or hand-made model files with extreme offsets.", "anchors": ["src/entity_parser/custom_entity_parser.rs: _extract_entities, compute_char_shifts", "src/slot_filler/feature_processor.rs: compute_features", "src/utils.rs: deduplicate_overlapping_entities", "src/intent_parser/deterministic_intent_parser.rs: get_matching_result, get_range_shift, deduplicate_overlapping_slots", "src/slot_filler/features.rs: NgramFeature::compute, ShapeNgramFeature::compute"]}
{"id": "C87", "title": "A trained pattern recognises exactly the sentences made of its words and placeholders, and its groups become the slots", "statement": "The patterns of trained models are made of white space, characters and named groups around placeholders. Their text determines these pieces. If the regular expression engine does what such patterns say, then a loaded parser recognises an intent exactly if the sentence, stop words blanked, follows one of its patterns from beginning to end (up to case and white space), as typed or with its entities replaced by placeholders. A sentence follows a pattern in one way only. When the first pattern it follows does so with placeholders, the answer has exactly one slot per group, in order, each being the entity as the user typed it, named and typed by the model.", "quantifier": "every set of trained patterns, tokenizer, entity parsers, sentence, stop words, iteration order, rules for case and white space", "why_tests_cant": "Tests use a handful of patterns and sentences.", "anchors": ["src/intent_parser/deterministic_intent_parser.rs: compile_patterns, parse_top_intents, get_matching_result", "data/tests/models/*/deterministic_intent_parser/intent_parser.json"]}
{"id": "C88", "title": "Threads sharing an engine, its caches, its taggers and an advancing clock get the answers they get alone", "statement": "Several threads call the operations of one engine (parse with alternatives, intents, slots, extraction of one slot). They share the two entity caches, the taggers of all slot fillers, each behind a mutex, and a clock that may advance at any point, also within a call. Whatever the schedule, a call that ends was answered what the engine without caches and without state in its taggers answers, its resolved values being taken at times in order between the beginning of the call and its end; every such answer can happen; if the builtin parser answers the same throughout the call, it is the answer at the time of its beginning. Exception: after a thread panicked inside a tagger, other calls may end with the error of a poisoned mutex. At most one thread is inside each cache and tagger, there is no deadlock, and no schedule runs forever. A single call may combine values of different times, when it asks for alternatives.", "quantifier": "every engine (dataset, parsers, taggers), set of threads and calls, schedule, advance of the clock, cache capacity, features left in the taggers, extractor", "why_tests_cant": "Schedules and clocks cannot be enumerated; tests run one thread.", "anchors": ["src/nlu_engine.rs: parse_with_alternatives, get_intents, get_slots_with_alternatives, extract_slot_with_alternatives", "src/slot_filler/crf_slot_filler.rs: get_slots", "src/entity_parser/builtin_entity_parser.rs, custom_entity_parser.rs: extract_entities"]}
{"id": "C89", "title": "When an engine cannot be loaded for want of a file, the messages of the error name the file", "statement": "If loading an engine fails behind a path where there is no file, one of the messages of the error contains the path, plain or quoted; for the metadata of an intent parser the name of the parser is enough. A model of another version is reported with both versions. The messages do not change what is loaded or which files are read.", "quantifier": "every directory, file system, behaviour of dependencies, quoting of paths", "why_tests_cant": "Each missing file of each possible model would have to be tried; existing tests load complete models, or check one message.", "anchors": ["src/nlu_engine.rs: from_path, check_model_version, load_model, load_intent_parsers", "src/resources/loading.rs", "src/errors.rs", "src/slot_filler/crf_slot_filler.rs: from_path", "src/intent_classifier/featurizer.rs: from_path"]}
{"id": "C90", "title": "An engine loaded after an injection is the former engine with the values injected in its entity parsers", "statement": "If an injection succeeds and the parser directory of each entity is its own, loading the engine again succeeds and gives the same intent parsers, dataset metadata, tokenization and matching language; its entity parsers are the former ones, in the same order, where each entity with requested values has the values (and, with a stemmer, their stems) injected once with prepending as the code asks, and every other entity is untouched.", "quantifier": "every engine directory, file system, request, iteration order, behaviour of dependencies that load one parser per listed directory", "why_tests_cant": "A test would have to inject into every kind of model and compare whole engines; existing tests check one value of one entity.", "anchors": ["src/injection/injection.rs: inject", "src/nlu_engine.rs: from_path", "src/entity_parser/custom_entity_parser.rs: from_path"]}
{"id": "C91", "title": "Injections one after another add up, can be split by entities and made in any order", "statement": "After any number of successful injections the engine loaded is the trained one with all values injected, request by request, with the stems of the trained model. A request can be split by entities: the parts succeed one after the other exactly if the whole does, and leave the same disk. Requests for different entities can be made in any order.", "quantifier": "every engine directory, file system, list of requests, iteration order, behaviour of dependencies that load one parser per listed directory", "why_tests_cant": "Tests would have to compare whole disks over all ways of splitting and ordering requests; existing tests make one injection.", "anchors": ["src/injection/injection.rs: inject", "src/nlu_engine.rs: from_path"]}
{"id": "C92", "title": "The classifier computes in single precision what its formula says, up to an explicit error", "statement": "With operations that give the nearest number of 24 binary digits, an exponential and a square root with bounded relative error and sums of products in any order, every feature is the exact one up to a factor near 1, every linear score has an error of at most ((1 + 2^-23)^(2n+6) - 1) times the sum of the absolute values of its summands for n features other than zero, and every score has an error of at most 2^-20 plus a quarter of that. The intent with the highest exact score is chosen if its lead exceeds the two errors.", "quantifier": "every sentence, model, extractor answers, hash order, order and grouping of summation, whitelist, approximation of exp and sqrt", "why_tests_cant": "Tests compare a few scores with recorded values at a tolerance; they neither bound the error for all models nor tell when a rounding error can change the chosen intent.", "anchors": ["src/intent_classifier/logreg.rs: run, logit", "src/intent_classifier/featurizer.rs: TfidfVectorizer::transform", "src/intent_classifier/log_reg_intent_classifier.rs: get_intents_with_whitelist"]}
{"id": "C93", "title": "The error of an injection says what went wrong and which parser may be damaged", "statement": "The error of a failed injection is one of: a document of the engine that cannot be opened or decoded, named by path, with the reason; the unknown language; an entity of the request that cannot be injected, named, with the right one of four reasons and nothing else; resources that cannot be loaded, with the engine directory and the messages of the loading; a missing stemmer, with the usage of stems; or a step on the parser of one requested entity, named, with the reason. In all but the last case nothing was written. After a failure, every requested parser is in its former or in its new state unless the first message says of its directory that it could not be removed or not be written.", "quantifier": "every engine directory, request, iteration order, interruption of writing operations, behaviour of dependencies and quoting of paths", "why_tests_cant": "Tests check one error per kind by its type; they do not relate the texts to the states in which the parsers are left, nor cover all ways of failing.", "anchors": ["src/injection/errors.rs: NluInjectionErrorKind", "src/injection/injection.rs: inject, get_entity_parsers_dirs, get_nlu_engine_info, get_builtin_parser_info, get_custom_parser_info, stem_entity_value", "src/resources/loading.rs: load_engine_shared_resources"]}
{"id": "C94", "title": "The classifier in binary32, with infinities, NaN, subnormals and overflow, gives the scores of exact arithmetic up to a stated error", "statement": "With inverse document frequencies between 2^-10 and 2^10, and intercepts and coefficients that are zero or of magnitude between 2^-40 and 2^40, the classifier computed in binary32 (rounding to the nearest with 24 bits, subnormal numbers below 2^-126, infinities above the largest number, NaN) fails only where exact arithmetic does: its features are finite numbers within a factor (1 + 2^-23)^(n/2+5) of the exact ones for n features other than zero and are zero exactly where these are; its scores are numbers between 0 and 1, off by at most the error of C92; the ranking does not panic, and the permitted intent whose exact score exceeds the others by more than the errors is the one chosen. Outside these magnitudes a single word may get the feature 0 or 2^-80 in place of 1.", "quantifier": "every model of ordinary magnitude, every text with fewer than 2^24 occurrences of words and fewer than 2^24 features, every world, iteration order, whitelist and order of additions in the scalar product", "why_tests_cant": "Tests compare a few scores with an epsilon; they cannot exclude an overflow, an underflow or a NaN for other models or texts.", "anchors": ["src/intent_classifier/logreg.rs: MulticlassLogisticRegression::run, logit", "src/intent_classifier/featurizer.rs: Featurizer::transform, TfidfVectorizer::transform", "src/intent_classifier/log_reg_intent_classifier.rs: get_intent, get_intents_with_whitelist"]}
{"id": "C95", "title": "The interactive program answers every line it reads", "statement": "The example program examples/interactive_parsing_cli.rs starts its loop exactly if its options are 64-bit numbers (or absent) and the files of the given directory describe an engine; otherwise it panics, before or after saying that it loads the engine. Then each round prints a prompt and a JSON text of several lines that denotes a document showing the engine's answer to the next line of the input, without the white space at its ends. It panics at the first line that is not UTF-8 or that the engine does not answer, with the earlier answers printed. The end of the input does not end it: it goes on answering the empty text.", "quantifier": "every command line, directory, input, number of rounds, time and iteration order of each round, engine whose libraries do not panic and find the same entities at all times", "why_tests_cant": "There is no test of the program; the endless loop at the end of the input needs an unbounded run.", "anchors": ["examples/interactive_parsing_cli.rs: main"]}
{"id": "C96", "title": "Asking for more alternatives only adds to the answer", "statement": "If a call with ni' intent alternatives succeeds, the call with fewer succeeds with the same intent and slots, and its alternatives are the first ones of the other's. If a call with more slot alternatives succeeds and the entity libraries, asked for more, only add alternatives after the others, then the call with fewer succeeds, with the same intents, slots, values and ranges, and the alternatives of each slot are the first ones of the other's. The same holds for get_slots_with_alternatives and extract_slot_with_alternatives.", "quantifier": "every engine (any parsers), query, filters, entity libraries, numbers of alternatives, iteration order of the hash containers", "why_tests_cant": "The tests check fixed numbers of alternatives on one dataset and never compare two calls.", "anchors": ["src/nlu_engine.rs: parse_with_alternatives, get_slots_with_alternatives, extract_slot_with_alternatives, resolve_slots", "src/slot_utils.rs: resolve_custom_slot, resolve_builtin_slot"]}
{"id": "C97", "title": "Queries on a complete model are answered; refusals say what is unknown", "statement": "If the parsers are well formed (C58), their tables are complete (every intent with slots has patterns, every intent of the classifier has a slot filler, the regression has a weight per feature, every tag names a slot, every entity of a slot is in the dataset metadata or builtin) and the entity libraries answer, then parse succeeds unless a list names an untrained intent, get_intents succeeds, get_slots succeeds for an intent that all parsers know, parse_with_alternatives succeeds when every ranked intent is known to all parsers, and extract_slot succeeds for a slot of the dataset. Otherwise the error names the unknown intent or slot; the only message ever put in front of it is \"Cannot resolve slots\", exactly when the slots of a parser's answer could not be resolved.", "quantifier": "every engine of the three kinds of parsers in any number and order, query, filters, number of alternatives, entity libraries, iteration order of the hash containers", "why_tests_cant": "The tests check a few successful queries and a few errors on one dataset; they cannot show that no other query fails.", "anchors": ["src/nlu_engine.rs: parse_with_alternatives, get_intents, get_slots_with_alternatives, extract_slot_with_alternatives, resolve_slots", "src/errors.rs", "src/intent_parser/probabilistic_intent_parser.rs: parse, get_slots", "src/slot_filler/crf_utils.rs: tags_to_slots", "src/intent_classifier/logreg.rs: run"]}
{"id": "C98", "title": "A release build gives the answers of a debug build", "statement": "Whatever a debug build answers, by a result or an error, a release build answers in the same way, for every call and, with the caches, for every sequence of calls; both load the same engine or give the same error from the same files, reading the same files in the same order. Apart from overflows of 32 and 64 bits, which are the subject of C86, where the release build answers and the debug build panics, either an entry of the lookup table that is hit has not as many slots as there are entities, or a placeholder ends beyond 2^15 characters in a text given to the deterministic parser.", "quantifier": "every engine of the three kinds of parsers, call, sequence of calls, state of the caches, entity libraries, iteration order of the hash containers, directory; for the exact condition of the deterministic parser sentences and placeholders of less than 2^15 characters", "why_tests_cant": "Tests are run in one kind of build, so they cannot compare the two; the panics of the debug build need sentences with typed placeholders or very long ones.", "anchors": ["src/intent_parser/lookup_intent_parser.rs: parse_map_output (debug_assert)", "src/utils.rs: replace_entities (i16 arithmetic)", "src/intent_parser/deterministic_intent_parser.rs: parse_top_intents", "src/intent_classifier/featurizer.rs: CooccurrenceVectorizer::transform"]}
{"id": "C99", "title": "An engine whose files agree with each other answers every query", "statement": "From a model directory whose files agree with each other (tables refer to existing lists, groups denote slots, intents have patterns and slot fillers, the coefficients have as many columns as there are features, tags name slots, entities exist) and with libraries that do what is expected of them, a release build loads an engine that answers every query with a result, neither an error nor a panic: each call by itself, any calls one after the other with the caches, and any calls at the same time under any schedule, where no thread is ever stuck and every schedule ends. The queries must name trained intents and slots of the dataset, and the windows and n-grams must be small enough for the text.", "quantifier": "every directory and content of the files, libraries (tokenizers, taggers, regular expressions, entity parsers), iteration order of the hash containers, sequence and schedule of calls, time, capacity of the caches", "why_tests_cant": "Tests load a few hand-made or trained models and make a few calls; they cannot show that the conditions on the files are enough for all texts and all interleavings.", "anchors": ["src/nlu_engine.rs: SnipsNluEngine::from_path, parse_with_alternatives, get_intents, get_slots_with_alternatives, extract_slot_with_alternatives", "src/intent_parser/*.rs: from_path", "src/intent_classifier/featurizer.rs: new", "src/slot_filler/crf_slot_filler.rs: from_path"]}
{"id": "C100", "title": "The time of a call changes resolved builtin values and nothing else", "statement": "If the ranges and kinds of builtin matches do not depend on the time, then neither does anything in an answer of the engine except the values and alternatives of slots of builtin entities: the intent, its score, the ranking of intents, the alternatives, the number, order, texts, ranges, entities and names of the slots, the values of custom slots and the errors are the same at all times, also when the clock advances during a call, when answers come from caches, and when other threads use the engine. What an intent parser answers does not depend on the time at all.", "quantifier": "every engine of the three kinds of parsers, external extractor with time-independent ranges and kinds, call, pair of times, sequence of calls at any times, cache capacities, threads, schedule and advance of the clock", "why_tests_cant": "A test fixes the clock or compares a call with itself at nearly the same time; it cannot exclude that a value depending on the time influences the classification or the slots.", "anchors": ["src/slot_utils.rs: resolve_builtin_slot, resolve_custom_slot", "src/nlu_engine.rs: parse_with_alternatives, resolve_slots, extract_builtin_slot", "src/intent_parser/lookup_intent_parser.rs: get_all_entities", "src/intent_parser/deterministic_intent_parser.rs: parse_top_intents", "src/intent_classifier/featurizer.rs: transform", "src/slot_filler/features.rs: BuiltinEntityMatchFeature"]}
{"id": "C101", "title": "Within the capacity of the caches nothing is extracted twice", "statement": "If, over a stretch of calls, the requests answered by the builtin parser are among no more distinct ones than the capacity of its cache, and likewise for the custom parser, then a request that has been answered in that stretch is not extracted again in it, whatever the calls before. What has not been answered since loading is extracted. In particular an engine call repeated at any time makes the same requests as the first time and extracts none of those that were answered.", "quantifier": "every external extractor that does not panic, capacity, calls before, stretch of calls, request; for repeated calls every engine, call and pair of times", "why_tests_cant": "A test with a counting extractor sees a few requests; it cannot cover eviction by every earlier use of the cache, nor every engine and every number of requests of a call.", "anchors": ["src/entity_parser/utils.rs: Cache::cache, try_cache", "src/entity_parser/builtin_entity_parser.rs: extract_entities", "src/entity_parser/custom_entity_parser.rs: extract_entities", "src/resources/loading.rs:48-51"]}
{"id": "C102", "title": "How many different things an engine asks about a query is bounded by its model", "statement": "All calls to an engine about one query together ask the caching builtin entity parser for no more different things (text, scope, alternatives) than the model has entity scopes, vectorizers and features for builtin entities, whatever the entity parsers answer and however long the query is; likewise for what the intent parsers ask of the caching custom parser. To resolve slots the engine makes at most one request more than there are slots. So when the cache has room for the model, each builtin request about a query that is answered is extracted once over any calls about it.", "quantifier": "every engine of the three kinds of parsers, query, answers of the entity parsers, calls, times, state of the caches; for the last part extractors that do not panic, calls before and capacity", "why_tests_cant": "A test with one model and some queries sees the requests of those; it cannot exclude that other answers or longer queries make more of them, which would evict entries of the cache during a call.", "anchors": ["src/intent_parser/lookup_intent_parser.rs: get_candidates, get_all_entities", "src/intent_parser/deterministic_intent_parser.rs: parse_top_intents", "src/intent_classifier/featurizer.rs: TfidfVectorizer::transform, CooccurrenceVectorizer::transform", "src/slot_filler/features.rs: CustomEntityMatchFeature, BuiltinEntityMatchFeature", "src/nlu_engine.rs: resolve_slots", "src/resources/loading.rs:48-51"]}
{"id": "C103", "title": "The number of texts looked up is bounded by a polynomial of the length of the query", "statement": "There is a polynomial, depending on the model, such that the number of candidates (text, entities) that the lookup parser considers for a query is at most its value at the length of the query.", "quantifier": "every lookup parser, query, filter and answers of the entity parsers", "why_tests_cant": "Tests have queries with a few entities, for which the number of candidates is small.", "anchors": ["src/intent_parser/lookup_intent_parser.rs: get_candidates, get_items_combinations"]}
{"id": "C104", "title": "What is found by its key is what was listed", "statement": "An intent returned by the lookup parser is that of a training sentence which is one of the readings of the query (some entities replaced by placeholders, stop words left out), with the slots of that sentence; a word contained in a gazetteer is one of its lines; a word that the stemmer changes is one of the words of its file.", "quantifier": "every function that makes keys, table made from any training sentences, query, filter, answers of the entity parsers, order of hash maps, resource files", "why_tests_cant": "Tables keep 32-bit keys in place of texts; two texts with the same key cannot be found by trying sentences, and no function with such values avoids them.", "anchors": ["src/intent_parser/lookup_intent_parser.rs: parse_top_intents", "src/resources/gazetteer.rs: contains", "src/resources/stemmer.rs: stem"]}
{"id": "C105", "title": "The names of intents are only names", "statement": "Give the intents of a trained engine other names, different ones for different intents, everywhere they occur in its files. Every call, with the intents it names renamed, then ends as before with the intents renamed: the same slots, scores, order and alternatives, the same errors (about the renamed intents) and the same entries in the caches.", "quantifier": "every renaming, model with any parsers, call or sequence of calls, filters, answers of the entity parsers and contents of the caches", "why_tests_cant": "Renamings and queries are unlimited, and a dependence on names (an order by name, a comparison with part of a name, a reserved name) shows only for particular names.", "anchors": ["src/nlu_engine.rs: parse_with_alternatives, get_intents, get_slots_with_alternatives, extract_slot_with_alternatives, get_intents_whitelist", "src/intent_parser/lookup_intent_parser.rs", "src/intent_parser/deterministic_intent_parser.rs", "src/intent_parser/probabilistic_intent_parser.rs", "src/intent_classifier/log_reg_intent_classifier.rs: get_intents_with_whitelist"]}
{"id": "C106", "title": "Threads sharing an engine do not extract the same thing twice", "statement": "When threads share an engine and the requests that are answered fit in the caches, a request that has been answered to one thread is not extracted again, neither for it nor for another one. Under every schedule the calls ask together what each of them asks alone, and the number of extractions is the same: one for each different request that is answered, and one each time for those that are not.", "quantifier": "every number of threads and calls, schedule, extractors that do not panic, contents of the caches left by former calls, capacity", "why_tests_cant": "The schedules cannot be enumerated, and two threads that find the cache without the same entry at the same moment meet too rarely to be observed.", "anchors": ["src/entity_parser/builtin_entity_parser.rs: extract_entities", "src/entity_parser/custom_entity_parser.rs: extract_entities", "src/entity_parser/utils.rs: try_cache"]}
{"id": "C107", "title": "What Swift and Kotlin programs are told is what the model files say", "statement": "In a Swift or Kotlin program that makes engines, asks them questions, catches errors, releases engines and sees its files change, a question to an engine it still holds is answered by an engine that the files of the directory described when it was made (or that the archive contained): the structures of Swift, the JSON and the converted structures of Kotlin say what this engine answers at the time of the question; its errors are thrown and its panics are panics, whatever was asked before. An engine can be made from a directory exactly if the files describe one.", "quantifier": "every program, sequence of calls, directory and archive, change of the disk between calls, time, iteration order, question without null characters", "why_tests_cant": "Sequences of calls, models and questions are unlimited; that an answer comes from the wrong engine, or from a cache filled under other circumstances, depends on the whole history of the process.", "anchors": ["platforms/swift/SnipsNlu/SnipsNlu/NluEngine.swift: init, deinit, parse, getSlots, getIntents", "platforms/kotlin/src/main/kotlin/ai/snips/nlu/NluEngine.kt", "ffi/src/lib.rs", "src/nlu_engine.rs: from_path, from_zip"]}
{"id": "C108", "title": "The case of letters does not matter", "statement": "Two texts with the same letters, differing only in their case, are understood alike: every question about them is answered with the same intents, scores and order, and the same slots at the same places with the same values (raw values, and values taken over from them, as written in each text), or fails with the same error, and leaves the same entries in the caches.", "quantifier": "every notion of letters that text functions and regular expressions ignore, pair of texts, model with any parsers, question or sequence of questions, contents of the caches and answers of the entity parsers", "why_tests_cant": "Texts and ways of writing them are unlimited, and a comparison that forgets to ignore case shows only for words that the model knows in another case.", "anchors": ["src/intent_parser/lookup_intent_parser.rs: preprocess_text", "src/intent_parser/deterministic_intent_parser.rs: preprocess_text, compile_regexes_per_intent", "src/intent_classifier/featurizer.rs: TfidfVectorizer::transform, CooccurrenceVectorizer::transform", "src/slot_filler/features.rs", "src/entity_parser/builtin_entity_parser.rs: extract_entities", "src/entity_parser/custom_entity_parser.rs: extract_entities", "src/nlu_engine.rs"]}
{"id": "C109", "title": "The names of slots are only names", "statement": "Give the slots of a trained engine other names, different ones for different slots, everywhere they occur in its files (the mappings of the dataset and of the parsers, the tags of the taggers). Every call, with the slot it names renamed, then ends as before with the slots renamed: the same intents, scores, order, values, ranges, entities and alternatives, the same errors (about the renamed slot if it is unknown) and the same entries in the caches.", "quantifier": "every injective renaming, model with any parsers, call or sequence of calls, filters, answers of the entity parsers and contents of the caches", "why_tests_cant": "Renamings and queries are unlimited, and a dependence on names (a tag cut at the wrong place, an order or a comparison by name, a slot taken for its entity) shows only for particular names.", "anchors": ["src/nlu_engine.rs: parse_with_alternatives, get_slots_with_alternatives, extract_slot_with_alternatives", "src/slot_utils.rs: resolve_builtin_slot, resolve_custom_slot", "src/slot_filler/crf_utils.rs: tag_name_to_slot_name, tags_to_slots", "src/slot_filler/crf_slot_filler.rs: get_slots", "src/intent_parser/lookup_intent_parser.rs", "src/intent_parser/deterministic_intent_parser.rs"]}
{"id": "C110", "title": "A slot has the entity that the dataset declares for it", "statement": "Every slot of an answer is a slot that the dataset declares for the intent of the answer, with the entity declared for it; likewise the slots of the alternatives and of get_slots, and the slot of extract_slot.", "quantifier": "every engine whose files agree with the dataset about the entities of slots, query, filters, numbers of alternatives, answers of the entity parsers and iteration order", "why_tests_cant": "The names of slots and of entities come from different tables (of the dataset, of the look-up table, of the patterns, of the slot fillers, of the entity parsers); a mix-up shows only for particular combinations and queries.", "anchors": ["src/intent_parser/lookup_intent_parser.rs: parse_map_output, get_entity_placeholder", "src/intent_parser/deterministic_intent_parser.rs: get_matching_result", "src/slot_filler/crf_utils.rs: tags_to_slots", "src/nlu_engine.rs: resolve_slots, extract_slot_with_alternatives"]}
{"id": "C111", "title": "Further intents that a sentence does not match leave the answers of the pattern parser as they were", "statement": "If the deterministic parser is given further intents, none of which it recognises in a query when asked for alone, then parse gives the same answer as before, get_slots the same slots for the old intents (even if the new ones match), and get_intents the same ranking with the new intents at confidence 0. An engine whose deterministic parsers are extended in this way gives the same parse (filters by whitelist) and get_slots as before.", "quantifier": "every deterministic parser and extension of it, query, whitelist, answers of the entity parsers and iteration order; for the engine every pipeline, dataset with the same entities and number of slot alternatives", "why_tests_cant": "It compares two trained models for all queries; confidences are shares of a sum over all intents, tables are shared between intents, and group names are global, so interference shows only for particular combinations.", "anchors": ["src/intent_parser/deterministic_intent_parser.rs: parse_top_intents, get_matching_result, preprocess_text, get_intents, get_slots", "src/intent_parser/lookup_intent_parser.rs: get_candidates", "src/nlu_engine.rs: parse_with_alternatives, get_slots_with_alternatives"]}
{"id": "C112", "title": "Stop words put into a query do not change what the lookup parser reads in it", "statement": "If stop words (of all the intents that the filter allows) are put in front of a query, behind it, or at a blank inside it, and the entity parsers find the same matches in the longer query (none of them across the gap), then the lookup parser's parse gives the same intent with the same confidence and the same slots with the same values, each slot's range being its place in the longer query; get_slots gives the slots moved in the same way, and get_intents the same intents with the same confidences.", "quantifier": "every lookup parser, query, place of the words, words, filter, answers of the entity parsers, tokenizer that splits at blanks, and iteration order of hash maps", "why_tests_cant": "A stop word can stand at any place of any query; ranges, placeholders and table keys are computed by different functions that must agree about positions for every combination of matches.", "anchors": ["src/intent_parser/lookup_intent_parser.rs: get_candidates, preprocess_text, replace_entities_with_placeholders, parse_map_output, parse_top_intents, get_intents, get_slots", "src/slot_utils.rs / src/utils.rs: deduplicate_overlapping_entities, get_items_combinations"]}
{"id": "C113", "title": "An intent's score is its own: neither the order of the intents in the model nor further intents change it", "statement": "A class that two classifier models list with the same coefficients (same featurizer) has the same score in both rankings. Listing the classes in another order gives the same ranking up to the order of equal scores, and the same get_intent when one class is strictly best. Taking classes out of a model takes exactly their entries out of every ranking; a parse by the larger model that names a remaining intent is the parse by the smaller one, and further classes that score lower than the best one leave get_intent as it was. For two intents, whose model has one row of coefficients, listing them the other way round (with the negated row) exchanges the two scores.", "quantifier": "every classifier given class by class, featurizer, floating point arithmetic (exact arithmetic for the two-intent case), non-empty query, intent filter, answers of the entity parsers and hash order", "why_tests_cant": "Scores come from a matrix built column by column from the model and are paired with names by position; that the pairing is right for every number of classes, every order and every coefficient is a statement about all models.", "anchors": ["src/intent_classifier/log_reg_intent_classifier.rs: get_intent, get_intents, get_intents_with_whitelist", "src/intent_classifier/logreg.rs: MulticlassLogisticRegression::new, run", "src/intent_parser/probabilistic_intent_parser.rs: parse"]}
{"id": "C114", "title": "A score depends on what the model says about the words of the sentence, not on the numbering or the rest of the vocabulary", "statement": "In exact arithmetic the linear score of a class is its intercept, plus the sum over the different words of the sentence of count times inverse document frequency times the class's coefficient for that word, divided by the Euclidean norm of count times frequency, plus the class's coefficients for the table's word pairs that co-occur: a formula without feature numbers. So two models that read sentences in the same way and have the same frequencies and coefficients for the words and pairs of a sentence give it the same scores, whatever else is in them; in particular renumbering the features changes no score.", "quantifier": "every featurizer whose terms and pairs have different numbers, every model of coefficients, sentence, answer of the entity parsers and hash orders", "why_tests_cant": "Features are addressed by numbers in four places (vocabulary, frequencies, pair table, rows of coefficients), the pairs with an offset; that only the names matter is a statement about all numberings and all vocabularies.", "anchors": ["src/intent_classifier/featurizer.rs: TfidfVectorizer::transform, CooccurrenceVectorizer::transform, Featurizer::transform", "src/intent_classifier/logreg.rs: MulticlassLogisticRegression::new, run"]}
{"id": "C115", "title": "Parsers that recognise nothing may be left out, and the order of the parsers matters only between parsers that recognise something", "statement": "If parsers that recognise nothing in a query are left out of an engine and some parser recognises an intent, the answer of parse stays what it was. If exactly one parser recognises something, the engine answers as if it had no other parser, so the order of the parsers does not matter. Parsers that find no slots for an intent may be left out without changing get_slots. get_intents depends neither on the order of the parsers nor on how often one is listed, up to the order of equal scores, provided all parsers rank the same intents.", "quantifier": "every engine, list of parsers of any length and behaviour (whose answers do not depend on hash order, as C63 proves of the three kinds), query, filter, number of slot alternatives, and two arbitrary hash orders", "why_tests_cant": "Concerns every list of parsers and every place where an idle parser may stand; tests use the one or two lists of the sample models.", "anchors": ["src/nlu_engine.rs: parse_with_alternatives, get_intents, get_slots_with_alternatives, resolve_slots"]}
{"id": "C116", "title": "Stop words put into a query do not change what the deterministic parser reads in it", "statement": "If stop words (of all the intents that the filter allows) are put in front of a query, behind it, or at a blank inside it, and the entity parsers find the same matches in the longer query (none of them across the gap), then the deterministic parser of a trained model gives, in parse, the same intent with the same confidence and the same slots with the same values, each slot's range being its place in the longer query; get_slots gives the slots moved in the same way, and get_intents the same ranking.", "quantifier": "every deterministic parser whose patterns have the form of trained ones, query of less than 2^15 characters in which no placeholder is typed, place of the words, words, filter, answers of the entity parsers, tokenizer that does not reach over blanks, and iteration order of hash maps", "why_tests_cant": "A stop word can stand at any place of any query; the blanked text, the text with placeholders, its table of ranges and the byte offsets of the regular expressions must agree about positions for every combination of matches and patterns.", "anchors": ["src/intent_parser/deterministic_intent_parser.rs: parse_top_intents, preprocess_text, get_matching_result, replace_entities_with_placeholders usage, get_slots, get_intents", "src/slot_utils.rs / src/utils.rs: deduplicate_overlapping_entities, replace_entities"]}
{"id": "C117", "title": "Stop words put into a query do not change the answer of an engine that understands the query with its rule-based parsers", "statement": "If stop words are put in front of a query, behind it, or at a blank inside it, the entity parsers find the same entities with the same values in the longer query (none of them across the gap), and the query is recognised by the engine's deterministic or lookup parser, with only such parsers before it, then the engine's parse gives for the longer query the same intent, the same confidence and the same resolved slots, each with its place in the longer query, whatever parsers come after; get_slots does the same for the slots of an intent.", "quantifier": "every engine, list of parsers before and after, query, place of the words, words, filter, number of slot alternatives, answers of the entity parsers, and iteration order of hash maps; for c117_parse and c117_get_slots every kind of parser that reads the same in both queries", "why_tests_cant": "Combines what the parsers read with the resolution of the slots, which looks the entities up again by their ranges in the text; the claim is for every query and every place of the words.", "anchors": ["src/nlu_engine.rs: parse_with_alternatives, get_slots_with_alternatives, resolve_slots", "src/slot_utils.rs: resolve_builtin_slot, resolve_custom_slot"]}
{"id": "C118", "title": "Further blanks in a query do not change what the rule-based parsers read in it", "statement": "If blanks are added in front of a query, behind it, or at a blank inside it, and the entity parsers find the same matches in the longer query (none of them across the gap), then the lookup parser and the deterministic parser of a trained model read the same intent with the same confidence and the same slots, each slot at its place in the longer query; an engine whose deterministic and lookup parsers recognise the query gives the same answer with the slots at their new places.", "quantifier": "every parser of the two kinds, engine, further parsers, query, place, number of blanks, filter, answers of the entity parsers, tokenizer that splits at blanks, and iteration order of hash maps", "why_tests_cant": "Any number of blanks at any place of any query; positions are computed in four texts (query, blanked, with placeholders, bytes) that must stay in step.", "anchors": ["src/intent_parser/lookup_intent_parser.rs: preprocess_text, get_candidates", "src/intent_parser/deterministic_intent_parser.rs: preprocess_text, get_matching_result", "src/nlu_engine.rs: parse_with_alternatives, resolve_slots"]}
{"id": "C119", "title": "Further blanks in a query do not change the slots that the slot filler finds", "statement": "For a query made of tokens with blanks between them, if blanks are added in front of it, behind it, or at a blank inside it, and the builtin entity parser finds the same matches in the longer query (none of them across the gap), then the slot filler computes the same features for the tagger, and its get_slots finds the same slots with the same values, entities and names, each at its place in the longer query, provided that none of the slots of the shorter query goes across the gap.", "quantifier": "every slot filler (tagger, tagging scheme, features, offsets, slot name mapping), codec of tags, query, place, number of blanks, answers of the entity parsers, and tokenizer that does not reach over blanks", "why_tests_cant": "Any number of blanks at any place of any query and any combination of features; the entity features compare ranges in a text rebuilt from the tokens with the tokens' ranges, and the values are cut out by byte offsets.", "anchors": ["src/slot_filler/crf_slot_filler.rs: get_slots, compute_features", "src/slot_filler/feature_processor.rs: compute_features", "src/slot_filler/features.rs: compute", "src/slot_filler/features_utils.rs: initial_string_from_tokens", "src/slot_filler/crf_utils.rs: tags_to_slots"]}
{"id": "C120", "title": "Further blanks in a non-empty query do not change what the probabilistic parser reads in it", "statement": "If blanks are added in front of a query that is not empty, behind it, or at a blank inside it, and the entity parsers find the same matches in the longer query (none of them across the gap), then the intent classifier gives the same ranking with the same probabilities, whatever the whitelist (with overflow checks, if the longer query has less than 2^15 characters, also after entities are replaced by placeholders); the probabilistic parser's get_intents gives the same ranking, and its parse and get_slots give the same intent and the same slots, each at its place in the longer query, under the conditions of C119 for the slots. For the empty query this is not so: it has no intent, but a query of one blank may have one.", "quantifier": "every classifier (both vectorizers, regression, operations on numbers), slot fillers, query, place, number of blanks, whitelist, answers of the entity parsers, tokenizer that splits at blanks, and iteration order of hash maps", "why_tests_cant": "Any number of blanks at any place of any query, for any model; the co-occurrence features replace entities by placeholders in both texts and must yield the same words.", "anchors": ["src/intent_classifier/log_reg_intent_classifier.rs: get_intents_with_whitelist", "src/intent_classifier/featurizer.rs: TfidfVectorizer::transform, CooccurrenceVectorizer::transform", "src/intent_parser/probabilistic_intent_parser.rs: parse, get_intents, get_slots", "src/utils.rs: replace_entities"]}
{"id": "C121", "title": "Further blanks in a non-empty query do not change the answer of the engine", "statement": "If blanks are added in front of a query that is not empty, behind it, or at a blank inside it, and the entity parsers find the same entities in the longer query (none of them across the gap, nor any slot read by the probabilistic parser), then an engine with a deterministic, a lookup and a probabilistic parser of a trained model gives in parse the same intent with the same confidence and the same resolved slots, each at its place in the longer query, whichever of the parsers recognises the query and also if none does; get_slots does the same for the slots of an intent.", "quantifier": "every engine with the three parsers, query of less than 2^15 characters, place, number of blanks, whitelist, blacklist, number of slot alternatives, answers of the entity parsers, tokenizers that split at blanks, and iteration order of hash maps", "why_tests_cant": "All three kinds of parsers, with their different ways to handle positions, and the resolution of slots must agree for every query and every place and number of blanks.", "anchors": ["src/nlu_engine.rs: parse_with_alternatives, get_slots_with_alternatives, resolve_slots", "src/intent_parser/mod.rs: IntentParser"]}
{"id": "C122", "title": "Stop words or blanks put into a query change neither the ranking of the intents nor the alternatives of the answer", "statement": "If stop words (of all intents) are put into a query as in C117, an engine whose parsers are a deterministic and a lookup parser gives in get_intents the same intents with the same confidences in the same order, and in parse with any numbers of intent and slot alternatives the same intent and the same alternatives in the same order, the slots of the intent and of every alternative being the same, each at its place in the longer query. With further blanks put into a query that is not empty, the same holds for an engine with a deterministic, a lookup and a probabilistic parser, under the conditions of C121. More generally it holds for every engine all of whose parsers read, rank and find slots in the longer query as in the shorter one.", "quantifier": "every engine with such parsers, query, place, stop words or number of blanks, whitelist, blacklist, numbers of intent and slot alternatives, answers of the entity parsers, and iteration order of hash maps that is the same for both queries", "why_tests_cant": "The alternatives are taken from the merged ranking of all parsers, and their slots from a second pass over the parsers for every intent; all of it must agree for every query, place and number of alternatives.", "anchors": ["src/nlu_engine.rs: parse_with_alternatives, get_intents, get_slots_with_alternatives", "src/intent_parser/lookup_intent_parser.rs: get_intents", "src/intent_parser/deterministic_intent_parser.rs: get_intents", "src/intent_parser/probabilistic_intent_parser.rs: get_intents"]}
{"id": "C123", "title": "Stop words that do not occur in a query do not change the answer to it", "statement": "Replace the stop words of an engine's parsers (the list, the whitelists of the intents, the switch) by others such that, among the words of a query - as it is, and with the matches found in it replaced by their placeholders - the same ones are skipped for every intent. Then the lookup parser, the deterministic parser, the probabilistic parser and the whole engine answer every call about this query exactly as before (intent, confidence, slots, ranking, alternatives, and errors and panics). In particular stop words may be added to or taken from the list, or be whitelisted, if they do not occur in the query.", "quantifier": "every model of the parsers, list of parsers, pair of stop word lists and whitelists, query, whitelist and blacklist of intents, numbers of alternatives, answers of the entity parsers, hash iteration order and build", "why_tests_cant": "Tests compare a few queries with one list of stop words; that nothing but the skipped words of the query itself has an influence is a statement about all lists and queries, including the texts with placeholders and the word pairs of the classifier.", "anchors": ["src/intent_parser/lookup_intent_parser.rs: preprocess_text, get_candidates", "src/intent_parser/deterministic_intent_parser.rs: preprocess_text, parse_top_intents", "src/intent_classifier/featurizer.rs: extract_word_pairs", "src/nlu_engine.rs: parse_with_alternatives, get_intents, get_slots_with_alternatives"]}
{"id": "C124", "title": "What the resources say about words that do not occur in a query does not change the answer to it", "statement": "Replace the gazetteers, the stemmer and the word clusters that a probabilistic parser was built with by others with the same names that say the same about the words of a query: the same stem for each word, the same answer whether the word and its stem are in a gazetteer, the same cluster for each word, and for the vectorizer the same cluster for each sequence of words of the query. Then the features of the slot fillers can still be built, the features of the query and of its words are the same, and the parser and the whole engine answer every call about this query exactly as before (intent, confidence, slots, ranking, alternatives, and errors and panics), given the same answers of the entity parsers. In particular lines may be put anywhere into a gazetteer file, a file of stems or a file of word clusters if none is about a word with the hash of a word of the query (for clusters: provided that their names are plain, i.e. not numbers written with leading zeros or a sign).", "quantifier": "every pair of resources, list of feature configurations, slot filler, vectorizer, classifier, list of parsers, query, whitelist and blacklist of intents, numbers of alternatives, answers of the entity parsers and hash iteration order", "why_tests_cant": "Tests use one set of resources and a few queries; that nothing but what the resources say about the words of the query itself has an influence is a statement about all resources and queries.", "anchors": ["src/slot_filler/features.rs: NgramFeature, CustomEntityMatchFeature, WordClusterFeature", "src/slot_filler/feature_processor.rs: new, compute_features", "src/intent_classifier/featurizer.rs: TfidfVectorizer::transform, get_word_clusters, normalize_stem", "src/resources/gazetteer.rs: from_reader, contains", "src/nlu_engine.rs: parse_with_alternatives, get_intents, get_slots_with_alternatives", "src/resources/stemmer.rs: from_reader, stem", "src/resources/word_clusterer.rs: from_reader, get_cluster"]}
