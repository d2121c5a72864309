# Formal model of snips-nlu-rs: design

Source under study: `/repo` (snips-nlu-rs, pinned commit, Rust).  The code is read as text; nothing
is built or executed.  The model and all proofs are Lean 4 (4.33.0) + Mathlib, under `lean/`.

## Layout

* `lean/Verif/Model/*.lean`: executable model, function by function, each definition cites file:lines.
* `lean/Verif/Spec/*.lean`: small, model-independent vocabulary used in theorem statements.
* `lean/Verif/Proofs/*.lean`: helper lemmas.
* `lean/Verif/Props/*.lean`: the property theorems, one group per file, each accompanied by an `example`
  that shows its hypotheses are met by a concrete non-trivial case.
* `lean/Verif/Conformance/*.lean`: the unit tests of /repo replayed on the model.  They test the transcription
  (a model that disagrees with the results the authors expect does not build); they prove no property.
  `ModelFiles.lean` (generated by `tools/model_files.py`) has the JSON files of /repo/data/tests/models, which the
  transcribed parser must read as Python's parser does, and which must decode; these are `#guard`s, run by the interpreter.
  `Engine.lean` replays the tests of src/nlu_engine.rs that use trained models: the modelled loader reads these files, and
  the engine answers the sentences of the tests through lookup, patterns, classifier and slot fillers.  The tagger there is
  a plain linear-chain CRF with the weights of the `.crfsuite` files (`CrfModels.lean`, generated by `tools/crf_models.py`),
  so a feature with another name or at another offset changes the tags; the look-up keys are hashed with FNV-1a, which
  gives the keys found in the tables of the models.
* `lean/Verif/Axioms.lean` (generated by `tools/gen.py`): `#print axioms` for every property theorem.
* `tools/gen.py` also writes `lean/Verif.lean` and `MANIFEST.json` (status and note from `tools/claims.json`;
  a theorem belongs to property `Cnn` when its name starts with `cnn_`).
* `seeded/`: mutants of the model (`mutants/*.py`), and `LOG.jsonl`, what each of them broke
  (`tools/mutate.py` applies them to a scratch copy).

## Modelling decisions (valid for all files)

* **Text** is `List Char` (a Rust `String` is a sequence of Unicode scalar values).  Byte offsets are
  modelled through the UTF-8 length of characters; slicing off a char boundary is a panic.
* **Outcomes**: every fallible function returns `Outcome α = ok a | err e | panic`.  `?` is bind;
  `unwrap`, indexing, slicing and integer underflow are explicit `panic`s.
* **External crates** (`snips_nlu_utils`, `snips_nlu_ontology`, `snips_nlu_parsers`, `regex`, `crfsuite`,
  `zip`, `lru_cache`) are not available: they appear as fields of an environment record (arbitrary
  functions) or, for tiny string/range helpers, as definitions transcribed from their documented
  behaviour (listed in the trusted base below).
* **Hash maps / sets** are association lists with distinct keys.  For maps stored in a model the list
  order *is* the iteration order, so quantifying over all models covers all iteration orders.  For
  maps built and then iterated inside a call, an arbitrary permutation (`HashOrd`) is applied, and
  theorems quantify over it.
* **f32** values are rationals; every arithmetic operation goes through an arbitrary rounding function
  (`Rounding`: monotone, idempotent, exact on 0, 1/2, 1 and on doubling).  Infinities and NaN are
  modelled for the intent classifier (`Model/Nan`, C70) and the rule-based parsers (`Model/Binary32`, C84); `rounding24` and
  `round32` (C84) are the actual rounding to 24 significant bits and to binary32, and instances of `Rounding` and `FlRound`.  Statements that need exact arithmetic say so.  Tf-idf and logistic regression (sqrt, exp)
  are over `ℝ`, without rounding.
* **Entity extraction** (the only shared mutable state, through caches behind mutexes) is a free monad
  `Prog` with operations "builtin extraction, cached", "builtin extraction, uncached" and "custom
  extraction".  Engine code is a `Prog`.  There are three interpreters: a pure one (no cache), a stateful
  one (LRU caches), and a concurrent one (threads interleaved at lock granularity, poisoning included).
  The bridge theorems (C21, C22, C24, C25) show they agree, so all other theorems are about the pure one.
* **Files** (injection, archives, loading) are an abstract store mapping paths to contents, with a log
  of primitive writes, so that crash points are prefixes of the log.

## Per property plan

| id | model | proof plan |
|----|-------|-----------|
| C01 | engine, three parsers, classifier | case analysis per parser, induction over parser list; false in corner cases (classifier ignores the filter when it has at most one intent, or on empty input without an absent intent): witness + `_partial` under the condition |
| C02 | `get_intents_whitelist` | exact characterisation of result set / error |
| C03, C04 | engine cascade | induction over the parser list, spec by list split |
| C05 | engine | equation between two runs |
| C06 | engine | false: witnesses; `_partial`: exactly what is listed; holds if the main intent heads the merged ranking, in particular for a single deterministic parser, or a single lookup parser without filter |
| C07 | engine | sortedness/nodup through filter/skip/take |
| C08 | `get_intents` merge | fold invariant, maximum over parsers |
| C09 | `get_slots*` | induction over the parser list |
| C10-C12 | `slot_utils`, `resolve_slots` | sublist relation, decision table |
| C13 | `extract_slot*` | decision table |
| C14 | all three parsers | by construction for rule parsers; UTF-8 lemma for the tagger (C28) |
| C15 | all three parsers | from C16, C27 |
| C16 | `deduplicate_overlapping_*` | invariant of the greedy fold |
| C17, C18 | `replace_entities`, `get_range_shift` | fold invariant over sorted disjoint matches; 16-bit wrap modelled for all sizes (`c17_table`); the table is right exactly when every placeholder ends before position 2^15 of the new text (`c17_mapping_exact`); a debug build panics on the overflowing addition (`c17_debug`) |
| C19 | `preprocess_text` | fold invariant |
| C20 | `compute_char_shifts` | position lemma by induction over tokens |
| C21-C25 | cache, mutex, `Prog` interpreters | simulation / invariants over histories and schedules |
| C26, C27 | tag decoding | induction over segments / tags; malformed BIO tags are a counterexample (restricted to the scheme's alphabet) |
| C28, C55 | byte/char conversion | induction over text |
| C29 | feature processor | membership characterisation |
| C30-C32 | features | case analysis |
| C33 | label substitution | direct |
| C34 | combinations | equality with sublists |
| C35-C38 | rule parsers | order-theoretic arguments on weights with abstract rounding |
| C39 | logistic regression | over ℝ |
| C40 | classifier | stable sort commutes with filter |
| C41 | tf-idf | over ℝ |
| C42 | co-occurrence | membership characterisation |
| C43-C45 | injection over an abstract store | invariant over operation log; C45 false: witness + `_partial` |
| C46 | value normalisation | equations |
| C47, C48 | archive extraction | path component reasoning; C48 false: witness |
| C49 | loading | decision logic |
| C50, C51 | resources | fold over records |
| C52 | stop word tables | membership |
| C53 | C layer | calls as functions on a memory of tagged objects, undefined behaviour an outcome; induction over call histories; interleavings for concurrent clients |
| C54 | probabilistic parser | decision logic |
| C56 | `from_zip` | C47 (exact contents) + C57 (relocation) + removal of the temporary directory |
| C57 | loading | logical relation between two directories carried through every loader |
| C58 | every call | structural: each panic site of the model is guarded by a condition on the tables (`Spec/Safety.lean`) |
| C59 | feature factories | one rule per factory (`Spec/Factories.lean`); both directions by cases on the name |
| C60 | contents of a loaded engine | relational description of every file (`Spec/Layout.lean`), inversion of each loader |
| C61 | success of loading | converse of C60, loader by loader; panics by the same structure |
| C62 | deterministic parser | matches, groups and kept slots described relationally (`Spec/Patterns.lean`); inversion and construction of one run |
| C63 | all calls of an engine | each parser's answers do not depend on iteration orders; the merge is described cell by cell; sorted permutations |
| C65 | readers of text files | UTF-8 decoder inverse to the encoder; lines and records described relationally (`Spec/Readers.lean`) and shown to exist in one way for every text |
| C66 | decoding of model files | each document described relationally (`Spec/Json.lean`); soundness, completeness and absence of panics composed along the derived decoders |
| C64 | entity extraction, ranges in the user's text | character-wise relation between text and lower-casing (`Spec/Lower.lean`); proved for texts without longer lower-case forms |
| C67 | from sentence to score | composition of C39, C40, C41 and C42; sum over a consistently numbered table is a sum over its pairs |
| C68 | slots of the deterministic parser | composition of C62 (what is captured), C55 (bytes to characters), C19 (blanking) and C18 (way back) |
| C69 | base64, slot filler | bits of groups of three bytes by linear arithmetic, decoding is the inverse of encoding; composition with C26, C27, C28 and C33 |
| C70 | classifier on `f32` values with infinities and NaN (`Model/Nan`) | case analysis over IEEE 754 operations, induction over an insertion sort that panics on incomparable scores; agreement with the finite model on finite scores |
| C71 | Python wrapper over the C interface (`Model/Bindings`: state of C memory and of the host) | each method ends as the native call does, memory given back; induction over programs (`PyRun`) |
| C72 | Kotlin wrapper, with a garbage collector as parameter | the same; counterexamples where the collector, an empty filter or a closed engine is involved |
| C73 | Swift wrapper | the same, with the exact leak after an error |
| C74 | conversions of the structures of `libsnips_nlu.h` to Swift (`Model/SwiftValues`) | case analysis over kinds of values, induction over lists |
| C75 | threads around a tagger with state (`Model/TaggerShared`), caches as in C22 | invariant over reachable states; the code under the lock sets features before it uses them; accessibility of steps for termination |
| C76 | `ParserModel` (`Proofs/Parsers`), spec `Spec/Filters` | each parser depends on the filter only through the intents it knows; equality of runs through the cascade |
| C77 | as C76 | the results under the stricter filter are a sublist of the results (`Proofs/Narrow`, `Proofs/NarrowLookup`); the winner of a list wins in every sublist with it |
| C78 | as C76 | C77 with the filter of one intent; C35, C54 for what a parser finds alone |
| C79 | `JsonText`, spec `Spec/JsonText` (the grammar, as inductive predicates) | induction on fuel for soundness and completeness of the parser (`Proofs/JsonStrings`, `JsonValues`), on the document for the writer (`JsonWrite`) |
| C80 | `ResultJson`, spec `Spec/ResultJson` | C79 for the written documents; C71 for Python; a document shows at most one answer |
| C81 | `Lookup`, spec `Spec/LookupTable` (readings by the table, without the parser's helpers) | C35 for the decision, C34 and C16 for the pieces and the entities kept; the entities kept are determined by strong induction on length and position |
| C82 | `Bindings`, `Ffi`, `Loading`, `ResultJson`, spec `Spec/Python` (programs in Python with how each engine was made) | induction over the program, keeping the engine at each address and good caches (C53); then C60, C71, C80; C79 for the engine file |
| C83 | `Engine`, `Parsers`, `Lookup`, `Det`, `Prob`, spec `Spec/Reading` (meaning of a sentence to a parser, resolution) | composition of C03, C09, C11, C12 with C81, C62, C40, C54, C29 and C69 |
| C84 | `Model/Binary32` (weights, sums, sorting and comparisons on `Fl`), spec `Spec/Binary32` (nearest, ties to even) | rounding at a power of two, uniqueness from the parity of adjacent significands; invariants of the sum (at most 2^24) keep every operation in the normal range |
| C85 | the same, spec `Spec/Shares` | relative errors composed as powers of 1/(1-2^-24), Bernoulli's inequality |
| C86 | `Model/Machine`: the same functions with `i32` casts and checked or wrapping operations | bounds on every intermediate value by induction over the tokens, the table and the offsets; equality of programs by congruence on reachable values (`Prog.bind_congr`) |
| C87 | spec `Spec/Trained` (pieces of patterns, `Follows`, `Says`); `Model/TrainedPattern` is a matcher that satisfies the assumption on crate `regex` | induction over the pieces; injectivity of pattern texts by a reader of pieces; C62 for the parser, C18 for the places of the entities; `Conformance/Patterns` checks that the patterns of the repository are of this form |
| C88 | `Model/EngineShared` (the engine's code with requests to taggers as steps, threads, clock); spec `Spec/EngineShared` (`Answers` at times) | erasure of taggers by induction over code; invariant over reachable states (what is left to run answers the call); completeness by building a schedule; accessibility for termination |
| C89 | `Model/Messages` (loading with contexts); spec `Spec/Messages` | forgetting the contexts is a monad morphism onto `Model/Loading`; invariant `Blames` on the last path read, by induction over the program |
| C90 | `Model/Injection`, `Model/Loading`; spec `Spec/InjectedEngine` (`Composed`, `OwnDirs`, `AfterInjection`) | frame: loading depends only on the files of its trace and on the two entity parser directories (`FilesOnly`, `Gives`); `c44_success` for the contents of the parser directories |
| C91 | as C90; spec `Spec/Injections` (`InTurn`, `AfterInjections`, `Together`) | induction over the requests with `c90_injected`, whose conclusion restores its hypotheses; an injection is characterised by its effect on each parser directory (`inject_ok_iff`) |
| C92 | `Model/Classifier` with the operations `MachineOps` of `Spec/SinglePrecision` against the same model over the reals | factors between powers of `1 + 2^(-23)` are closed under products, quotients, roots and sums of non-negative numbers; adding zero is exact, so that the exponents count the features other than zero; induction over the tree of additions; the logistic function is 1/4-Lipschitz |
| C93 | `Model/InjectMessages` (injection with the messages of its errors); spec `Spec/InjectMessages` (`CannotRead`, `WhyNot`, `SaysKept`, `SaysDamaged`) | forgetting the messages gives `Model/Injection` (`c93_same`); case analysis over the stages; induction over the loop with the frame lemmas of C45 |
| C94 | `Model/Classifier` with the operations `Machine32` of `Spec/Machine32` on `Fl` (finite numbers, infinities, NaN) | between the bounds of magnitude every operation of the computation agrees with the one of C92 (`ops24`, rounding without limits), by bounds on the exponents carried through sums, roots and quotients; the one operation that may underflow or overflow, the logistic function, is treated apart; then the theorems of C92 |
| C95 | `Model/Cli` (the example program, watched for any number of rounds); spec `Spec/Cli` (`Trimmed`, `typedLine`, `OptionNumber`, `Replies`) | induction over the rounds with the bytes left to read and the soundness of the caches as invariant; the text of several lines by induction over the document; trimming is unique |
| C96 | `Model/Engine`, `Model/EntityParser`; spec `Spec/MoreAlternatives` (`Ext.MoreAdds`, `Slot.More`) | a relation between two programs (`ReplyFollows`: whenever the second succeeds the first does, with related results) closed under sequencing |
| C97 | `Model/Engine`, `Model/Parsers`, `Model/QueryMessages`; spec `Spec/Answering` (`Complete`, `Ranks`, `Knows`, `Resolvable`) | `Prog.Only w Q`: no error, and values satisfy `Q`, closed under sequencing and combined with C58; each parser's slots have resolvable entities and its ranked names are its own |
| C98 | `Model/Engine`, `Model/Parsers`, `Model/Loading`; spec `Spec/Builds` (`inRelease`, `Lookup.Misfit`, `Det.TooLong`) | `Prog.Upto p q` (`p` panics after the same requests, or they are the same), closed under sequencing and iteration, for the three parsers and the engine; `Load.change` for loading; the exact panics by C34 and C17 |
| C99 | `Model/Loading`, `Model/Decode`, `Model/Engine`, `Model/Concurrent`; spec `Spec/ValidModel` (`ValidFiles`, `LoadEnv.Sensible`, `LoadedEngine.Fair`) | from the description of the loaded engine by its files (C60) each parser is `Sound` and `Complete` (the pairs of words by the permutation of `invertPairs`); then C97 for one call, C21 for sequences, C22 and C24 for schedules, C88 and C100 for taggers and an advancing clock |
| C100 | `Model/Engine`, `Model/EngineShared`, `Model/EntityParser`; spec `Spec/Clock` (`ClockSlot`, `SameAnswer`, `SameOutcome`) | a relation between codes that make the same requests (`Prog.InStep`), in which what follows a request for resolved values may differ by them; the parsers are in step with themselves up to equality, the engine up to `SameAnswer`; in-step codes have related answers at any times; then C21 for sequences and C88 for threads |
| C101 | `Model/EntityParser`; spec `Spec/Extracting` (`Guarded.extracts`, `Prog.accesses`, `AmongKeys`) | invariant: the answered requests of the stretch are a prefix of the keys of the cache by decreasing recency, without repetition and no longer than the capacity, so an eviction takes another key; conversely every key of a cache has been answered; for repeated engine calls, codes in step (C100) make the same requests on any sound caches |
| C102 | `Model/Lookup`, `Model/Deterministic`, `Model/Classifier`, `Model/Features`, `Model/Engine`; spec `Spec/Requests` (`builtinAsks`, `customAsks`) on `Spec/Extracting` | a predicate on codes, for all answers (`Prog.Asks`), closed under sequencing; an explicit list of requests for each parser and query, of the claimed length; the invariant of C101 for the builtin cache alone |
| C103 | `Model/Lookup`; C34 | candidates without repetition are included in, and for one scope include, the choices among the entities found; a world in which every character is an entity; `c n^d < 2^n` eventually (Mathlib) |
| C104 | C81, C51 | the entry found for a reading comes from a training sentence with the same key; pigeonhole on the words `a`, `aa`, `aaa`, … (Mathlib: an injective function from an infinite type has an infinite range) |
| C105 | `Spec/Renaming` (the engine, calls and answers with renamed intents), `Proofs/Renaming` | the two codes make the same requests and end with renamed results (`Prog.Alike`), function by function; sorting, grouping and look-up commute with an injective renaming |
| C106 | C101, `Spec/ThreadRequests` (executions with the requests served) | the steps that serve a request are one-request codes, to which the invariants of C101 apply; what threads have asked and have still to ask is together a permutation of what the calls ask alone |
| C107 | C72, C73, C74, C80, `Spec/Sessions` (histories of Swift and Kotlin programs) | invariant `Held`: the memory is tidy, caches are in order, every engine held is the one loaded; kept by making, asking (also when an error is thrown), releasing and changes of the disk |
| C108 | `Spec/LetterCase` (texts with the same letters, functions that ignore case, the same answers), `Proofs/LetterCase`, `Proofs/LetterCaseRules`, `Proofs/LetterCaseEngine` | the two codes make requests about related texts and end with related results (`Prog.Cased`), function by function; related lists are the halves of a list of pairs, so sorting, grouping and iteration orders carry over |
| C109 | `Spec/SlotRenaming` (the engine, tags, calls and answers with renamed slots), `Proofs/SlotRenaming` | as C105: the two codes make the same requests and end with renamed results (`Prog.Alike`); slots read off renamed tags are the renamed slots; duplicates are found by intent and range, not by name |
| C110 | `Spec/Declared` (files that agree with the dataset, legible placeholders) | readings of the parsers (C62, C81, tags to slots) give declared entities; resolution keeps names and entities (C10) |
| C111 | `Spec/Extension` (a parser with further intents) | what is found for an intent depends on its own tables only; the matches of both parsers are permutations of each other; cascades parser by parser |
| C112 | `Spec/StopWords` (the place of the words, positions in the longer query, matches at their new places) | positions are moved monotonically, so deduplication and combinations commute with the move; the texts with placeholders differ by the same words; their tokens are filtered out of the keys; iteration order removed with C37/C63 |
| C113 | `Spec/ClassRows` (a model file class by class) | the ranking is the stable sort of one entry per class, each computed from its own row; sorting commutes with filtering and, without ties, with permutation; σ(−z) = 1 − σ(z) |
| C114 | `Spec/FeatureNames` (what a model says about a term or a pair, by name) | the sum over feature numbers is re-indexed by the words of the sentence (an injection; other numbers contribute zero); the unit norm of C41 gives the divisor; pairs likewise through the table |
| C115 | `Spec/ParserList` (what a parser says whatever the hash order; a list without some idle parsers) | induction on the list for the two cascades; the ranking through C08: each entry is a maximum over the same set of parsers |
| C116 | `Spec/PatternStopWords` (patterns with white space only as `\s*`, stop words, queries without typed placeholders) | `Follows` is invariant under blanks put beside solid characters; blanking, replacement and its table commute with the insertion (C17, C18, C19); then as C112 |
| C117 | `Spec/EngineStopWords` (same entities and values in the longer query; parsers that read through the words) | induction on the list of parsers for the two cascades; resolution finds the moved entities because moving is injective; C112, C116 |
| C118 | `Spec/EngineStopWords` | C112, C116, C117 with words that are blanks: no tokens, by induction on their number |
| C119 | `Spec/PlainText` | Tokens are moved (from `TokensApart`); the rebuilt text of a plain query is the query (C31); features equal feature by feature; slots by `AtByte.slice` |
| C120 | `Spec/BlanksRead` | Same words for both vectorizers; replacing with any placeholders leaves texts that differ by the blanks; slots by C119 |
| C121 | `Spec/BlanksRead` | C117 with all three parsers reading through blanks (C118, C120) |
| C122 | `Spec/RankedMoved` | induction on the parsers for the merged ranking and on the alternatives for their slots; C112, C116, C117, C118, C120 for the parsers |
| C123 | `Spec/OtherStopWords` | the preprocessed texts and the filtered tokens are the same; congruence of running programs for the parsers, and induction on the parsers for the engine |
| C124 | `Spec/OtherResources` | pairs of features with the same name and the same values on the tokens, by the kind of feature; induction on the configurations, and the congruences of C123 for the engine |

## Disagreements between code and natural claims

For each of them the witness is a theorem about the model; where the claim of the property list is affected
its status is `partial` and the remaining part is proved.

| id | what the code does | witness |
|----|--------------------|---------|
| C01 | A classifier whose intent list is neither empty nor contains the absent intent ignores the whitelist in some case (a single intent, an empty input, no featurizer or regression). Exactly those: `c01_classifier_exact`. | `c01_engine_counterexample`, `c01_single_intent_counterexample`, `c01_empty_input_counterexample` |
| C06 | Alternatives skip the *first ranked* intent, which need not be the main one: the main intent can be listed again and the best other one be missing. When the parsers hesitate between intents, no intent is returned, one of the candidates is missing from the alternatives and the absent intent is listed again. | `c06_counterexample`, `c06_tie_counterexample` |
| C15, C27 | BIO decoding of tags outside of the alphabet gives overlapping slots; more tags than tokens can panic. | `c27_bio_malformed_counterexample`, `c27_length_counterexample` |
| C17, C18, C37 | 16-bit arithmetic wraps once a placeholder ends at or after position 2^15 of the new text: wrong range table, and results depend on hash order. | `c17_mapping_exact`, `c17_mapping_counterexample`, `c18_counterexample`, `c18_order_counterexample` |
| C17 | A debug build panics on the overflow, but only where an addition overflows: casts truncate silently, so beyond 2^16 it can also answer with a wrong table. | `c17_debug`, `c17_overflow_counterexample`, `c17_debug_counterexample` |
| C24 | A panic while a cache is locked poisons it: all later calls panic. | `c24_poisoning_counterexample` |
| C26 | IO tagging cannot separate adjacent slots of the same name. | `c26_io_adjacent_counterexample` |
| C31 | Rebuilding a text from no tokens panics. | `c31_empty_counterexample` |
| C33 | A tagger without labels panics with its mutex held. | `c33_no_label` |
| C39 | Superfluous coefficients are ignored silently; they have no influence (`c39_superfluous`). | `c39_superfluous_counterexample` |
| C41 | An empty vocabulary panics. | `c41_empty_vocabulary_counterexample` |
| C32 | An n-gram feature whose size exceeds 2^64 minus the position panics instead of being absent (both builds). | `c32_ngram_overflow_counterexample` |
| C42 | A window of the order of 2^64 panics in both builds. | `c42_window_counterexample` |
| C42 | Inconsistent numbering of the pairs panics. | `c42_inconsistent_counterexample` |
| C45 | Killed between `remove_dir_all` and `dump` the parser being rewritten is lost; several entities are not replaced atomically. | `c45_counterexample`, `c45_not_atomic_counterexample` |
| C48 | Entries named `..`, conflicting entries and disk failures panic; on a working disk exactly the entries described by `Collides` (`c48_panics_iff`). | `c48_counterexample_dots`, `_conflict`, `_fault` |
| C50 | `007` and `+7` come back as `7` when every cluster name is a number; a record with one field panics. | `c50_notation_counterexample`, `c50_malformed` |
| C57 | Names in model files may be absolute or contain `..`: files outside of the engine directory are read. | `c57_escape_counterexample`, `c57_not_relocatable_counterexample` |
| C58 | A debug build panics when the user types a placeholder of a table sentence (`debug_assert` in the lookup parser); a release build drops the slots. | `c58_debug_placeholder_counterexample`, `c58_release_placeholder`, `c81_typed_placeholder_counterexample` |
| C58 | A debug build panics on a text with an entity near position 2^15 (16-bit overflow in `replace_entities`). | `c58_debug_overflow_counterexample` |
| C64 | `İ` (U+0130) has a lower-case form of two characters, so every entity after it is reported one character too far to the right (`İ two x` gives a slot with raw value `wo `). | `c64_counterexample`, `c64_displaced` |
| C59 | The tagging scheme code of a feature is cut to its last byte: 256 is taken as IO, while the slot filler refuses it. | `c59_code_counterexample` |
| C60 | What follows the last dot of a resource name is lost: `cities.en` and `cities.fr` read the same file. | `c60_collision_counterexample` |
| C65 | A word cluster file whose first line is a word alone panics; with a later line it is refused. | `c65_clusters_panic_iff` |
| C61 | Missing coefficients and a word cluster file whose first line is a word alone make the loading panic instead of fail. | `c61_panic_counterexample` |
| C63 | Intents of equal score are ranked in the random order of a hash map: which of them is an alternative changes from call to call. | `c63_tie_counterexample` |
| C70 | A coefficient beyond `f32::MAX` in the model file becomes infinite without complaint; the classifier then panics (`partial_cmp(..).unwrap()`) on sentences that lack its feature, unless the filter leaves a single result, whose confidence is then NaN. | `c70_infinite_coefficient`, examples in `C70_Nan` |
| C71, C72, C73 | Texts are cut at the first null character; in Python and Kotlin minus one alternative is 4294967295 alternatives, in Swift it stops the program. | `c71_truncated`, `c71_negative`, `c73_trap` |
| C72 | The `Memory` objects of the strings of a filter are not referenced from the array: a collection during the call frees them. An empty filter list gives a null data pointer. Using or closing a closed engine is undefined. The answer leaks when its conversion throws. | `c72_collected`, `c72_empty_filter`, `c72_after_close`, `c72_leak` |
| C73 | After an error neither the message nor the variable that points to it is released; a message with a null byte leaves the pointer unset; `Data()` gives a null pointer to `slice::from_raw_parts`. | `c73_leak`, `c73_null_message`, `c73_init_bytes` |
| C74 | The end of a time interval is taken from its start (NluEngine.swift:195); an answer with a city, country or region is replaced by an exception; ordinals are read as 32 bits. | `c74_interval`, `c74_place`, examples in `C74_SwiftValues` |
| C75 | After a call on a tagger without labels has panicked (C33), every later call on that slot filler ends with "Poisonous mutex". | `c75_poisoning_counterexample` |
| C77 | Forbidding an intent changes the answer although the answer was another intent: in a lookup parser, because the sentence is cleaned of the stop words of all allowed intents of a group and then looked up for any of them; in an engine, because a parser that hesitated no longer does. | `c77_lookup_counterexample`, `c77_engine_counterexample` |
| C78 | `parse` and `get_slots` disagree on the slots of one intent: `get_slots` asks each parser about that intent alone, and takes the first parser with a slot. | `c78_lookup_counterexample`, `c78_engine_counterexample`, `c78_empty_counterexample` |
| C84 | In single precision the lookup and deterministic parsers can answer or not depending on the order of a hash map, which differs between runs: matches with 0, 1, 5, 5 and 5 slots have weights 1, 1/2, 1/6, 1/6, 1/6, whose sum is 2 or the number below. | `c84_order_counterexample`, `c84_engine_order_counterexample` |
| C86 | An offset of -2^31 in a model file makes a build with overflow checks panic on the first token that has the feature; a build without computes as intended. | `c86_features_counterexample` |
| C86 | A shape n-gram of size 2^64 - 1 in a model file makes a build with overflow checks panic on every text of two tokens or more; a build without finds no feature, as intended. | `c86_shape_counterexample` |
| C88 | A call that asks for intent alternatives resolves slots once for the answer and once per alternative, so that its answer may combine the values of several moments. | `c88_one_time_counterexample`; C88 says exactly which answers are possible |
| C89 | `File::open(&metadata_file_path)?` for the metadata of the resources (src/resources/loading.rs:36) has no context: when the file is missing, the message is that of the operating system alone. | `c89_resources_unnamed`; partial theorem `c89_missing_partial` |
| C89 | "Cannot deserialize CRFSlotFiller json data" and most of its like contain no path: which of the slot fillers is damaged is not told. | `c89_undecodable` |
| C89 | With another model version the outermost message says "Unable to read file", although the file was read; the versions are only in its cause. | `c89_version` |
| C97 | `parse_with_alternatives` with an alternative asks every parser in turn for the slots of an intent; one that does not know it fails the whole call, although `parse` succeeds. | `c97_alternatives_counterexample` |
| C98 | A sentence with typed placeholders makes a debug build panic where a release build answers (with fewer slots than the entry has). | examples of `Props/C98_Builds`, `c98_lookup_panics` |
| C103 | `get_candidates` (lookup_intent_parser.rs:238-249) takes all subsets of the entities found (`get_items_combinations`, :374-384): 2^k candidates for k entities, all kept in memory before duplicates are removed, so the work for a query is not bounded by a polynomial of its length. | `c103_polynomial_false`, `c103_at_least` |
| C104 | Look-up tables, gazetteers and stemmers keep `hash_str_to_i32` of a text and not the text (lookup_intent_parser.rs:173, gazetteer.rs:41-43, stemmer.rs:48-53): a text with the key of another one is taken for it, with score 1 in the lookup parser. | `c104_lookup_false`, `c104_gazetteer_false`, `c104_stemmer_false` |
| C108 | The co-occurrence featurizer tokenises the text as it is written (featurizer.rs:313-348) and compares words and stop words without normalising them, unlike the tf-idf featurizer (featurizer.rs:178-190): with word pairs in the model `Turn on` and `turn on` may get different intents. | `c108_pairs_counterexample` |
| C110 | The lookup parser pairs the slots of the table entry with the entities of the query in order, without checking that they are of the same entity (lookup_intent_parser.rs:288-327; the check of their number is a `debug_assert`). A placeholder typed in the query makes it give a slot the entity of another one. | `c110_typed_counterexample` |
| C110 | `get_entity_placeholder` removes spaces and case (lookup_intent_parser.rs:344-352): different entities get the same placeholder, and a slot declared with one is returned with the other. | `c110_placeholder_counterexample` |
| C111 | In the lookup parser a new intent, itself not recognised in a query, can make the query be recognised as another intent of its group: the query is cleaned with the stop words of each intent of the group and then looked up for all of them (lookup_intent_parser.rs:241-249). | `c111_lookup_counterexample` |
| C124 | A record about another word can change the cluster of a word: with a cluster name that is not a number anywhere in the file, `007` stays `007`, otherwise it is read as `7` (see C50; word_clusterer.rs). | `c124_clusters_counterexample`; `c124_clusters` for plain names |
| C120 | The classifier answers the empty query without looking at it (no intent, probability 1), but runs the regression on a query of blanks, whose features are all zero: the intercepts decide, so a blank can be recognised as an intent. Queries are not trimmed. | `c120_empty_counterexample`; the theorems ask for a query that is not empty |
| C92 | A linear score of 17 or more gives the score 1 exactly (`1. / (1. + (-x).exp())` in single precision), so that with linear scores 18 and 30 the intent listed first is chosen, with confidence 1, although the other one is far likelier. | `c92_saturates`, `c92_saturates_counterexample` |
| C94 | With the inverse document frequency 2^64 the square of a component overflows, and the feature of a text of one known word is 0 in place of 1; with 2^-80 the square underflows and the feature is 2^-80. Such numbers do not occur in trained models; nothing checks them on loading. | `c94_overflow_counterexample`, `c94_underflow_counterexample` |
| C95 | At the end of its input the example program does not stop: `read_line` gives no bytes, and the empty text is parsed and answered again and again. | `c95_never_ends`, `c95_never_ends_counterexample` |

Observations on the code that are not claims of the list: `get_intents` adds an intent of a later parser only if
its score exceeds 0; an engine without parsers answers `get_slots` of an unknown intent with no slots; alternatives
may fail when parsers know different intents; the lists of intents and of scores of the classifier are zipped, the
shorter one wins; the tagging scheme code is truncated to 8 bits; `with_extension` maps the resource names `x.1` and
`x.2` to the same file; an entity parser directory named `..` in the metadata would be removed by an injection; a
panic under the guard of the C interface poisons the engine, after which every call reports KO.

## Trusted base

1. The Lean 4.33.0 kernel, and the axioms `propext`, `Classical.choice` and `Quot.sound`.  No other axiom occurs
   (`lean/Verif/Axioms.lean` prints them for each property theorem).  No `sorry`, `admit`, `native_decide`,
   `bv_decide`, `implemented_by`, `unsafe`.
2. The transcription of the Rust code in `lean/Verif/Model`, each definition of which cites file and lines.
3. The transcription of small functions of dependencies, whose sources are not in the sandbox:
   * `snips_nlu_utils`: `ranges_overlap` (half-open overlap), `substring_with_char_range`,
     `suffix_from_char_index`, `convert_to_char_index`/`convert_to_char_range`, `compute_all_ngrams`,
     `Token::normalized_value` (Basic, Bytes, Features);
   * `lru_cache::LruCache`: `get_mut` refreshes, `insert` evicts the least recently used (EntityParser);
   * standard library: sorts are stable, `max_by` returns the last maximum, `Path::join`, `with_extension` and
     `components` of Unix, `u16::from_str` (Basic, Classifier, Files, Loading, Resources);
   * `itertools`: `unique`, `combinations` (RuleParser, Lookup);
   * standard library and `csv`: UTF-8, `BufRead::lines`, `csv::Reader` without quoting (Readers); a byte order mark at
     the beginning of a file is not treated;
   * `serde` and `serde_json`: derived `Deserialize` of structures (objects or arrays, unknown fields ignored, repeated
     known fields refused, `Option` and `default`), of tagged enumerations and of the types of the standard library,
     integer keys by `FromStr`, `Value::as_*` (Json, Decode); numbers beyond `f32` become infinite in `Nan` only;
   * `serde_json`'s texts (JsonText): the parser reads the whole document first (fields that no structure knows included),
     `-0` is the integer 0, the whole file is checked to be UTF-8, 127 containers may be nested; the compact formatter;
   * `Serialize` of the types of `snips_nlu_ontology` (ResultJson): names of fields and kinds; the text of an `f32` is that
     of the `f64` it is read back as;
   * `zip::read::ZipFile::sanitized_name` (Archive);
   * `ndarray`: `into_shape`, `dot` fail or panic on wrong sizes (Classifier); the order of summation of `dot` is
     arbitrary, except in `c70_no_nan` and `c70_infinite_coefficient`, where it is sequential;
   * IEEE 754 arithmetic of special values, `exp` and `sqrt` of special values (Nan);
   * `ffi_utils`: `wrap!`, `convert_to_c_string!`, `CStringArray`, `RawPointerConverter` (Ffi);
   * `tempfile::TempDir` (FromZip);
   * `generate_error_handling!` of `ffi_utils`: the last error of the thread, "No error message" when there is none; one
     thread is modelled (Bindings);
   * `ctypes`: integers are masked to 32 bits, byte strings are passed up to their null byte (Bindings);
   * JNA: `Memory` is released by the collector once unreachable, an empty array of pointers has null data (Bindings);
   * `slice::from_raw_parts` requires a pointer that is not null; Swift: `UInt32(_:)` traps, `withUnsafeBytes` of empty data
     is null, pointers escaping from `withUnsafePointer` stay valid (Bindings);
   * `snips_nlu_ontology_ffi_macros`: the conversion of results to the structures of the header; `float`s as rationals,
     arrays with lengths as lists; a `CInt` read where an `int64_t` lies is its lower half (SwiftValues).
4. Parameters of the model, arbitrary in every theorem unless a hypothesis says otherwise:
   * builtin and custom entity extraction (`Prog`), with errors and panics;
   * tokenizers, lower and upper case, `normalize`, shapes, hashes (`TextFns`);
   * the regular expression engine (`Deterministic`), the CRF tagger (`SlotFiller`: without state; `TaggerShared`: its state is the features last given to `set` or `tag`), base64 decoding of texts not in canonical form (`Base64`; the encoding and the
     decoding of canonical texts are transcribed), `exp`, `ln`
     and `sqrt` over `ℝ`;
   * the JSON document in a file (`LoadEnv.json`; C79 instantiates it with the transcribed parser), `f64` of a decimal
     number and the text of a number (`JsonNumbers`), languages (`LoadEnv`);
   * gazetteer parsers of `gazetteer-entity-parser`: `from_folder`, `inject_new_values`, `dump` (`Injection`);
     only in C90 and C91, the directories of the custom and of the builtin entity parser are loaded as one gazetteer parser per
     directory listed in the metadata, and `from_folder` reads back what `dump` wrote (structure `Composed`);
   * hash iteration orders (`HashOrd`), rounding of `f32` (`Rounding`), disk failures (`fault`), interruptions
     of writes, thread schedules.

### Modelled

| code | model |
|------|-------|
| src/nlu_engine.rs (inference, filters, alternatives, slot resolution, loading, `from_zip`) | Engine, Loading, Messages, FromZip; with caches, taggers, threads and clock: EngineShared |
| src/slot_utils.rs, src/errors.rs | SlotUtils, Types, Basic |
| src/models | Json, JsonText, Decode |
| src/utils.rs | Utils, Archive |
| src/entity_parser/* | EntityParser, Prog, Concurrent, Loading |
| src/intent_parser/{lookup,deterministic,probabilistic}_intent_parser.rs | RuleParser, Lookup, Deterministic, Probabilistic, Parsers; in `i32`: Machine; in `f32`: Binary32 |
| src/intent_classifier/* | Classifier, Loading |
| src/slot_filler/* | Crf, SlotFiller, TaggerShared, Features, FeatureFactory, Bytes |
| src/resources/* | Resources, Readers, Loading |
| src/injection/* | Injection, InjectMessages |
| ffi/src/lib.rs | Ffi, FfiConcurrent, ResultJson |
| examples/interactive_parsing_cli.rs | Cli |
| platforms/{python,kotlin,swift} (engine classes) | Bindings |
| platforms/swift (structures), platforms/c/libsnips_nlu.h | SwiftValues |

### Not modelled

* src/testutils.rs, all `#[cfg(test)]` modules, `benches`, build scripts; in `platforms/` the packaging,
  the conversion of structures in Kotlin (in another repository); Python's `json.loads` is taken to agree with the
  grammar of `Spec/JsonText` (C80).
* Context messages of errors and the `Display` of errors outside loading (C89), injection (C93) and queries (C97); logging.
* `i32` overflow outside `Model/Machine` (C86: the rest of the model computes with unbounded integers where the code has
  `i32`, which is the same for texts of less than 2^29 characters); `usize` overflow other than the underflows that are
  explicit panics, the co-occurrence window and the sizes of n-grams (shape n-grams in `Model/Machine` only: a size near
  2^64 panics in a debug build and not in a release build).
* C92 has no limits of the exponent of `f32`; C94 has them, for models of ordinary magnitude. Neither distinguishes -0 from 0.
* `f32` infinities and NaN outside the classifier (C70) and the rule-based parsers (C84), the sign of zero, and underflow other than as rounding to 0.
* Symbolic links; concurrent changes of the disk by other processes.
* Memory exhaustion and the layout of C structures.
* The clock does not advance within one call outside `Model/EngineShared` (C88, where it advances at any point).
