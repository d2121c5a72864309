import Verif.Model.JsonText
import Verif.Model.Decode
import Verif.Conformance.JsonEq

/-! # The files of the test models

Written by tools/model_files.py from the files in /repo/data/tests/models.  Each text is read and compared with what
another JSON parser makes of it, and then decoded.  These are tests run by the interpreter, not proofs. -/

namespace Snips.Conformance

/-- data/tests/models/nlu_engine_beverage/nlu_engine.json -/
def file1 : Text := s "{\n  \"builtin_entity_parser\": \"builtin_entity_parser\",\n  \"config\": {\n    \"intent_parsers_configs\": [\n      {\n        \"ignore_stop_words\": true,\n        \"unit_name\": \"lookup_intent_parser\"\n      },\n      {\n        \"ignore_stop_words\": true,\n        \"max_pattern_length\": 1000,\n        \"max_queries\": 100,\n        \"unit_name\": \"deterministic_intent_parser\"\n      },\n      {\n        \"intent_classifier_config\": {\n          \"data_augmentation_config\": {\n            \"add_builtin_entities_examples\": false,\n            \"max_unknown_words\": 0,\n            \"min_utterances\": 20,\n            \"noise_factor\": 5,\n            \"unknown_word_prob\": 0,\n            \"unknown_words_replacement_string\": null\n          },\n          \"featurizer_config\": {\n            \"added_cooccurrence_feature_ratio\": 0.25,\n            \"cooccurrence_vectorizer_config\": {\n              \"filter_stop_words\": true,\n              \"keep_order\": true,\n              \"unit_name\": \"cooccurrence_vectorizer\",\n              \"unknown_words_replacement_string\": null,\n              \"window_size\": 5\n            },\n            \"pvalue_threshold\": 0.4,\n            \"tfidf_vectorizer_config\": {\n              \"unit_name\": \"tfidf_vectorizer\",\n              \"use_stemming\": false,\n              \"word_clusters_name\": null\n            },\n            \"unit_name\": \"featurizer\"\n          },\n          \"noise_reweight_factor\": 1.0,\n          \"unit_name\": \"log_reg_intent_classifier\"\n        },\n        \"slot_filler_config\": {\n          \"crf_args\": {\n            \"algorithm\": \"lbfgs\",\n            \"c1\": 0.1,\n            \"c2\": 0.1\n          },\n          \"data_augmentation_config\": {\n            \"add_builtin_entities_examples\": true,\n            \"capitalization_ratio\": 0.2,\n            \"min_utterances\": 200\n          },\n          \"feature_factory_configs\": [\n            {\n              \"args\": {\n                \"common_words_gazetteer_name\": \"top_10000_words_stemmed\",\n                \"n\": 1,\n                \"use_stemming\": true\n              },\n              \"factory_name\": \"ngram\",\n              \"offsets\": [\n                -2,\n                -1,\n                0,\n                1,\n                2\n              ]\n            },\n            {\n              \"args\": {\n                \"common_words_gazetteer_name\": \"top_10000_words_stemmed\",\n                \"n\": 2,\n                \"use_stemming\": true\n              },\n              \"factory_name\": \"ngram\",\n              \"offsets\": [\n                -2,\n                1\n              ]\n            },\n            {\n              \"args\": {},\n              \"factory_name\": \"is_digit\",\n              \"offsets\": [\n                -1,\n                0,\n                1\n              ]\n            },\n            {\n              \"args\": {},\n              \"factory_name\": \"is_first\",\n              \"offsets\": [\n                -2,\n                -1,\n                0\n              ]\n            },\n            {\n              \"args\": {},\n              \"factory_name\": \"is_last\",\n              \"offsets\": [\n                0,\n                1,\n                2\n              ]\n            },\n            {\n              \"args\": {\n                \"n\": 1\n              },\n              \"factory_name\": \"shape_ngram\",\n              \"offsets\": [\n                0\n              ]\n            },\n            {\n              \"args\": {\n                \"n\": 2\n              },\n              \"factory_name\": \"shape_ngram\",\n              \"offsets\": [\n                -1,\n                0\n              ]\n            },\n            {\n              \"args\": {\n                \"n\": 3\n              },\n              \"factory_name\": \"shape_ngram\",\n              \"offsets\": [\n                -1\n              ]\n            },\n            {\n              \"args\": {\n                \"tagging_scheme_code\": 2,\n                \"use_stemming\": true\n              },\n              \"drop_out\": 0.5,\n              \"factory_name\": \"entity_match\",\n              \"offsets\": [\n                -2,\n                -1,\n                0\n              ]\n            },\n            {\n              \"args\": {\n                \"tagging_scheme_code\": 1\n              },\n              \"factory_name\": \"builtin_entity_match\",\n              \"offsets\": [\n                -2,\n                -1,\n                0\n              ]\n            }\n          ],\n          \"tagging_scheme\": 1,\n          \"unit_name\": \"crf_slot_filler\"\n        },\n        \"unit_name\": \"probabilistic_intent_parser\"\n      }\n    ],\n    \"unit_name\": \"nlu_engine\"\n  },\n  \"custom_entity_parser\": \"custom_entity_parser\",\n  \"dataset_metadata\": {\n    \"entities\": {\n      \"Temperature\": {\n        \"automatically_extensible\": true\n      }\n    },\n    \"language_code\": \"en\",\n    \"slot_name_mappings\": {\n      \"MakeCoffee\": {\n        \"number_of_cups\": \"snips/number\"\n      },\n      \"MakeTea\": {\n        \"beverage_temperature\": \"Temperature\",\n        \"number_of_cups\": \"snips/number\"\n      }\n    }\n  },\n  \"intent_parsers\": [\n    \"lookup_intent_parser\",\n    \"deterministic_intent_parser\",\n    \"probabilistic_intent_parser\"\n  ],\n  \"model_version\": \"0.20.0\",\n  \"training_package_version\": \"0.20.0\",\n  \"unit_name\": \"nlu_engine\"\n}"

/-- What it denotes. -/
def tree1 : Json := .obj [(s "builtin_entity_parser", .str (s "builtin_entity_parser")), (s "config", .obj [(s
  "intent_parsers_configs", .arr [.obj [(s "ignore_stop_words", .bool true), (s "unit_name", .str (s
  "lookup_intent_parser"))], .obj [(s "ignore_stop_words", .bool true), (s "max_pattern_length", .int (1000)), (s
  "max_queries", .int (100)), (s "unit_name", .str (s "deterministic_intent_parser"))], .obj [(s
  "intent_classifier_config", .obj [(s "data_augmentation_config", .obj [(s "add_builtin_entities_examples", .bool
  false), (s "max_unknown_words", .int (0)), (s "min_utterances", .int (20)), (s "noise_factor", .int (5)), (s
  "unknown_word_prob", .int (0)), (s "unknown_words_replacement_string", .null)]), (s "featurizer_config", .obj [(s
  "added_cooccurrence_feature_ratio", .float (1 / 4)), (s "cooccurrence_vectorizer_config", .obj [(s
  "filter_stop_words", .bool true), (s "keep_order", .bool true), (s "unit_name", .str (s
  "cooccurrence_vectorizer")), (s "unknown_words_replacement_string", .null), (s "window_size", .int (5))]), (s
  "pvalue_threshold", .float (2 / 5)), (s "tfidf_vectorizer_config", .obj [(s "unit_name", .str (s
  "tfidf_vectorizer")), (s "use_stemming", .bool false), (s "word_clusters_name", .null)]), (s "unit_name", .str (s
  "featurizer"))]), (s "noise_reweight_factor", .float (1 / 1)), (s "unit_name", .str (s
  "log_reg_intent_classifier"))]), (s "slot_filler_config", .obj [(s "crf_args", .obj [(s "algorithm", .str (s
  "lbfgs")), (s "c1", .float (1 / 10)), (s "c2", .float (1 / 10))]), (s "data_augmentation_config", .obj [(s
  "add_builtin_entities_examples", .bool true), (s "capitalization_ratio", .float (1 / 5)), (s "min_utterances",
  .int (200))]), (s "feature_factory_configs", .arr [.obj [(s "args", .obj [(s "common_words_gazetteer_name", .str
  (s "top_10000_words_stemmed")), (s "n", .int (1)), (s "use_stemming", .bool true)]), (s "factory_name", .str (s
  "ngram")), (s "offsets", .arr [.int (-2), .int (-1), .int (0), .int (1), .int (2)])], .obj [(s "args", .obj [(s
  "common_words_gazetteer_name", .str (s "top_10000_words_stemmed")), (s "n", .int (2)), (s "use_stemming", .bool
  true)]), (s "factory_name", .str (s "ngram")), (s "offsets", .arr [.int (-2), .int (1)])], .obj [(s "args", .obj
  []), (s "factory_name", .str (s "is_digit")), (s "offsets", .arr [.int (-1), .int (0), .int (1)])], .obj [(s
  "args", .obj []), (s "factory_name", .str (s "is_first")), (s "offsets", .arr [.int (-2), .int (-1), .int (0)])],
  .obj [(s "args", .obj []), (s "factory_name", .str (s "is_last")), (s "offsets", .arr [.int (0), .int (1), .int
  (2)])], .obj [(s "args", .obj [(s "n", .int (1))]), (s "factory_name", .str (s "shape_ngram")), (s "offsets", .arr
  [.int (0)])], .obj [(s "args", .obj [(s "n", .int (2))]), (s "factory_name", .str (s "shape_ngram")), (s
  "offsets", .arr [.int (-1), .int (0)])], .obj [(s "args", .obj [(s "n", .int (3))]), (s "factory_name", .str (s
  "shape_ngram")), (s "offsets", .arr [.int (-1)])], .obj [(s "args", .obj [(s "tagging_scheme_code", .int (2)), (s
  "use_stemming", .bool true)]), (s "drop_out", .float (1 / 2)), (s "factory_name", .str (s "entity_match")), (s
  "offsets", .arr [.int (-2), .int (-1), .int (0)])], .obj [(s "args", .obj [(s "tagging_scheme_code", .int (1))]),
  (s "factory_name", .str (s "builtin_entity_match")), (s "offsets", .arr [.int (-2), .int (-1), .int (0)])]]), (s
  "tagging_scheme", .int (1)), (s "unit_name", .str (s "crf_slot_filler"))]), (s "unit_name", .str (s
  "probabilistic_intent_parser"))]]), (s "unit_name", .str (s "nlu_engine"))]), (s "custom_entity_parser", .str (s
  "custom_entity_parser")), (s "dataset_metadata", .obj [(s "entities", .obj [(s "Temperature", .obj [(s
  "automatically_extensible", .bool true)])]), (s "language_code", .str (s "en")), (s "slot_name_mappings", .obj [(s
  "MakeCoffee", .obj [(s "number_of_cups", .str (s "snips/number"))]), (s "MakeTea", .obj [(s
  "beverage_temperature", .str (s "Temperature")), (s "number_of_cups", .str (s "snips/number"))])])]), (s
  "intent_parsers", .arr [.str (s "lookup_intent_parser"), .str (s "deterministic_intent_parser"), .str (s
  "probabilistic_intent_parser")]), (s "model_version", .str (s "0.20.0")), (s "training_package_version", .str (s
  "0.20.0")), (s "unit_name", .str (s "nlu_engine"))]

#guard reads file1 tree1

#guard decoded (decodeEngine) (fun m => (m.languageCode, m.intentParsers, m.builtinEntityParser,
  m.customEntityParser)) tree1 ((s "en", [s "lookup_intent_parser", s "deterministic_intent_parser", s
  "probabilistic_intent_parser"], s "builtin_entity_parser", s "custom_entity_parser"))

/-- data/tests/models/nlu_engine_beverage/custom_entity_parser/metadata.json -/
def file2 : Text := s "{\n  \"language\": \"en\",\n  \"parser_directory\": \"parser\",\n  \"parser_usage\": 2\n}"

/-- What it denotes. -/
def tree2 : Json := .obj [(s "language", .str (s "en")), (s "parser_directory", .str (s "parser")), (s
  "parser_usage", .int (2))]

#guard reads file2 tree2

#guard decoded (decodeCustomParser) (fun m => (m.language, m.parserDirectory)) tree2 ((s "en", s "parser"))

/-- data/tests/models/nlu_engine_beverage/deterministic_intent_parser/intent_parser.json -/
def file3 : Text := s "{\n  \"config\": {\n    \"ignore_stop_words\": true,\n    \"max_pattern_length\": 1000,\n    \"max_queries\": 100,\n    \"unit_name\": \"deterministic_intent_parser\"\n  },\n  \"group_names_to_slot_names\": {\n    \"group0\": \"beverage_temperature\",\n    \"group1\": \"number_of_cups\"\n  },\n  \"language_code\": \"en\",\n  \"patterns\": {\n    \"MakeCoffee\": [\n      \"^\\\\s*make\\\\s*(?P<group1>%SNIPSNUMBER%)\\\\s*cup\\\\s*of\\\\s*coffee\\\\s*$\",\n      \"^\\\\s*brew\\\\s*(?P<group1>%SNIPSNUMBER%)\\\\s*cups\\\\s*of\\\\s*coffee\\\\s*$\",\n      \"^\\\\s*prepare\\\\s*(?P<group1>%SNIPSNUMBER%)\\\\s*cup\\\\s*of\\\\s*coffee\\\\s*$\"\n    ],\n    \"MakeTea\": [\n      \"^\\\\s*make\\\\s*(?P<group0>%TEMPERATURE%)\\\\s*cup\\\\s*of\\\\s*tea\\\\s*$\",\n      \"^\\\\s*make\\\\s*(?P<group1>%SNIPSNUMBER%)\\\\s*tea\\\\s*cups\\\\s*$\",\n      \"^\\\\s*i\\\\s*want\\\\s*(?P<group1>%SNIPSNUMBER%)\\\\s*cups\\\\s*of\\\\s*(?P<group0>%TEMPERATURE%)\\\\s*tea\\\\s*$\",\n      \"^\\\\s*prepare\\\\s*(?P<group1>%SNIPSNUMBER%)\\\\s*cup\\\\s*of\\\\s*(?P<group0>%TEMPERATURE%)\\\\s*tea\\\\s*$\"\n    ]\n  },\n  \"slot_names_to_entities\": {\n    \"MakeCoffee\": {\n      \"number_of_cups\": \"snips/number\"\n    },\n    \"MakeTea\": {\n      \"beverage_temperature\": \"Temperature\",\n      \"number_of_cups\": \"snips/number\"\n    }\n  },\n  \"stop_words_whitelist\": {}\n}"

/-- What it denotes. -/
def tree3 : Json := .obj [(s "config", .obj [(s "ignore_stop_words", .bool true), (s "max_pattern_length", .int
  (1000)), (s "max_queries", .int (100)), (s "unit_name", .str (s "deterministic_intent_parser"))]), (s
  "group_names_to_slot_names", .obj [(s "group0", .str (s "beverage_temperature")), (s "group1", .str (s
  "number_of_cups"))]), (s "language_code", .str (s "en")), (s "patterns", .obj [(s "MakeCoffee", .arr [.str (s
  "^\\s*make\\s*(?P<group1>%SNIPSNUMBER%)\\s*cup\\s*of\\s*coffee\\s*$"), .str (s
  "^\\s*brew\\s*(?P<group1>%SNIPSNUMBER%)\\s*cups\\s*of\\s*coffee\\s*$"), .str (s
  "^\\s*prepare\\s*(?P<group1>%SNIPSNUMBER%)\\s*cup\\s*of\\s*coffee\\s*$")]), (s "MakeTea", .arr [.str (s
  "^\\s*make\\s*(?P<group0>%TEMPERATURE%)\\s*cup\\s*of\\s*tea\\s*$"), .str (s
  "^\\s*make\\s*(?P<group1>%SNIPSNUMBER%)\\s*tea\\s*cups\\s*$"), .str (s
  "^\\s*i\\s*want\\s*(?P<group1>%SNIPSNUMBER%)\\s*cups\\s*of\\s*(?P<group0>%TEMPERATURE%)\\s*tea\\s*$"), .str (s
  "^\\s*prepare\\s*(?P<group1>%SNIPSNUMBER%)\\s*cup\\s*of\\s*(?P<group0>%TEMPERATURE%)\\s*tea\\s*$")])]), (s
  "slot_names_to_entities", .obj [(s "MakeCoffee", .obj [(s "number_of_cups", .str (s "snips/number"))]), (s
  "MakeTea", .obj [(s "beverage_temperature", .str (s "Temperature")), (s "number_of_cups", .str (s
  "snips/number"))])]), (s "stop_words_whitelist", .obj [])]

#guard reads file3 tree3

#guard decoded (decodeDeterministic) (fun m => (m.languageCode, m.patterns)) tree3 ((s "en", [(s "MakeCoffee", [s
  "^\\s*make\\s*(?P<group1>%SNIPSNUMBER%)\\s*cup\\s*of\\s*coffee\\s*$", s
  "^\\s*brew\\s*(?P<group1>%SNIPSNUMBER%)\\s*cups\\s*of\\s*coffee\\s*$", s
  "^\\s*prepare\\s*(?P<group1>%SNIPSNUMBER%)\\s*cup\\s*of\\s*coffee\\s*$"]), (s "MakeTea", [s
  "^\\s*make\\s*(?P<group0>%TEMPERATURE%)\\s*cup\\s*of\\s*tea\\s*$", s
  "^\\s*make\\s*(?P<group1>%SNIPSNUMBER%)\\s*tea\\s*cups\\s*$", s
  "^\\s*i\\s*want\\s*(?P<group1>%SNIPSNUMBER%)\\s*cups\\s*of\\s*(?P<group0>%TEMPERATURE%)\\s*tea\\s*$", s
  "^\\s*prepare\\s*(?P<group1>%SNIPSNUMBER%)\\s*cup\\s*of\\s*(?P<group0>%TEMPERATURE%)\\s*tea\\s*$"])]))

/-- data/tests/models/nlu_engine_beverage/deterministic_intent_parser/metadata.json -/
def file4 : Text := s "{\n  \"unit_name\": \"deterministic_intent_parser\"\n}"

/-- What it denotes. -/
def tree4 : Json := .obj [(s "unit_name", .str (s "deterministic_intent_parser"))]

#guard reads file4 tree4

#guard decoded (decodeUnit) (fun u => u) tree4 (.deterministicIntentParser)

/-- data/tests/models/nlu_engine_beverage/lookup_intent_parser/intent_parser.json -/
def file5 : Text := s "{\n  \"config\": {\n    \"ignore_stop_words\": true,\n    \"unit_name\": \"lookup_intent_parser\"\n  },\n  \"entity_scopes\": [\n    {\n      \"entity_scope\": {\n        \"builtin\": [\n          \"snips/number\"\n        ],\n        \"custom\": []\n      },\n      \"intent_group\": [\n        \"MakeCoffee\"\n      ]\n    },\n    {\n      \"entity_scope\": {\n        \"builtin\": [\n          \"snips/number\"\n        ],\n        \"custom\": [\n          \"Temperature\"\n        ]\n      },\n      \"intent_group\": [\n        \"MakeTea\"\n      ]\n    }\n  ],\n  \"intents_names\": [\n    \"MakeCoffee\",\n    \"MakeTea\"\n  ],\n  \"language_code\": \"en\",\n  \"map\": {\n    \"-1658454006\": [\n      1,\n      [\n        0\n      ]\n    ],\n    \"-1533083481\": [\n      0,\n      [\n        0\n      ]\n    ],\n    \"-1416877420\": [\n      0,\n      [\n        0\n      ]\n    ],\n    \"-1362288387\": [\n      1,\n      [\n        0,\n        1\n      ]\n    ],\n    \"-687749971\": [\n      0,\n      [\n        0\n      ]\n    ],\n    \"1085718744\": [\n      1,\n      [\n        1\n      ]\n    ],\n    \"1413162768\": [\n      1,\n      [\n        0,\n        1\n      ]\n    ]\n  },\n  \"slots_names\": [\n    \"number_of_cups\",\n    \"beverage_temperature\"\n  ],\n  \"stop_words_whitelist\": {}\n}"

/-- What it denotes. -/
def tree5 : Json := .obj [(s "config", .obj [(s "ignore_stop_words", .bool true), (s "unit_name", .str (s
  "lookup_intent_parser"))]), (s "entity_scopes", .arr [.obj [(s "entity_scope", .obj [(s "builtin", .arr [.str (s
  "snips/number")]), (s "custom", .arr [])]), (s "intent_group", .arr [.str (s "MakeCoffee")])], .obj [(s
  "entity_scope", .obj [(s "builtin", .arr [.str (s "snips/number")]), (s "custom", .arr [.str (s
  "Temperature")])]), (s "intent_group", .arr [.str (s "MakeTea")])]]), (s "intents_names", .arr [.str (s
  "MakeCoffee"), .str (s "MakeTea")]), (s "language_code", .str (s "en")), (s "map", .obj [(s "-1658454006", .arr
  [.int (1), .arr [.int (0)]]), (s "-1533083481", .arr [.int (0), .arr [.int (0)]]), (s "-1416877420", .arr [.int
  (0), .arr [.int (0)]]), (s "-1362288387", .arr [.int (1), .arr [.int (0), .int (1)]]), (s "-687749971", .arr [.int
  (0), .arr [.int (0)]]), (s "1085718744", .arr [.int (1), .arr [.int (1)]]), (s "1413162768", .arr [.int (1), .arr
  [.int (0), .int (1)]])]), (s "slots_names", .arr [.str (s "number_of_cups"), .str (s "beverage_temperature")]), (s
  "stop_words_whitelist", .obj [])]

#guard reads file5 tree5

#guard decoded (decodeLookup) (fun m => (m.languageCode, m.slotsNames, m.intentsNames, m.map.map fun e => e.1 ::
  e.2.1 :: e.2.2)) tree5 ((s "en", [s "number_of_cups", s "beverage_temperature"], [s "MakeCoffee", s "MakeTea"],
  [[-1658454006, 1, 0], [-1533083481, 0, 0], [-1416877420, 0, 0], [-1362288387, 1, 0, 1], [-687749971, 0, 0],
  [1085718744, 1, 1], [1413162768, 1, 0, 1]]))

/-- data/tests/models/nlu_engine_beverage/lookup_intent_parser/metadata.json -/
def file6 : Text := s "{\n  \"unit_name\": \"lookup_intent_parser\"\n}"

/-- What it denotes. -/
def tree6 : Json := .obj [(s "unit_name", .str (s "lookup_intent_parser"))]

#guard reads file6 tree6

#guard decoded (decodeUnit) (fun u => u) tree6 (.lookupIntentParser)

/-- data/tests/models/nlu_engine_beverage/probabilistic_intent_parser/intent_parser.json -/
def file7 : Text := s "{\n  \"config\": {\n    \"intent_classifier_config\": {\n      \"data_augmentation_config\": {\n        \"add_builtin_entities_examples\": false,\n        \"max_unknown_words\": 0,\n        \"min_utterances\": 20,\n        \"noise_factor\": 5,\n        \"unknown_word_prob\": 0,\n        \"unknown_words_replacement_string\": null\n      },\n      \"featurizer_config\": {\n        \"added_cooccurrence_feature_ratio\": 0.25,\n        \"cooccurrence_vectorizer_config\": {\n          \"filter_stop_words\": true,\n          \"keep_order\": true,\n          \"unit_name\": \"cooccurrence_vectorizer\",\n          \"unknown_words_replacement_string\": null,\n          \"window_size\": 5\n        },\n        \"pvalue_threshold\": 0.4,\n        \"tfidf_vectorizer_config\": {\n          \"unit_name\": \"tfidf_vectorizer\",\n          \"use_stemming\": false,\n          \"word_clusters_name\": null\n        },\n        \"unit_name\": \"featurizer\"\n      },\n      \"noise_reweight_factor\": 1.0,\n      \"unit_name\": \"log_reg_intent_classifier\"\n    },\n    \"slot_filler_config\": {\n      \"crf_args\": {\n        \"algorithm\": \"lbfgs\",\n        \"c1\": 0.1,\n        \"c2\": 0.1\n      },\n      \"data_augmentation_config\": {\n        \"add_builtin_entities_examples\": true,\n        \"capitalization_ratio\": 0.2,\n        \"min_utterances\": 200\n      },\n      \"feature_factory_configs\": [\n        {\n          \"args\": {\n            \"common_words_gazetteer_name\": \"top_10000_words_stemmed\",\n            \"n\": 1,\n            \"use_stemming\": true\n          },\n          \"factory_name\": \"ngram\",\n          \"offsets\": [\n            -2,\n            -1,\n            0,\n            1,\n            2\n          ]\n        },\n        {\n          \"args\": {\n            \"common_words_gazetteer_name\": \"top_10000_words_stemmed\",\n            \"n\": 2,\n            \"use_stemming\": true\n          },\n          \"factory_name\": \"ngram\",\n          \"offsets\": [\n            -2,\n            1\n          ]\n        },\n        {\n          \"args\": {},\n          \"factory_name\": \"is_digit\",\n          \"offsets\": [\n            -1,\n            0,\n            1\n          ]\n        },\n        {\n          \"args\": {},\n          \"factory_name\": \"is_first\",\n          \"offsets\": [\n            -2,\n            -1,\n            0\n          ]\n        },\n        {\n          \"args\": {},\n          \"factory_name\": \"is_last\",\n          \"offsets\": [\n            0,\n            1,\n            2\n          ]\n        },\n        {\n          \"args\": {\n            \"n\": 1\n          },\n          \"factory_name\": \"shape_ngram\",\n          \"offsets\": [\n            0\n          ]\n        },\n        {\n          \"args\": {\n            \"n\": 2\n          },\n          \"factory_name\": \"shape_ngram\",\n          \"offsets\": [\n            -1,\n            0\n          ]\n        },\n        {\n          \"args\": {\n            \"n\": 3\n          },\n          \"factory_name\": \"shape_ngram\",\n          \"offsets\": [\n            -1\n          ]\n        },\n        {\n          \"args\": {\n            \"tagging_scheme_code\": 2,\n            \"use_stemming\": true\n          },\n          \"drop_out\": 0.5,\n          \"factory_name\": \"entity_match\",\n          \"offsets\": [\n            -2,\n            -1,\n            0\n          ]\n        },\n        {\n          \"args\": {\n            \"tagging_scheme_code\": 1\n          },\n          \"factory_name\": \"builtin_entity_match\",\n          \"offsets\": [\n            -2,\n            -1,\n            0\n          ]\n        }\n      ],\n      \"tagging_scheme\": 1,\n      \"unit_name\": \"crf_slot_filler\"\n    },\n    \"unit_name\": \"probabilistic_intent_parser\"\n  },\n  \"slot_fillers\": [\n    {\n      \"intent\": \"MakeCoffee\",\n      \"slot_filler_name\": \"slot_filler_0\"\n    },\n    {\n      \"intent\": \"MakeTea\",\n      \"slot_filler_name\": \"slot_filler_1\"\n    }\n  ]\n}"

/-- What it denotes. -/
def tree7 : Json := .obj [(s "config", .obj [(s "intent_classifier_config", .obj [(s "data_augmentation_config",
  .obj [(s "add_builtin_entities_examples", .bool false), (s "max_unknown_words", .int (0)), (s "min_utterances",
  .int (20)), (s "noise_factor", .int (5)), (s "unknown_word_prob", .int (0)), (s
  "unknown_words_replacement_string", .null)]), (s "featurizer_config", .obj [(s "added_cooccurrence_feature_ratio",
  .float (1 / 4)), (s "cooccurrence_vectorizer_config", .obj [(s "filter_stop_words", .bool true), (s "keep_order",
  .bool true), (s "unit_name", .str (s "cooccurrence_vectorizer")), (s "unknown_words_replacement_string", .null),
  (s "window_size", .int (5))]), (s "pvalue_threshold", .float (2 / 5)), (s "tfidf_vectorizer_config", .obj [(s
  "unit_name", .str (s "tfidf_vectorizer")), (s "use_stemming", .bool false), (s "word_clusters_name", .null)]), (s
  "unit_name", .str (s "featurizer"))]), (s "noise_reweight_factor", .float (1 / 1)), (s "unit_name", .str (s
  "log_reg_intent_classifier"))]), (s "slot_filler_config", .obj [(s "crf_args", .obj [(s "algorithm", .str (s
  "lbfgs")), (s "c1", .float (1 / 10)), (s "c2", .float (1 / 10))]), (s "data_augmentation_config", .obj [(s
  "add_builtin_entities_examples", .bool true), (s "capitalization_ratio", .float (1 / 5)), (s "min_utterances",
  .int (200))]), (s "feature_factory_configs", .arr [.obj [(s "args", .obj [(s "common_words_gazetteer_name", .str
  (s "top_10000_words_stemmed")), (s "n", .int (1)), (s "use_stemming", .bool true)]), (s "factory_name", .str (s
  "ngram")), (s "offsets", .arr [.int (-2), .int (-1), .int (0), .int (1), .int (2)])], .obj [(s "args", .obj [(s
  "common_words_gazetteer_name", .str (s "top_10000_words_stemmed")), (s "n", .int (2)), (s "use_stemming", .bool
  true)]), (s "factory_name", .str (s "ngram")), (s "offsets", .arr [.int (-2), .int (1)])], .obj [(s "args", .obj
  []), (s "factory_name", .str (s "is_digit")), (s "offsets", .arr [.int (-1), .int (0), .int (1)])], .obj [(s
  "args", .obj []), (s "factory_name", .str (s "is_first")), (s "offsets", .arr [.int (-2), .int (-1), .int (0)])],
  .obj [(s "args", .obj []), (s "factory_name", .str (s "is_last")), (s "offsets", .arr [.int (0), .int (1), .int
  (2)])], .obj [(s "args", .obj [(s "n", .int (1))]), (s "factory_name", .str (s "shape_ngram")), (s "offsets", .arr
  [.int (0)])], .obj [(s "args", .obj [(s "n", .int (2))]), (s "factory_name", .str (s "shape_ngram")), (s
  "offsets", .arr [.int (-1), .int (0)])], .obj [(s "args", .obj [(s "n", .int (3))]), (s "factory_name", .str (s
  "shape_ngram")), (s "offsets", .arr [.int (-1)])], .obj [(s "args", .obj [(s "tagging_scheme_code", .int (2)), (s
  "use_stemming", .bool true)]), (s "drop_out", .float (1 / 2)), (s "factory_name", .str (s "entity_match")), (s
  "offsets", .arr [.int (-2), .int (-1), .int (0)])], .obj [(s "args", .obj [(s "tagging_scheme_code", .int (1))]),
  (s "factory_name", .str (s "builtin_entity_match")), (s "offsets", .arr [.int (-2), .int (-1), .int (0)])]]), (s
  "tagging_scheme", .int (1)), (s "unit_name", .str (s "crf_slot_filler"))]), (s "unit_name", .str (s
  "probabilistic_intent_parser"))]), (s "slot_fillers", .arr [.obj [(s "intent", .str (s "MakeCoffee")), (s
  "slot_filler_name", .str (s "slot_filler_0"))], .obj [(s "intent", .str (s "MakeTea")), (s "slot_filler_name",
  .str (s "slot_filler_1"))]])]

#guard reads file7 tree7

#guard decoded (decodeProbabilistic) (fun m => m) tree7 ([(s "MakeCoffee", s "slot_filler_0"), (s "MakeTea", s
  "slot_filler_1")])

/-- data/tests/models/nlu_engine_beverage/probabilistic_intent_parser/metadata.json -/
def file8 : Text := s "{\n  \"unit_name\": \"probabilistic_intent_parser\"\n}"

/-- What it denotes. -/
def tree8 : Json := .obj [(s "unit_name", .str (s "probabilistic_intent_parser"))]

#guard reads file8 tree8

#guard decoded (decodeUnit) (fun u => u) tree8 (.probabilisticIntentParser)

/-- data/tests/models/nlu_engine_beverage/probabilistic_intent_parser/intent_classifier/intent_classifier.json -/
def file9 : Text := s "{\n  \"coeffs\": [\n    [\n      -0.06628334386039435,\n      -0.8643735409565843,\n      -0.10162233194496288,\n      0.3731953851089176,\n      -0.4488682974331702,\n      0.17636658950526615,\n      0.7184102193303363,\n      -0.06865280010172024,\n      0.29743179731574193,\n      0.0346771374230032,\n      -0.1761175736061183,\n      -0.13726751217877073,\n      -0.8071682094773692,\n      -0.05137180345130995,\n      -0.11880606643573582,\n      -1.0869381590717797,\n      0.32523561280093755,\n      -0.049393800526571136,\n      0.17636658950526615,\n      -0.37371467568972533,\n      -1.552232223994024,\n      -0.049393800526571136,\n      -0.07258216842039956,\n      1.773882907274256,\n      -0.7513363572925229,\n      -0.5328718550242008,\n      1.773882907274256,\n      -0.5328718550242008\n    ],\n    [\n      0.09460701831794095,\n      -0.6521590578791224,\n      0.2457151029413227,\n      -0.1564569232219889,\n      -0.501396327528731,\n      -0.006657999049205669,\n      -0.3254543267957415,\n      0.19982413835098595,\n      0.09848862892018242,\n      0.4824274378008,\n      0.4213894656886821,\n      0.30004773187161327,\n      -0.7342364277722051,\n      0.6427012659535128,\n      0.5425430291591661,\n      -1.2591009549072656,\n      -0.18164901959554086,\n      0.10599990651714576,\n      -0.006657999049205669,\n      0.8868013621218258,\n      -1.5676891353952978,\n      0.10599990651714576,\n      -0.2459922083905006,\n      -0.8070607856886259,\n      1.5929339342221138,\n      1.2525103361872103,\n      -0.8070607856886259,\n      1.2525103361872103\n    ],\n    [\n      -0.07342804814279959,\n      0.5198593428656567,\n      -0.1581096606820083,\n      -0.26280946680431544,\n      0.00904118342688167,\n      -0.2318387692350015,\n      -0.4684730287438426,\n      -0.1304212706183918,\n      -0.44631551521307367,\n      -0.5533957320987131,\n      -0.29099767056562215,\n      -0.21324635553933227,\n      0.5486473938992574,\n      -0.5604628287636957,\n      -0.4863443376102945,\n      0.7764987437479216,\n      -0.17070720658830346,\n      -0.09943826061076572,\n      -0.2318387692350015,\n      -0.5248553684542913,\n      1.3219543672776477,\n      -0.09943826061076572,\n      -0.025792600962746038,\n      -1.1511881362239413,\n      -0.9891682959063401,\n      -0.8725891493847063,\n      -1.1511881362239413,\n      -0.8725891493847063\n    ]\n  ],\n  \"config\": {\n    \"data_augmentation_config\": {\n      \"add_builtin_entities_examples\": false,\n      \"max_unknown_words\": 0,\n      \"min_utterances\": 20,\n      \"noise_factor\": 5,\n      \"unknown_word_prob\": 0,\n      \"unknown_words_replacement_string\": null\n    },\n    \"featurizer_config\": {\n      \"added_cooccurrence_feature_ratio\": 0.25,\n      \"cooccurrence_vectorizer_config\": {\n        \"filter_stop_words\": true,\n        \"keep_order\": true,\n        \"unit_name\": \"cooccurrence_vectorizer\",\n        \"unknown_words_replacement_string\": null,\n        \"window_size\": 5\n      },\n      \"pvalue_threshold\": 0.4,\n      \"tfidf_vectorizer_config\": {\n        \"unit_name\": \"tfidf_vectorizer\",\n        \"use_stemming\": false,\n        \"word_clusters_name\": null\n      },\n      \"unit_name\": \"featurizer\"\n    },\n    \"noise_reweight_factor\": 1.0,\n    \"unit_name\": \"log_reg_intent_classifier\"\n  },\n  \"featurizer\": \"featurizer\",\n  \"intent_list\": [\n    \"MakeCoffee\",\n    \"MakeTea\",\n    null\n  ],\n  \"intercept\": [\n    -0.797273067375694,\n    -0.7793999633924479,\n    0.36488637926624495\n  ],\n  \"t_\": 3221.0\n}"

/-- What it denotes. -/
def tree9 : Json := .obj [(s "coeffs", .arr [.arr [.float (-1325666877207887 / 20000000000000000), .float
  (-8643735409565843 / 10000000000000000), .float (-317569787328009 / 3125000000000000), .float (466494231386147 /
  1250000000000000), .float (-2244341487165851 / 5000000000000000), .float (3527331790105323 / 20000000000000000),
  .float (7184102193303363 / 10000000000000000), .float (-858160001271503 / 12500000000000000), .float
  (29743179731574193 / 100000000000000000), .float (21673210889377 / 625000000000000), .float (-1761175736061183 /
  10000000000000000), .float (-13726751217877073 / 100000000000000000), .float (-2017920523693423 /
  2500000000000000), .float (-1027436069026199 / 20000000000000000), .float (-5940303321786791 / 50000000000000000),
  .float (-10869381590717797 / 10000000000000000), .float (6504712256018751 / 20000000000000000), .float
  (-385889066613837 / 7812500000000000), .float (3527331790105323 / 20000000000000000), .float (-37371467568972533 /
  100000000000000000), .float (-194029027999253 / 125000000000000), .float (-385889066613837 / 7812500000000000),
  .float (-1814554210509989 / 25000000000000000), .float (110867681704641 / 62500000000000), .float
  (-7513363572925229 / 10000000000000000), .float (-666089818780251 / 1250000000000000), .float (110867681704641 /
  62500000000000), .float (-666089818780251 / 1250000000000000)], .arr [.float (1892140366358819 /
  20000000000000000), .float (-815198822348903 / 1250000000000000), .float (2457151029413227 / 10000000000000000),
  .float (-1564569232219889 / 10000000000000000), .float (-501396327528731 / 1000000000000000), .float
  (-6657999049205669 / 1000000000000000000), .float (-650908653591483 / 2000000000000000), .float (3996482767019719
  / 20000000000000000), .float (4924431446009121 / 50000000000000000), .float (603034297251 / 1250000000000), .float
  (4213894656886821 / 10000000000000000), .float (30004773187161327 / 100000000000000000), .float (-7342364277722051
  / 10000000000000000), .float (803376582441891 / 1250000000000000), .float (5425430291591661 / 10000000000000000),
  .float (-786938096817041 / 625000000000000), .float (-9082450979777043 / 50000000000000000), .float
  (662499415732161 / 6250000000000000), .float (-6657999049205669 / 1000000000000000000), .float (4434006810609129 /
  5000000000000000), .float (-7838445676976489 / 5000000000000000), .float (662499415732161 / 6250000000000000),
  .float (-1229961041952503 / 5000000000000000), .float (-8070607856886259 / 10000000000000000), .float
  (7964669671110569 / 5000000000000000), .float (12525103361872103 / 10000000000000000), .float (-8070607856886259 /
  10000000000000000), .float (12525103361872103 / 10000000000000000)], .arr [.float (-7342804814279959 /
  100000000000000000), .float (5198593428656567 / 10000000000000000), .float (-1581096606820083 /
  10000000000000000), .float (-3285118335053943 / 12500000000000000), .float (904118342688167 / 100000000000000000),
  .float (-463677538470003 / 2000000000000000), .float (-2342365143719213 / 5000000000000000), .float
  (-652106353091959 / 5000000000000000), .float (-44631551521307367 / 100000000000000000), .float (-5533957320987131
  / 10000000000000000), .float (-5819953411312443 / 20000000000000000), .float (-21324635553933227 /
  100000000000000000), .float (2743236969496287 / 5000000000000000), .float (-5604628287636957 / 10000000000000000),
  .float (-972688675220589 / 2000000000000000), .float (485311714842451 / 625000000000000), .float
  (-8535360329415173 / 50000000000000000), .float (-2485956515269143 / 25000000000000000), .float (-463677538470003
  / 2000000000000000), .float (-5248553684542913 / 10000000000000000), .float (13219543672776477 /
  10000000000000000), .float (-2485956515269143 / 25000000000000000), .float (-12896300481373019 /
  500000000000000000), .float (-11511881362239413 / 10000000000000000), .float (-9891682959063401 /
  10000000000000000), .float (-8725891493847063 / 10000000000000000), .float (-11511881362239413 /
  10000000000000000), .float (-8725891493847063 / 10000000000000000)]]), (s "config", .obj [(s
  "data_augmentation_config", .obj [(s "add_builtin_entities_examples", .bool false), (s "max_unknown_words", .int
  (0)), (s "min_utterances", .int (20)), (s "noise_factor", .int (5)), (s "unknown_word_prob", .int (0)), (s
  "unknown_words_replacement_string", .null)]), (s "featurizer_config", .obj [(s "added_cooccurrence_feature_ratio",
  .float (1 / 4)), (s "cooccurrence_vectorizer_config", .obj [(s "filter_stop_words", .bool true), (s "keep_order",
  .bool true), (s "unit_name", .str (s "cooccurrence_vectorizer")), (s "unknown_words_replacement_string", .null),
  (s "window_size", .int (5))]), (s "pvalue_threshold", .float (2 / 5)), (s "tfidf_vectorizer_config", .obj [(s
  "unit_name", .str (s "tfidf_vectorizer")), (s "use_stemming", .bool false), (s "word_clusters_name", .null)]), (s
  "unit_name", .str (s "featurizer"))]), (s "noise_reweight_factor", .float (1 / 1)), (s "unit_name", .str (s
  "log_reg_intent_classifier"))]), (s "featurizer", .str (s "featurizer")), (s "intent_list", .arr [.str (s
  "MakeCoffee"), .str (s "MakeTea"), .null]), (s "intercept", .arr [.float (-398636533687847 / 500000000000000),
  .float (-7793999633924479 / 10000000000000000), .float (7297727585324899 / 20000000000000000)]), (s "t_", .float
  (3221 / 1))]

#guard reads file9 tree9

#guard decoded (decodeClassifier Rounding.exact) (fun m => (m.intentList, m.intercept)) tree9 (([some (s
  "MakeCoffee"), some (s "MakeTea"), none], some [(-398636533687847 / 500000000000000 : ℚ), (-7793999633924479 /
  10000000000000000 : ℚ), (7297727585324899 / 20000000000000000 : ℚ)]))

/-- data/tests/models/nlu_engine_beverage/probabilistic_intent_parser/intent_classifier/metadata.json -/
def file10 : Text := s "{\n  \"unit_name\": \"log_reg_intent_classifier\"\n}"

/-- What it denotes. -/
def tree10 : Json := .obj [(s "unit_name", .str (s "log_reg_intent_classifier"))]

#guard reads file10 tree10

#guard decoded (decodeUnit) (fun u => u) tree10 (.logRegIntentClassifier)

/-- data/tests/models/nlu_engine_beverage/probabilistic_intent_parser/intent_classifier/featurizer/featurizer.json -/
def file11 : Text := s "{\n  \"config\": {\n    \"added_cooccurrence_feature_ratio\": 0.25,\n    \"cooccurrence_vectorizer_config\": {\n      \"filter_stop_words\": true,\n      \"keep_order\": true,\n      \"unit_name\": \"cooccurrence_vectorizer\",\n      \"unknown_words_replacement_string\": null,\n      \"window_size\": 5\n    },\n    \"pvalue_threshold\": 0.4,\n    \"tfidf_vectorizer_config\": {\n      \"unit_name\": \"tfidf_vectorizer\",\n      \"use_stemming\": false,\n      \"word_clusters_name\": null\n    },\n    \"unit_name\": \"featurizer\"\n  },\n  \"cooccurrence_vectorizer\": \"cooccurrence_vectorizer\",\n  \"language_code\": \"en\",\n  \"tfidf_vectorizer\": \"tfidf_vectorizer\"\n}"

/-- What it denotes. -/
def tree11 : Json := .obj [(s "config", .obj [(s "added_cooccurrence_feature_ratio", .float (1 / 4)), (s
  "cooccurrence_vectorizer_config", .obj [(s "filter_stop_words", .bool true), (s "keep_order", .bool true), (s
  "unit_name", .str (s "cooccurrence_vectorizer")), (s "unknown_words_replacement_string", .null), (s "window_size",
  .int (5))]), (s "pvalue_threshold", .float (2 / 5)), (s "tfidf_vectorizer_config", .obj [(s "unit_name", .str (s
  "tfidf_vectorizer")), (s "use_stemming", .bool false), (s "word_clusters_name", .null)]), (s "unit_name", .str (s
  "featurizer"))]), (s "cooccurrence_vectorizer", .str (s "cooccurrence_vectorizer")), (s "language_code", .str (s
  "en")), (s "tfidf_vectorizer", .str (s "tfidf_vectorizer"))]

#guard reads file11 tree11

#guard decoded (decodeFeaturizer) (fun m => (m.tfidfVectorizer, m.cooccurrenceVectorizer)) tree11 ((s
  "tfidf_vectorizer", some (s "cooccurrence_vectorizer")))

/-- data/tests/models/nlu_engine_beverage/probabilistic_intent_parser/intent_classifier/featurizer/cooccurrence_vectorizer/vectorizer.json -/
def file12 : Text := s "{\n  \"builtin_entity_scope\": [\n    \"snips/number\"\n  ],\n  \"config\": {\n    \"filter_stop_words\": true,\n    \"keep_order\": true,\n    \"unit_name\": \"cooccurrence_vectorizer\",\n    \"unknown_words_replacement_string\": null,\n    \"window_size\": 5\n  },\n  \"language_code\": \"en\",\n  \"word_pairs\": {\n    \"0\": [\n      \"SNIPSNUMBER\",\n      \"coffee\"\n    ],\n    \"1\": [\n      \"SNIPSNUMBER\",\n      \"tea\"\n    ],\n    \"2\": [\n      \"TEMPERATURE\",\n      \"tea\"\n    ],\n    \"3\": [\n      \"of\",\n      \"coffee\"\n    ],\n    \"4\": [\n      \"of\",\n      \"tea\"\n    ]\n  }\n}"

/-- What it denotes. -/
def tree12 : Json := .obj [(s "builtin_entity_scope", .arr [.str (s "snips/number")]), (s "config", .obj [(s
  "filter_stop_words", .bool true), (s "keep_order", .bool true), (s "unit_name", .str (s
  "cooccurrence_vectorizer")), (s "unknown_words_replacement_string", .null), (s "window_size", .int (5))]), (s
  "language_code", .str (s "en")), (s "word_pairs", .obj [(s "0", .arr [.str (s "SNIPSNUMBER"), .str (s "coffee")]),
  (s "1", .arr [.str (s "SNIPSNUMBER"), .str (s "tea")]), (s "2", .arr [.str (s "TEMPERATURE"), .str (s "tea")]), (s
  "3", .arr [.str (s "of"), .str (s "coffee")]), (s "4", .arr [.str (s "of"), .str (s "tea")])])]

#guard reads file12 tree12

#guard decoded (decodeCooc) (fun m => m.wordPairs) tree12 ([(0, (s "SNIPSNUMBER", s "coffee")), (1, (s
  "SNIPSNUMBER", s "tea")), (2, (s "TEMPERATURE", s "tea")), (3, (s "of", s "coffee")), (4, (s "of", s "tea"))])

/-- data/tests/models/nlu_engine_beverage/probabilistic_intent_parser/intent_classifier/featurizer/tfidf_vectorizer/vectorizer.json -/
def file13 : Text := s "{\n  \"builtin_entity_scope\": [\n    \"snips/number\"\n  ],\n  \"config\": {\n    \"unit_name\": \"tfidf_vectorizer\",\n    \"use_stemming\": false,\n    \"word_clusters_name\": null\n  },\n  \"language_code\": \"en\",\n  \"vectorizer\": {\n    \"idf_diag\": [\n      4.157000421150114,\n      3.176171168138387,\n      4.002849741322855,\n      3.8693183486983322,\n      2.2110902720948,\n      3.463853240590168,\n      2.904237452654745,\n      4.339321977944068,\n      2.7707060600302227,\n      3.0583881324820035,\n      3.176171168138387,\n      3.463853240590168,\n      3.3097025607629096,\n      3.0583881324820035,\n      3.0043209112117277,\n      1.9057086225436182,\n      3.8693183486983322,\n      4.157000421150114,\n      3.463853240590168,\n      2.904237452654745,\n      2.5814640603916943,\n      4.157000421150114,\n      3.2407096892759584\n    ],\n    \"vocab\": {\n      \"?\": 0,\n      \"a\": 1,\n      \"boiling\": 2,\n      \"brew\": 3,\n      \"builtinentityfeaturesnipsnumber\": 4,\n      \"can\": 5,\n      \"coffee\": 6,\n      \"cold\": 7,\n      \"cup\": 8,\n      \"cups\": 9,\n      \"entityfeaturetemperature\": 10,\n      \"hot\": 11,\n      \"i\": 12,\n      \"make\": 13,\n      \"me\": 14,\n      \"of\": 15,\n      \"please\": 16,\n      \"pls\": 17,\n      \"prepare\": 18,\n      \"tea\": 19,\n      \"the\": 20,\n      \"want\": 21,\n      \"you\": 22\n    }\n  }\n}"

/-- What it denotes. -/
def tree13 : Json := .obj [(s "builtin_entity_scope", .arr [.str (s "snips/number")]), (s "config", .obj [(s
  "unit_name", .str (s "tfidf_vectorizer")), (s "use_stemming", .bool false), (s "word_clusters_name", .null)]), (s
  "language_code", .str (s "en")), (s "vectorizer", .obj [(s "idf_diag", .arr [.float (2078500210575057 /
  500000000000000), .float (3176171168138387 / 1000000000000000), .float (800569948264571 / 200000000000000), .float
  (19346591743491661 / 5000000000000000), .float (5527725680237 / 2500000000000), .float (432981655073771 /
  125000000000000), .float (580847490530949 / 200000000000000), .float (1084830494486017 / 250000000000000), .float
  (27707060600302227 / 10000000000000000), .float (6116776264964007 / 2000000000000000), .float (3176171168138387 /
  1000000000000000), .float (432981655073771 / 125000000000000), .float (4137128200953637 / 1250000000000000),
  .float (6116776264964007 / 2000000000000000), .float (30043209112117277 / 10000000000000000), .float
  (9528543112718091 / 5000000000000000), .float (19346591743491661 / 5000000000000000), .float (2078500210575057 /
  500000000000000), .float (432981655073771 / 125000000000000), .float (580847490530949 / 200000000000000), .float
  (25814640603916943 / 10000000000000000), .float (2078500210575057 / 500000000000000), .float (1012721777898737 /
  312500000000000)]), (s "vocab", .obj [(s "?", .int (0)), (s "a", .int (1)), (s "boiling", .int (2)), (s "brew",
  .int (3)), (s "builtinentityfeaturesnipsnumber", .int (4)), (s "can", .int (5)), (s "coffee", .int (6)), (s
  "cold", .int (7)), (s "cup", .int (8)), (s "cups", .int (9)), (s "entityfeaturetemperature", .int (10)), (s "hot",
  .int (11)), (s "i", .int (12)), (s "make", .int (13)), (s "me", .int (14)), (s "of", .int (15)), (s "please", .int
  (16)), (s "pls", .int (17)), (s "prepare", .int (18)), (s "tea", .int (19)), (s "the", .int (20)), (s "want", .int
  (21)), (s "you", .int (22))])])]

#guard reads file13 tree13

#guard decoded (decodeTfidf Rounding.exact) (fun m => (m.idfDiag, m.vocab)) tree13 (([(2078500210575057 /
  500000000000000 : ℚ), (3176171168138387 / 1000000000000000 : ℚ), (800569948264571 / 200000000000000 : ℚ),
  (19346591743491661 / 5000000000000000 : ℚ), (5527725680237 / 2500000000000 : ℚ), (432981655073771 /
  125000000000000 : ℚ), (580847490530949 / 200000000000000 : ℚ), (1084830494486017 / 250000000000000 : ℚ),
  (27707060600302227 / 10000000000000000 : ℚ), (6116776264964007 / 2000000000000000 : ℚ), (3176171168138387 /
  1000000000000000 : ℚ), (432981655073771 / 125000000000000 : ℚ), (4137128200953637 / 1250000000000000 : ℚ),
  (6116776264964007 / 2000000000000000 : ℚ), (30043209112117277 / 10000000000000000 : ℚ), (9528543112718091 /
  5000000000000000 : ℚ), (19346591743491661 / 5000000000000000 : ℚ), (2078500210575057 / 500000000000000 : ℚ),
  (432981655073771 / 125000000000000 : ℚ), (580847490530949 / 200000000000000 : ℚ), (25814640603916943 /
  10000000000000000 : ℚ), (2078500210575057 / 500000000000000 : ℚ), (1012721777898737 / 312500000000000 : ℚ)], [(s
  "?", 0), (s "a", 1), (s "boiling", 2), (s "brew", 3), (s "builtinentityfeaturesnipsnumber", 4), (s "can", 5), (s
  "coffee", 6), (s "cold", 7), (s "cup", 8), (s "cups", 9), (s "entityfeaturetemperature", 10), (s "hot", 11), (s
  "i", 12), (s "make", 13), (s "me", 14), (s "of", 15), (s "please", 16), (s "pls", 17), (s "prepare", 18), (s
  "tea", 19), (s "the", 20), (s "want", 21), (s "you", 22)]))

/-- data/tests/models/nlu_engine_beverage/probabilistic_intent_parser/slot_filler_0/metadata.json -/
def file14 : Text := s "{\n  \"unit_name\": \"crf_slot_filler\"\n}"

/-- What it denotes. -/
def tree14 : Json := .obj [(s "unit_name", .str (s "crf_slot_filler"))]

#guard reads file14 tree14

#guard decoded (decodeUnit) (fun u => u) tree14 (.crfSlotFiller)

/-- data/tests/models/nlu_engine_beverage/probabilistic_intent_parser/slot_filler_0/slot_filler.json -/
def file15 : Text := s "{\n  \"config\": {\n    \"crf_args\": {\n      \"algorithm\": \"lbfgs\",\n      \"c1\": 0.1,\n      \"c2\": 0.1\n    },\n    \"data_augmentation_config\": {\n      \"add_builtin_entities_examples\": true,\n      \"capitalization_ratio\": 0.2,\n      \"min_utterances\": 200\n    },\n    \"feature_factory_configs\": [\n      {\n        \"args\": {\n          \"common_words_gazetteer_name\": \"top_10000_words_stemmed\",\n          \"language_code\": \"en\",\n          \"n\": 1,\n          \"use_stemming\": true\n        },\n        \"factory_name\": \"ngram\",\n        \"offsets\": [\n          -2,\n          -1,\n          0,\n          1,\n          2\n        ]\n      },\n      {\n        \"args\": {\n          \"common_words_gazetteer_name\": \"top_10000_words_stemmed\",\n          \"language_code\": \"en\",\n          \"n\": 2,\n          \"use_stemming\": true\n        },\n        \"factory_name\": \"ngram\",\n        \"offsets\": [\n          -2,\n          1\n        ]\n      },\n      {\n        \"args\": {},\n        \"factory_name\": \"is_digit\",\n        \"offsets\": [\n          -1,\n          0,\n          1\n        ]\n      },\n      {\n        \"args\": {},\n        \"factory_name\": \"is_first\",\n        \"offsets\": [\n          -2,\n          -1,\n          0\n        ]\n      },\n      {\n        \"args\": {},\n        \"factory_name\": \"is_last\",\n        \"offsets\": [\n          0,\n          1,\n          2\n        ]\n      },\n      {\n        \"args\": {\n          \"language_code\": \"en\",\n          \"n\": 1\n        },\n        \"factory_name\": \"shape_ngram\",\n        \"offsets\": [\n          0\n        ]\n      },\n      {\n        \"args\": {\n          \"language_code\": \"en\",\n          \"n\": 2\n        },\n        \"factory_name\": \"shape_ngram\",\n        \"offsets\": [\n          -1,\n          0\n        ]\n      },\n      {\n        \"args\": {\n          \"language_code\": \"en\",\n          \"n\": 3\n        },\n        \"factory_name\": \"shape_ngram\",\n        \"offsets\": [\n          -1\n        ]\n      },\n      {\n        \"args\": {\n          \"entities\": [],\n          \"tagging_scheme_code\": 2,\n          \"use_stemming\": true\n        },\n        \"drop_out\": 0.5,\n        \"factory_name\": \"entity_match\",\n        \"offsets\": [\n          -2,\n          -1,\n          0\n        ]\n      },\n      {\n        \"args\": {\n          \"entity_labels\": [\n            \"snips/amountOfMoney\",\n            \"snips/date\",\n            \"snips/datePeriod\",\n            \"snips/datetime\",\n            \"snips/duration\",\n            \"snips/number\",\n            \"snips/ordinal\",\n            \"snips/percentage\",\n            \"snips/temperature\",\n            \"snips/time\",\n            \"snips/timePeriod\"\n          ],\n          \"language_code\": \"en\",\n          \"tagging_scheme_code\": 1\n        },\n        \"factory_name\": \"builtin_entity_match\",\n        \"offsets\": [\n          -2,\n          -1,\n          0\n        ]\n      }\n    ],\n    \"tagging_scheme\": 1,\n    \"unit_name\": \"crf_slot_filler\"\n  },\n  \"crf_model_file\": \"model55imurmx.crfsuite\",\n  \"intent\": \"MakeCoffee\",\n  \"language_code\": \"en\",\n  \"slot_name_mapping\": {\n    \"number_of_cups\": \"snips/number\"\n  }\n}"

/-- What it denotes. -/
def tree15 : Json := .obj [(s "config", .obj [(s "crf_args", .obj [(s "algorithm", .str (s "lbfgs")), (s "c1",
  .float (1 / 10)), (s "c2", .float (1 / 10))]), (s "data_augmentation_config", .obj [(s
  "add_builtin_entities_examples", .bool true), (s "capitalization_ratio", .float (1 / 5)), (s "min_utterances",
  .int (200))]), (s "feature_factory_configs", .arr [.obj [(s "args", .obj [(s "common_words_gazetteer_name", .str
  (s "top_10000_words_stemmed")), (s "language_code", .str (s "en")), (s "n", .int (1)), (s "use_stemming", .bool
  true)]), (s "factory_name", .str (s "ngram")), (s "offsets", .arr [.int (-2), .int (-1), .int (0), .int (1), .int
  (2)])], .obj [(s "args", .obj [(s "common_words_gazetteer_name", .str (s "top_10000_words_stemmed")), (s
  "language_code", .str (s "en")), (s "n", .int (2)), (s "use_stemming", .bool true)]), (s "factory_name", .str (s
  "ngram")), (s "offsets", .arr [.int (-2), .int (1)])], .obj [(s "args", .obj []), (s "factory_name", .str (s
  "is_digit")), (s "offsets", .arr [.int (-1), .int (0), .int (1)])], .obj [(s "args", .obj []), (s "factory_name",
  .str (s "is_first")), (s "offsets", .arr [.int (-2), .int (-1), .int (0)])], .obj [(s "args", .obj []), (s
  "factory_name", .str (s "is_last")), (s "offsets", .arr [.int (0), .int (1), .int (2)])], .obj [(s "args", .obj
  [(s "language_code", .str (s "en")), (s "n", .int (1))]), (s "factory_name", .str (s "shape_ngram")), (s
  "offsets", .arr [.int (0)])], .obj [(s "args", .obj [(s "language_code", .str (s "en")), (s "n", .int (2))]), (s
  "factory_name", .str (s "shape_ngram")), (s "offsets", .arr [.int (-1), .int (0)])], .obj [(s "args", .obj [(s
  "language_code", .str (s "en")), (s "n", .int (3))]), (s "factory_name", .str (s "shape_ngram")), (s "offsets",
  .arr [.int (-1)])], .obj [(s "args", .obj [(s "entities", .arr []), (s "tagging_scheme_code", .int (2)), (s
  "use_stemming", .bool true)]), (s "drop_out", .float (1 / 2)), (s "factory_name", .str (s "entity_match")), (s
  "offsets", .arr [.int (-2), .int (-1), .int (0)])], .obj [(s "args", .obj [(s "entity_labels", .arr [.str (s
  "snips/amountOfMoney"), .str (s "snips/date"), .str (s "snips/datePeriod"), .str (s "snips/datetime"), .str (s
  "snips/duration"), .str (s "snips/number"), .str (s "snips/ordinal"), .str (s "snips/percentage"), .str (s
  "snips/temperature"), .str (s "snips/time"), .str (s "snips/timePeriod")]), (s "language_code", .str (s "en")), (s
  "tagging_scheme_code", .int (1))]), (s "factory_name", .str (s "builtin_entity_match")), (s "offsets", .arr [.int
  (-2), .int (-1), .int (0)])]]), (s "tagging_scheme", .int (1)), (s "unit_name", .str (s "crf_slot_filler"))]), (s
  "crf_model_file", .str (s "model55imurmx.crfsuite")), (s "intent", .str (s "MakeCoffee")), (s "language_code",
  .str (s "en")), (s "slot_name_mapping", .obj [(s "number_of_cups", .str (s "snips/number"))])]

#guard reads file15 tree15

#guard decoded (decodeSlotFiller) (fun m => (m.languageCode, m.slotNameMapping)) tree15 ((s "en", [(s
  "number_of_cups", s "snips/number")]))

/-- data/tests/models/nlu_engine_beverage/probabilistic_intent_parser/slot_filler_1/metadata.json -/
def file16 : Text := s "{\n  \"unit_name\": \"crf_slot_filler\"\n}"

/-- What it denotes. -/
def tree16 : Json := .obj [(s "unit_name", .str (s "crf_slot_filler"))]

#guard reads file16 tree16

#guard decoded (decodeUnit) (fun u => u) tree16 (.crfSlotFiller)

/-- data/tests/models/nlu_engine_beverage/probabilistic_intent_parser/slot_filler_1/slot_filler.json -/
def file17 : Text := s "{\n  \"config\": {\n    \"crf_args\": {\n      \"algorithm\": \"lbfgs\",\n      \"c1\": 0.1,\n      \"c2\": 0.1\n    },\n    \"data_augmentation_config\": {\n      \"add_builtin_entities_examples\": true,\n      \"capitalization_ratio\": 0.2,\n      \"min_utterances\": 200\n    },\n    \"feature_factory_configs\": [\n      {\n        \"args\": {\n          \"common_words_gazetteer_name\": \"top_10000_words_stemmed\",\n          \"language_code\": \"en\",\n          \"n\": 1,\n          \"use_stemming\": true\n        },\n        \"factory_name\": \"ngram\",\n        \"offsets\": [\n          -2,\n          -1,\n          0,\n          1,\n          2\n        ]\n      },\n      {\n        \"args\": {\n          \"common_words_gazetteer_name\": \"top_10000_words_stemmed\",\n          \"language_code\": \"en\",\n          \"n\": 2,\n          \"use_stemming\": true\n        },\n        \"factory_name\": \"ngram\",\n        \"offsets\": [\n          -2,\n          1\n        ]\n      },\n      {\n        \"args\": {},\n        \"factory_name\": \"is_digit\",\n        \"offsets\": [\n          -1,\n          0,\n          1\n        ]\n      },\n      {\n        \"args\": {},\n        \"factory_name\": \"is_first\",\n        \"offsets\": [\n          -2,\n          -1,\n          0\n        ]\n      },\n      {\n        \"args\": {},\n        \"factory_name\": \"is_last\",\n        \"offsets\": [\n          0,\n          1,\n          2\n        ]\n      },\n      {\n        \"args\": {\n          \"language_code\": \"en\",\n          \"n\": 1\n        },\n        \"factory_name\": \"shape_ngram\",\n        \"offsets\": [\n          0\n        ]\n      },\n      {\n        \"args\": {\n          \"language_code\": \"en\",\n          \"n\": 2\n        },\n        \"factory_name\": \"shape_ngram\",\n        \"offsets\": [\n          -1,\n          0\n        ]\n      },\n      {\n        \"args\": {\n          \"language_code\": \"en\",\n          \"n\": 3\n        },\n        \"factory_name\": \"shape_ngram\",\n        \"offsets\": [\n          -1\n        ]\n      },\n      {\n        \"args\": {\n          \"entities\": [\n            \"Temperature\"\n          ],\n          \"tagging_scheme_code\": 2,\n          \"use_stemming\": true\n        },\n        \"drop_out\": 0.5,\n        \"factory_name\": \"entity_match\",\n        \"offsets\": [\n          -2,\n          -1,\n          0\n        ]\n      },\n      {\n        \"args\": {\n          \"entity_labels\": [\n            \"snips/amountOfMoney\",\n            \"snips/date\",\n            \"snips/datePeriod\",\n            \"snips/datetime\",\n            \"snips/duration\",\n            \"snips/number\",\n            \"snips/ordinal\",\n            \"snips/percentage\",\n            \"snips/temperature\",\n            \"snips/time\",\n            \"snips/timePeriod\"\n          ],\n          \"language_code\": \"en\",\n          \"tagging_scheme_code\": 1\n        },\n        \"factory_name\": \"builtin_entity_match\",\n        \"offsets\": [\n          -2,\n          -1,\n          0\n        ]\n      }\n    ],\n    \"tagging_scheme\": 1,\n    \"unit_name\": \"crf_slot_filler\"\n  },\n  \"crf_model_file\": \"model8a9dqxnp.crfsuite\",\n  \"intent\": \"MakeTea\",\n  \"language_code\": \"en\",\n  \"slot_name_mapping\": {\n    \"beverage_temperature\": \"Temperature\",\n    \"number_of_cups\": \"snips/number\"\n  }\n}"

/-- What it denotes. -/
def tree17 : Json := .obj [(s "config", .obj [(s "crf_args", .obj [(s "algorithm", .str (s "lbfgs")), (s "c1",
  .float (1 / 10)), (s "c2", .float (1 / 10))]), (s "data_augmentation_config", .obj [(s
  "add_builtin_entities_examples", .bool true), (s "capitalization_ratio", .float (1 / 5)), (s "min_utterances",
  .int (200))]), (s "feature_factory_configs", .arr [.obj [(s "args", .obj [(s "common_words_gazetteer_name", .str
  (s "top_10000_words_stemmed")), (s "language_code", .str (s "en")), (s "n", .int (1)), (s "use_stemming", .bool
  true)]), (s "factory_name", .str (s "ngram")), (s "offsets", .arr [.int (-2), .int (-1), .int (0), .int (1), .int
  (2)])], .obj [(s "args", .obj [(s "common_words_gazetteer_name", .str (s "top_10000_words_stemmed")), (s
  "language_code", .str (s "en")), (s "n", .int (2)), (s "use_stemming", .bool true)]), (s "factory_name", .str (s
  "ngram")), (s "offsets", .arr [.int (-2), .int (1)])], .obj [(s "args", .obj []), (s "factory_name", .str (s
  "is_digit")), (s "offsets", .arr [.int (-1), .int (0), .int (1)])], .obj [(s "args", .obj []), (s "factory_name",
  .str (s "is_first")), (s "offsets", .arr [.int (-2), .int (-1), .int (0)])], .obj [(s "args", .obj []), (s
  "factory_name", .str (s "is_last")), (s "offsets", .arr [.int (0), .int (1), .int (2)])], .obj [(s "args", .obj
  [(s "language_code", .str (s "en")), (s "n", .int (1))]), (s "factory_name", .str (s "shape_ngram")), (s
  "offsets", .arr [.int (0)])], .obj [(s "args", .obj [(s "language_code", .str (s "en")), (s "n", .int (2))]), (s
  "factory_name", .str (s "shape_ngram")), (s "offsets", .arr [.int (-1), .int (0)])], .obj [(s "args", .obj [(s
  "language_code", .str (s "en")), (s "n", .int (3))]), (s "factory_name", .str (s "shape_ngram")), (s "offsets",
  .arr [.int (-1)])], .obj [(s "args", .obj [(s "entities", .arr [.str (s "Temperature")]), (s
  "tagging_scheme_code", .int (2)), (s "use_stemming", .bool true)]), (s "drop_out", .float (1 / 2)), (s
  "factory_name", .str (s "entity_match")), (s "offsets", .arr [.int (-2), .int (-1), .int (0)])], .obj [(s "args",
  .obj [(s "entity_labels", .arr [.str (s "snips/amountOfMoney"), .str (s "snips/date"), .str (s
  "snips/datePeriod"), .str (s "snips/datetime"), .str (s "snips/duration"), .str (s "snips/number"), .str (s
  "snips/ordinal"), .str (s "snips/percentage"), .str (s "snips/temperature"), .str (s "snips/time"), .str (s
  "snips/timePeriod")]), (s "language_code", .str (s "en")), (s "tagging_scheme_code", .int (1))]), (s
  "factory_name", .str (s "builtin_entity_match")), (s "offsets", .arr [.int (-2), .int (-1), .int (0)])]]), (s
  "tagging_scheme", .int (1)), (s "unit_name", .str (s "crf_slot_filler"))]), (s "crf_model_file", .str (s
  "model8a9dqxnp.crfsuite")), (s "intent", .str (s "MakeTea")), (s "language_code", .str (s "en")), (s
  "slot_name_mapping", .obj [(s "beverage_temperature", .str (s "Temperature")), (s "number_of_cups", .str (s
  "snips/number"))])]

#guard reads file17 tree17

#guard decoded (decodeSlotFiller) (fun m => (m.languageCode, m.slotNameMapping)) tree17 ((s "en", [(s
  "beverage_temperature", s "Temperature"), (s "number_of_cups", s "snips/number")]))

/-- data/tests/models/nlu_engine_beverage/resources/en/metadata.json -/
def file18 : Text := s "{\n  \"author\": \"Rosa Stern\",\n  \"description\": \"Language resources for English\",\n  \"email\": \"rosa.stern@snips.ai\",\n  \"gazetteers\": [\n    \"top_10000_words_stemmed\"\n  ],\n  \"language\": \"en\",\n  \"license\": \"Apache License, Version 2.0\",\n  \"name\": \"snips_nlu_en\",\n  \"noise\": \"noise\",\n  \"snips_nlu_version\": \">=0.1.0,<1.0.0\",\n  \"stems\": \"stems\",\n  \"stop_words\": \"stop_words\",\n  \"url\": \"https://snips-nlu.readthedocs.io\",\n  \"version\": \"0.2.2\",\n  \"word_clusters\": []\n}"

/-- What it denotes. -/
def tree18 : Json := .obj [(s "author", .str (s "Rosa Stern")), (s "description", .str (s "Language resources for English")),
  (s "email", .str (s "rosa.stern@snips.ai")), (s "gazetteers", .arr [.str (s "top_10000_words_stemmed")]), (s
  "language", .str (s "en")), (s "license", .str (s "Apache License, Version 2.0")), (s "name", .str (s
  "snips_nlu_en")), (s "noise", .str (s "noise")), (s "snips_nlu_version", .str (s ">=0.1.0,<1.0.0")), (s "stems",
  .str (s "stems")), (s "stop_words", .str (s "stop_words")), (s "url", .str (s
  "https://snips-nlu.readthedocs.io")), (s "version", .str (s "0.2.2")), (s "word_clusters", .arr [])]

#guard reads file18 tree18

#guard decoded (decodeResources) (fun m => (m.gazetteers, m.wordClusters, m.stems, m.stopWords)) tree18 ((some [s
  "top_10000_words_stemmed"], some [], some (s "stems"), some (s "stop_words")))

/-- data/tests/models/nlu_engine_game/nlu_engine.json -/
def file19 : Text := s "{\n  \"builtin_entity_parser\": \"builtin_entity_parser\",\n  \"config\": {\n    \"intent_parsers_configs\": [\n      {\n        \"ignore_stop_words\": true,\n        \"unit_name\": \"lookup_intent_parser\"\n      },\n      {\n        \"intent_classifier_config\": {\n          \"data_augmentation_config\": {\n            \"add_builtin_entities_examples\": false,\n            \"max_unknown_words\": null,\n            \"min_utterances\": 20,\n            \"noise_factor\": 5,\n            \"unknown_word_prob\": 0.0,\n            \"unknown_words_replacement_string\": null\n          },\n          \"featurizer_config\": {\n            \"added_cooccurrence_feature_ratio\": 0.0,\n            \"cooccurrence_vectorizer_config\": {\n              \"filter_stop_words\": true,\n              \"keep_order\": true,\n              \"unit_name\": \"cooccurrence_vectorizer\",\n              \"unknown_words_replacement_string\": null,\n              \"window_size\": null\n            },\n            \"pvalue_threshold\": 0.4,\n            \"tfidf_vectorizer_config\": {\n              \"unit_name\": \"tfidf_vectorizer\",\n              \"use_stemming\": false,\n              \"word_clusters_name\": null\n            },\n            \"unit_name\": \"featurizer\"\n          },\n          \"noise_reweight_factor\": 1,\n          \"unit_name\": \"log_reg_intent_classifier\"\n        },\n        \"slot_filler_config\": {\n          \"crf_args\": {\n            \"algorithm\": \"lbfgs\",\n            \"c1\": 0.1,\n            \"c2\": 0.1\n          },\n          \"data_augmentation_config\": {\n            \"add_builtin_entities_examples\": true,\n            \"capitalization_ratio\": 0.2,\n            \"min_utterances\": 200\n          },\n          \"feature_factory_configs\": [\n            {\n              \"args\": {\n                \"common_words_gazetteer_name\": \"top_10000_words_stemmed\",\n                \"n\": 1,\n                \"use_stemming\": true\n              },\n              \"factory_name\": \"ngram\",\n              \"offsets\": [\n                -2,\n                -1,\n                0,\n                1,\n                2\n              ]\n            },\n            {\n              \"args\": {\n                \"common_words_gazetteer_name\": \"top_10000_words_stemmed\",\n                \"n\": 2,\n                \"use_stemming\": true\n              },\n              \"factory_name\": \"ngram\",\n              \"offsets\": [\n                -2,\n                1\n              ]\n            },\n            {\n              \"args\": {},\n              \"factory_name\": \"is_digit\",\n              \"offsets\": [\n                -1,\n                0,\n                1\n              ]\n            },\n            {\n              \"args\": {},\n              \"factory_name\": \"is_first\",\n              \"offsets\": [\n                -2,\n                -1,\n                0\n              ]\n            },\n            {\n              \"args\": {},\n              \"factory_name\": \"is_last\",\n              \"offsets\": [\n                0,\n                1,\n                2\n              ]\n            },\n            {\n              \"args\": {\n                \"n\": 1\n              },\n              \"factory_name\": \"shape_ngram\",\n              \"offsets\": [\n                0\n              ]\n            },\n            {\n              \"args\": {\n                \"n\": 2\n              },\n              \"factory_name\": \"shape_ngram\",\n              \"offsets\": [\n                -1,\n                0\n              ]\n            },\n            {\n              \"args\": {\n                \"n\": 3\n              },\n              \"factory_name\": \"shape_ngram\",\n              \"offsets\": [\n                -1\n              ]\n            },\n            {\n              \"args\": {\n                \"entity_filter\": {\n                  \"automatically_extensible\": false\n                },\n                \"tagging_scheme_code\": 2,\n                \"use_stemming\": true\n              },\n              \"factory_name\": \"entity_match\",\n              \"offsets\": [\n                -2,\n                -1,\n                0\n              ]\n            },\n            {\n              \"args\": {\n                \"entity_filter\": {\n                  \"automatically_extensible\": true\n                },\n                \"tagging_scheme_code\": 2,\n                \"use_stemming\": true\n              },\n              \"drop_out\": 0.5,\n              \"factory_name\": \"entity_match\",\n              \"offsets\": [\n                -2,\n                -1,\n                0\n              ]\n            },\n            {\n              \"args\": {\n                \"tagging_scheme_code\": 1\n              },\n              \"factory_name\": \"builtin_entity_match\",\n              \"offsets\": [\n                -2,\n                -1,\n                0\n              ]\n            },\n            {\n              \"args\": {\n                \"cluster_name\": \"brown_clusters\",\n                \"use_stemming\": false\n              },\n              \"factory_name\": \"word_cluster\",\n              \"offsets\": [\n                -2,\n                -1,\n                0,\n                1\n              ]\n            }\n          ],\n          \"tagging_scheme\": 1,\n          \"unit_name\": \"crf_slot_filler\"\n        },\n        \"unit_name\": \"probabilistic_intent_parser\"\n      }\n    ],\n    \"unit_name\": \"nlu_engine\"\n  },\n  \"custom_entity_parser\": \"custom_entity_parser\",\n  \"dataset_metadata\": {\n    \"entities\": {\n      \"game\": {\n        \"automatically_extensible\": true\n      }\n    },\n    \"language_code\": \"en\",\n    \"slot_name_mappings\": {\n      \"PlayGame\": {\n        \"game\": \"game\"\n      }\n    }\n  },\n  \"intent_parsers\": [\n    \"lookup_intent_parser\",\n    \"probabilistic_intent_parser\"\n  ],\n  \"model_version\": \"0.20.0\",\n  \"training_package_version\": \"0.20.0\",\n  \"unit_name\": \"nlu_engine\"\n}"

/-- What it denotes. -/
def tree19 : Json := .obj [(s "builtin_entity_parser", .str (s "builtin_entity_parser")), (s "config", .obj [(s
  "intent_parsers_configs", .arr [.obj [(s "ignore_stop_words", .bool true), (s "unit_name", .str (s
  "lookup_intent_parser"))], .obj [(s "intent_classifier_config", .obj [(s "data_augmentation_config", .obj [(s
  "add_builtin_entities_examples", .bool false), (s "max_unknown_words", .null), (s "min_utterances", .int (20)), (s
  "noise_factor", .int (5)), (s "unknown_word_prob", .float (0 / 1)), (s "unknown_words_replacement_string",
  .null)]), (s "featurizer_config", .obj [(s "added_cooccurrence_feature_ratio", .float (0 / 1)), (s
  "cooccurrence_vectorizer_config", .obj [(s "filter_stop_words", .bool true), (s "keep_order", .bool true), (s
  "unit_name", .str (s "cooccurrence_vectorizer")), (s "unknown_words_replacement_string", .null), (s "window_size",
  .null)]), (s "pvalue_threshold", .float (2 / 5)), (s "tfidf_vectorizer_config", .obj [(s "unit_name", .str (s
  "tfidf_vectorizer")), (s "use_stemming", .bool false), (s "word_clusters_name", .null)]), (s "unit_name", .str (s
  "featurizer"))]), (s "noise_reweight_factor", .int (1)), (s "unit_name", .str (s "log_reg_intent_classifier"))]),
  (s "slot_filler_config", .obj [(s "crf_args", .obj [(s "algorithm", .str (s "lbfgs")), (s "c1", .float (1 / 10)),
  (s "c2", .float (1 / 10))]), (s "data_augmentation_config", .obj [(s "add_builtin_entities_examples", .bool true),
  (s "capitalization_ratio", .float (1 / 5)), (s "min_utterances", .int (200))]), (s "feature_factory_configs", .arr
  [.obj [(s "args", .obj [(s "common_words_gazetteer_name", .str (s "top_10000_words_stemmed")), (s "n", .int (1)),
  (s "use_stemming", .bool true)]), (s "factory_name", .str (s "ngram")), (s "offsets", .arr [.int (-2), .int (-1),
  .int (0), .int (1), .int (2)])], .obj [(s "args", .obj [(s "common_words_gazetteer_name", .str (s
  "top_10000_words_stemmed")), (s "n", .int (2)), (s "use_stemming", .bool true)]), (s "factory_name", .str (s
  "ngram")), (s "offsets", .arr [.int (-2), .int (1)])], .obj [(s "args", .obj []), (s "factory_name", .str (s
  "is_digit")), (s "offsets", .arr [.int (-1), .int (0), .int (1)])], .obj [(s "args", .obj []), (s "factory_name",
  .str (s "is_first")), (s "offsets", .arr [.int (-2), .int (-1), .int (0)])], .obj [(s "args", .obj []), (s
  "factory_name", .str (s "is_last")), (s "offsets", .arr [.int (0), .int (1), .int (2)])], .obj [(s "args", .obj
  [(s "n", .int (1))]), (s "factory_name", .str (s "shape_ngram")), (s "offsets", .arr [.int (0)])], .obj [(s
  "args", .obj [(s "n", .int (2))]), (s "factory_name", .str (s "shape_ngram")), (s "offsets", .arr [.int (-1), .int
  (0)])], .obj [(s "args", .obj [(s "n", .int (3))]), (s "factory_name", .str (s "shape_ngram")), (s "offsets", .arr
  [.int (-1)])], .obj [(s "args", .obj [(s "entity_filter", .obj [(s "automatically_extensible", .bool false)]), (s
  "tagging_scheme_code", .int (2)), (s "use_stemming", .bool true)]), (s "factory_name", .str (s "entity_match")),
  (s "offsets", .arr [.int (-2), .int (-1), .int (0)])], .obj [(s "args", .obj [(s "entity_filter", .obj [(s
  "automatically_extensible", .bool true)]), (s "tagging_scheme_code", .int (2)), (s "use_stemming", .bool true)]),
  (s "drop_out", .float (1 / 2)), (s "factory_name", .str (s "entity_match")), (s "offsets", .arr [.int (-2), .int
  (-1), .int (0)])], .obj [(s "args", .obj [(s "tagging_scheme_code", .int (1))]), (s "factory_name", .str (s
  "builtin_entity_match")), (s "offsets", .arr [.int (-2), .int (-1), .int (0)])], .obj [(s "args", .obj [(s
  "cluster_name", .str (s "brown_clusters")), (s "use_stemming", .bool false)]), (s "factory_name", .str (s
  "word_cluster")), (s "offsets", .arr [.int (-2), .int (-1), .int (0), .int (1)])]]), (s "tagging_scheme", .int
  (1)), (s "unit_name", .str (s "crf_slot_filler"))]), (s "unit_name", .str (s "probabilistic_intent_parser"))]]),
  (s "unit_name", .str (s "nlu_engine"))]), (s "custom_entity_parser", .str (s "custom_entity_parser")), (s
  "dataset_metadata", .obj [(s "entities", .obj [(s "game", .obj [(s "automatically_extensible", .bool true)])]), (s
  "language_code", .str (s "en")), (s "slot_name_mappings", .obj [(s "PlayGame", .obj [(s "game", .str (s
  "game"))])])]), (s "intent_parsers", .arr [.str (s "lookup_intent_parser"), .str (s
  "probabilistic_intent_parser")]), (s "model_version", .str (s "0.20.0")), (s "training_package_version", .str (s
  "0.20.0")), (s "unit_name", .str (s "nlu_engine"))]

#guard reads file19 tree19

#guard decoded (decodeEngine) (fun m => (m.languageCode, m.intentParsers, m.builtinEntityParser,
  m.customEntityParser)) tree19 ((s "en", [s "lookup_intent_parser", s "probabilistic_intent_parser"], s
  "builtin_entity_parser", s "custom_entity_parser"))

/-- data/tests/models/nlu_engine_game/custom_entity_parser/metadata.json -/
def file20 : Text := s "{\n  \"language\": \"en\",\n  \"parser_directory\": \"parser\",\n  \"parser_usage\": 2\n}"

/-- What it denotes. -/
def tree20 : Json := .obj [(s "language", .str (s "en")), (s "parser_directory", .str (s "parser")), (s
  "parser_usage", .int (2))]

#guard reads file20 tree20

#guard decoded (decodeCustomParser) (fun m => (m.language, m.parserDirectory)) tree20 ((s "en", s "parser"))

/-- data/tests/models/nlu_engine_game/lookup_intent_parser/intent_parser.json -/
def file21 : Text := s "{\n  \"config\": {\n    \"ignore_stop_words\": true,\n    \"unit_name\": \"lookup_intent_parser\"\n  },\n  \"entity_scopes\": [\n    {\n      \"entity_scope\": {\n        \"builtin\": [],\n        \"custom\": [\n          \"game\"\n        ]\n      },\n      \"intent_group\": [\n        \"PlayGame\"\n      ]\n    }\n  ],\n  \"intents_names\": [\n    \"PlayGame\"\n  ],\n  \"language_code\": \"en\",\n  \"map\": {\n    \"483944904\": [\n      0,\n      [\n        0\n      ]\n    ],\n    \"1316274424\": [\n      0,\n      [\n        0\n      ]\n    ]\n  },\n  \"slots_names\": [\n    \"game\"\n  ],\n  \"stop_words_whitelist\": {}\n}"

/-- What it denotes. -/
def tree21 : Json := .obj [(s "config", .obj [(s "ignore_stop_words", .bool true), (s "unit_name", .str (s
  "lookup_intent_parser"))]), (s "entity_scopes", .arr [.obj [(s "entity_scope", .obj [(s "builtin", .arr []), (s
  "custom", .arr [.str (s "game")])]), (s "intent_group", .arr [.str (s "PlayGame")])]]), (s "intents_names", .arr
  [.str (s "PlayGame")]), (s "language_code", .str (s "en")), (s "map", .obj [(s "483944904", .arr [.int (0), .arr
  [.int (0)]]), (s "1316274424", .arr [.int (0), .arr [.int (0)]])]), (s "slots_names", .arr [.str (s "game")]), (s
  "stop_words_whitelist", .obj [])]

#guard reads file21 tree21

#guard decoded (decodeLookup) (fun m => (m.languageCode, m.slotsNames, m.intentsNames, m.map.map fun e => e.1 ::
  e.2.1 :: e.2.2)) tree21 ((s "en", [s "game"], [s "PlayGame"], [[483944904, 0, 0], [1316274424, 0, 0]]))

/-- data/tests/models/nlu_engine_game/lookup_intent_parser/metadata.json -/
def file22 : Text := s "{\n  \"unit_name\": \"lookup_intent_parser\"\n}"

/-- What it denotes. -/
def tree22 : Json := .obj [(s "unit_name", .str (s "lookup_intent_parser"))]

#guard reads file22 tree22

#guard decoded (decodeUnit) (fun u => u) tree22 (.lookupIntentParser)

/-- data/tests/models/nlu_engine_game/probabilistic_intent_parser/intent_parser.json -/
def file23 : Text := s "{\n  \"config\": {\n    \"intent_classifier_config\": {\n      \"data_augmentation_config\": {\n        \"add_builtin_entities_examples\": false,\n        \"max_unknown_words\": null,\n        \"min_utterances\": 20,\n        \"noise_factor\": 5,\n        \"unknown_word_prob\": 0.0,\n        \"unknown_words_replacement_string\": null\n      },\n      \"featurizer_config\": {\n        \"added_cooccurrence_feature_ratio\": 0.0,\n        \"cooccurrence_vectorizer_config\": {\n          \"filter_stop_words\": true,\n          \"keep_order\": true,\n          \"unit_name\": \"cooccurrence_vectorizer\",\n          \"unknown_words_replacement_string\": null,\n          \"window_size\": null\n        },\n        \"pvalue_threshold\": 0.4,\n        \"tfidf_vectorizer_config\": {\n          \"unit_name\": \"tfidf_vectorizer\",\n          \"use_stemming\": false,\n          \"word_clusters_name\": null\n        },\n        \"unit_name\": \"featurizer\"\n      },\n      \"noise_reweight_factor\": 1,\n      \"unit_name\": \"log_reg_intent_classifier\"\n    },\n    \"slot_filler_config\": {\n      \"crf_args\": {\n        \"algorithm\": \"lbfgs\",\n        \"c1\": 0.1,\n        \"c2\": 0.1\n      },\n      \"data_augmentation_config\": {\n        \"add_builtin_entities_examples\": true,\n        \"capitalization_ratio\": 0.2,\n        \"min_utterances\": 200\n      },\n      \"feature_factory_configs\": [\n        {\n          \"args\": {\n            \"common_words_gazetteer_name\": \"top_10000_words_stemmed\",\n            \"n\": 1,\n            \"use_stemming\": true\n          },\n          \"factory_name\": \"ngram\",\n          \"offsets\": [\n            -2,\n            -1,\n            0,\n            1,\n            2\n          ]\n        },\n        {\n          \"args\": {\n            \"common_words_gazetteer_name\": \"top_10000_words_stemmed\",\n            \"n\": 2,\n            \"use_stemming\": true\n          },\n          \"factory_name\": \"ngram\",\n          \"offsets\": [\n            -2,\n            1\n          ]\n        },\n        {\n          \"args\": {},\n          \"factory_name\": \"is_digit\",\n          \"offsets\": [\n            -1,\n            0,\n            1\n          ]\n        },\n        {\n          \"args\": {},\n          \"factory_name\": \"is_first\",\n          \"offsets\": [\n            -2,\n            -1,\n            0\n          ]\n        },\n        {\n          \"args\": {},\n          \"factory_name\": \"is_last\",\n          \"offsets\": [\n            0,\n            1,\n            2\n          ]\n        },\n        {\n          \"args\": {\n            \"n\": 1\n          },\n          \"factory_name\": \"shape_ngram\",\n          \"offsets\": [\n            0\n          ]\n        },\n        {\n          \"args\": {\n            \"n\": 2\n          },\n          \"factory_name\": \"shape_ngram\",\n          \"offsets\": [\n            -1,\n            0\n          ]\n        },\n        {\n          \"args\": {\n            \"n\": 3\n          },\n          \"factory_name\": \"shape_ngram\",\n          \"offsets\": [\n            -1\n          ]\n        },\n        {\n          \"args\": {\n            \"entity_filter\": {\n              \"automatically_extensible\": false\n            },\n            \"tagging_scheme_code\": 2,\n            \"use_stemming\": true\n          },\n          \"factory_name\": \"entity_match\",\n          \"offsets\": [\n            -2,\n            -1,\n            0\n          ]\n        },\n        {\n          \"args\": {\n            \"entity_filter\": {\n              \"automatically_extensible\": true\n            },\n            \"tagging_scheme_code\": 2,\n            \"use_stemming\": true\n          },\n          \"drop_out\": 0.5,\n          \"factory_name\": \"entity_match\",\n          \"offsets\": [\n            -2,\n            -1,\n            0\n          ]\n        },\n        {\n          \"args\": {\n            \"tagging_scheme_code\": 1\n          },\n          \"factory_name\": \"builtin_entity_match\",\n          \"offsets\": [\n            -2,\n            -1,\n            0\n          ]\n        },\n        {\n          \"args\": {\n            \"cluster_name\": \"brown_clusters\",\n            \"use_stemming\": false\n          },\n          \"factory_name\": \"word_cluster\",\n          \"offsets\": [\n            -2,\n            -1,\n            0,\n            1\n          ]\n        }\n      ],\n      \"tagging_scheme\": 1,\n      \"unit_name\": \"crf_slot_filler\"\n    },\n    \"unit_name\": \"probabilistic_intent_parser\"\n  },\n  \"slot_fillers\": [\n    {\n      \"intent\": \"PlayGame\",\n      \"slot_filler_name\": \"slot_filler_0\"\n    }\n  ]\n}"

/-- What it denotes. -/
def tree23 : Json := .obj [(s "config", .obj [(s "intent_classifier_config", .obj [(s "data_augmentation_config",
  .obj [(s "add_builtin_entities_examples", .bool false), (s "max_unknown_words", .null), (s "min_utterances", .int
  (20)), (s "noise_factor", .int (5)), (s "unknown_word_prob", .float (0 / 1)), (s
  "unknown_words_replacement_string", .null)]), (s "featurizer_config", .obj [(s "added_cooccurrence_feature_ratio",
  .float (0 / 1)), (s "cooccurrence_vectorizer_config", .obj [(s "filter_stop_words", .bool true), (s "keep_order",
  .bool true), (s "unit_name", .str (s "cooccurrence_vectorizer")), (s "unknown_words_replacement_string", .null),
  (s "window_size", .null)]), (s "pvalue_threshold", .float (2 / 5)), (s "tfidf_vectorizer_config", .obj [(s
  "unit_name", .str (s "tfidf_vectorizer")), (s "use_stemming", .bool false), (s "word_clusters_name", .null)]), (s
  "unit_name", .str (s "featurizer"))]), (s "noise_reweight_factor", .int (1)), (s "unit_name", .str (s
  "log_reg_intent_classifier"))]), (s "slot_filler_config", .obj [(s "crf_args", .obj [(s "algorithm", .str (s
  "lbfgs")), (s "c1", .float (1 / 10)), (s "c2", .float (1 / 10))]), (s "data_augmentation_config", .obj [(s
  "add_builtin_entities_examples", .bool true), (s "capitalization_ratio", .float (1 / 5)), (s "min_utterances",
  .int (200))]), (s "feature_factory_configs", .arr [.obj [(s "args", .obj [(s "common_words_gazetteer_name", .str
  (s "top_10000_words_stemmed")), (s "n", .int (1)), (s "use_stemming", .bool true)]), (s "factory_name", .str (s
  "ngram")), (s "offsets", .arr [.int (-2), .int (-1), .int (0), .int (1), .int (2)])], .obj [(s "args", .obj [(s
  "common_words_gazetteer_name", .str (s "top_10000_words_stemmed")), (s "n", .int (2)), (s "use_stemming", .bool
  true)]), (s "factory_name", .str (s "ngram")), (s "offsets", .arr [.int (-2), .int (1)])], .obj [(s "args", .obj
  []), (s "factory_name", .str (s "is_digit")), (s "offsets", .arr [.int (-1), .int (0), .int (1)])], .obj [(s
  "args", .obj []), (s "factory_name", .str (s "is_first")), (s "offsets", .arr [.int (-2), .int (-1), .int (0)])],
  .obj [(s "args", .obj []), (s "factory_name", .str (s "is_last")), (s "offsets", .arr [.int (0), .int (1), .int
  (2)])], .obj [(s "args", .obj [(s "n", .int (1))]), (s "factory_name", .str (s "shape_ngram")), (s "offsets", .arr
  [.int (0)])], .obj [(s "args", .obj [(s "n", .int (2))]), (s "factory_name", .str (s "shape_ngram")), (s
  "offsets", .arr [.int (-1), .int (0)])], .obj [(s "args", .obj [(s "n", .int (3))]), (s "factory_name", .str (s
  "shape_ngram")), (s "offsets", .arr [.int (-1)])], .obj [(s "args", .obj [(s "entity_filter", .obj [(s
  "automatically_extensible", .bool false)]), (s "tagging_scheme_code", .int (2)), (s "use_stemming", .bool true)]),
  (s "factory_name", .str (s "entity_match")), (s "offsets", .arr [.int (-2), .int (-1), .int (0)])], .obj [(s
  "args", .obj [(s "entity_filter", .obj [(s "automatically_extensible", .bool true)]), (s "tagging_scheme_code",
  .int (2)), (s "use_stemming", .bool true)]), (s "drop_out", .float (1 / 2)), (s "factory_name", .str (s
  "entity_match")), (s "offsets", .arr [.int (-2), .int (-1), .int (0)])], .obj [(s "args", .obj [(s
  "tagging_scheme_code", .int (1))]), (s "factory_name", .str (s "builtin_entity_match")), (s "offsets", .arr [.int
  (-2), .int (-1), .int (0)])], .obj [(s "args", .obj [(s "cluster_name", .str (s "brown_clusters")), (s
  "use_stemming", .bool false)]), (s "factory_name", .str (s "word_cluster")), (s "offsets", .arr [.int (-2), .int
  (-1), .int (0), .int (1)])]]), (s "tagging_scheme", .int (1)), (s "unit_name", .str (s "crf_slot_filler"))]), (s
  "unit_name", .str (s "probabilistic_intent_parser"))]), (s "slot_fillers", .arr [.obj [(s "intent", .str (s
  "PlayGame")), (s "slot_filler_name", .str (s "slot_filler_0"))]])]

#guard reads file23 tree23

#guard decoded (decodeProbabilistic) (fun m => m) tree23 ([(s "PlayGame", s "slot_filler_0")])

/-- data/tests/models/nlu_engine_game/probabilistic_intent_parser/metadata.json -/
def file24 : Text := s "{\n  \"unit_name\": \"probabilistic_intent_parser\"\n}"

/-- What it denotes. -/
def tree24 : Json := .obj [(s "unit_name", .str (s "probabilistic_intent_parser"))]

#guard reads file24 tree24

#guard decoded (decodeUnit) (fun u => u) tree24 (.probabilisticIntentParser)

/-- data/tests/models/nlu_engine_game/probabilistic_intent_parser/intent_classifier/intent_classifier.json -/
def file25 : Text := s "{\n  \"coeffs\": [\n    [\n      -0.20149987419774504,\n      -0.4999326799959391,\n      -0.2072185982938113,\n      -0.20533716633716562,\n      -1.212997119952126,\n      -0.7430829768823239,\n      -0.10687891515378825,\n      -0.28544080700845964,\n      0.7737448377337215,\n      -1.212997119952126,\n      -0.7430829768823239,\n      -0.20533716633716562,\n      1.019183684420755,\n      -0.7550033666508472,\n      -0.7430829768823239,\n      -0.4433146539838388,\n      -0.437280810875116,\n      -0.20277376407358896,\n      -0.5550491008658663,\n      -0.7550033666508472,\n      -0.38138780663082483\n    ]\n  ],\n  \"config\": {\n    \"data_augmentation_config\": {\n      \"add_builtin_entities_examples\": false,\n      \"max_unknown_words\": null,\n      \"min_utterances\": 20,\n      \"noise_factor\": 5,\n      \"unknown_word_prob\": 0.0,\n      \"unknown_words_replacement_string\": null\n    },\n    \"featurizer_config\": {\n      \"added_cooccurrence_feature_ratio\": 0.0,\n      \"cooccurrence_vectorizer_config\": {\n        \"filter_stop_words\": true,\n        \"keep_order\": true,\n        \"unit_name\": \"cooccurrence_vectorizer\",\n        \"unknown_words_replacement_string\": null,\n        \"window_size\": null\n      },\n      \"pvalue_threshold\": 0.4,\n      \"tfidf_vectorizer_config\": {\n        \"unit_name\": \"tfidf_vectorizer\",\n        \"use_stemming\": false,\n        \"word_clusters_name\": null\n      },\n      \"unit_name\": \"featurizer\"\n    },\n    \"noise_reweight_factor\": 1,\n    \"unit_name\": \"log_reg_intent_classifier\"\n  },\n  \"featurizer\": \"featurizer\",\n  \"intent_list\": [\n    \"PlayGame\",\n    null\n  ],\n  \"intercept\": [\n    0.2646563858371308\n  ],\n  \"t_\": 2641.0\n}"

/-- What it denotes. -/
def tree25 : Json := .obj [(s "coeffs", .arr [.arr [.float (-2518748427471813 / 12500000000000000), .float
  (-4999326799959391 / 10000000000000000), .float (-2072185982938113 / 10000000000000000), .float
  (-10266858316858281 / 50000000000000000), .float (-606498559976063 / 500000000000000), .float (-7430829768823239 /
  10000000000000000), .float (-427515660615153 / 4000000000000000), .float (-7136020175211491 / 25000000000000000),
  .float (1547489675467443 / 2000000000000000), .float (-606498559976063 / 500000000000000), .float
  (-7430829768823239 / 10000000000000000), .float (-10266858316858281 / 50000000000000000), .float (203836736884151
  / 200000000000000), .float (-943754208313559 / 1250000000000000), .float (-7430829768823239 / 10000000000000000),
  .float (-1108286634959597 / 2500000000000000), .float (-109320202718779 / 250000000000000), .float
  (-1267336025459931 / 6250000000000000), .float (-5550491008658663 / 10000000000000000), .float (-943754208313559 /
  1250000000000000), .float (-38138780663082483 / 100000000000000000)]]), (s "config", .obj [(s
  "data_augmentation_config", .obj [(s "add_builtin_entities_examples", .bool false), (s "max_unknown_words",
  .null), (s "min_utterances", .int (20)), (s "noise_factor", .int (5)), (s "unknown_word_prob", .float (0 / 1)), (s
  "unknown_words_replacement_string", .null)]), (s "featurizer_config", .obj [(s "added_cooccurrence_feature_ratio",
  .float (0 / 1)), (s "cooccurrence_vectorizer_config", .obj [(s "filter_stop_words", .bool true), (s "keep_order",
  .bool true), (s "unit_name", .str (s "cooccurrence_vectorizer")), (s "unknown_words_replacement_string", .null),
  (s "window_size", .null)]), (s "pvalue_threshold", .float (2 / 5)), (s "tfidf_vectorizer_config", .obj [(s
  "unit_name", .str (s "tfidf_vectorizer")), (s "use_stemming", .bool false), (s "word_clusters_name", .null)]), (s
  "unit_name", .str (s "featurizer"))]), (s "noise_reweight_factor", .int (1)), (s "unit_name", .str (s
  "log_reg_intent_classifier"))]), (s "featurizer", .str (s "featurizer")), (s "intent_list", .arr [.str (s
  "PlayGame"), .null]), (s "intercept", .arr [.float (661640964592827 / 2500000000000000)]), (s "t_", .float (2641 /
  1))]

#guard reads file25 tree25

#guard decoded (decodeClassifier Rounding.exact) (fun m => (m.intentList, m.intercept)) tree25 (([some (s
  "PlayGame"), none], some [(661640964592827 / 2500000000000000 : ℚ)]))

/-- data/tests/models/nlu_engine_game/probabilistic_intent_parser/intent_classifier/metadata.json -/
def file26 : Text := s "{\n  \"unit_name\": \"log_reg_intent_classifier\"\n}"

/-- What it denotes. -/
def tree26 : Json := .obj [(s "unit_name", .str (s "log_reg_intent_classifier"))]

#guard reads file26 tree26

#guard decoded (decodeUnit) (fun u => u) tree26 (.logRegIntentClassifier)

/-- data/tests/models/nlu_engine_game/probabilistic_intent_parser/intent_classifier/featurizer/featurizer.json -/
def file27 : Text := s "{\n  \"config\": {\n    \"added_cooccurrence_feature_ratio\": 0.0,\n    \"cooccurrence_vectorizer_config\": {\n      \"filter_stop_words\": true,\n      \"keep_order\": true,\n      \"unit_name\": \"cooccurrence_vectorizer\",\n      \"unknown_words_replacement_string\": null,\n      \"window_size\": null\n    },\n    \"pvalue_threshold\": 0.4,\n    \"tfidf_vectorizer_config\": {\n      \"unit_name\": \"tfidf_vectorizer\",\n      \"use_stemming\": false,\n      \"word_clusters_name\": null\n    },\n    \"unit_name\": \"featurizer\"\n  },\n  \"cooccurrence_vectorizer\": null,\n  \"language_code\": \"en\",\n  \"tfidf_vectorizer\": \"tfidf_vectorizer\"\n}"

/-- What it denotes. -/
def tree27 : Json := .obj [(s "config", .obj [(s "added_cooccurrence_feature_ratio", .float (0 / 1)), (s
  "cooccurrence_vectorizer_config", .obj [(s "filter_stop_words", .bool true), (s "keep_order", .bool true), (s
  "unit_name", .str (s "cooccurrence_vectorizer")), (s "unknown_words_replacement_string", .null), (s "window_size",
  .null)]), (s "pvalue_threshold", .float (2 / 5)), (s "tfidf_vectorizer_config", .obj [(s "unit_name", .str (s
  "tfidf_vectorizer")), (s "use_stemming", .bool false), (s "word_clusters_name", .null)]), (s "unit_name", .str (s
  "featurizer"))]), (s "cooccurrence_vectorizer", .null), (s "language_code", .str (s "en")), (s "tfidf_vectorizer",
  .str (s "tfidf_vectorizer"))]

#guard reads file27 tree27

#guard decoded (decodeFeaturizer) (fun m => (m.tfidfVectorizer, m.cooccurrenceVectorizer)) tree27 ((s
  "tfidf_vectorizer", none))

/-- data/tests/models/nlu_engine_game/probabilistic_intent_parser/intent_classifier/featurizer/tfidf_vectorizer/vectorizer.json -/
def file28 : Text := s "{\n  \"builtin_entity_scope\": [],\n  \"config\": {\n    \"unit_name\": \"tfidf_vectorizer\",\n    \"use_stemming\": false,\n    \"word_clusters_name\": null\n  },\n  \"language_code\": \"en\",\n  \"vectorizer\": {\n    \"idf_diag\": [\n      4.697178256928631,\n      3.849880396541428,\n      4.697178256928631,\n      4.697178256928631,\n      2.751268107873318,\n      3.3978952727983707,\n      3.0232018233569597,\n      4.4094961844768505,\n      3.2308411881352046,\n      2.751268107873318,\n      3.3978952727983707,\n      4.697178256928631,\n      2.80005827204275,\n      3.3978952727983707,\n      3.3978952727983707,\n      4.004031076368686,\n      4.004031076368686,\n      4.697178256928631,\n      2.962577201540525,\n      3.3978952727983707,\n      4.186352633162641\n    ],\n    \"vocab\": {\n      \"3\": 0,\n      \"attack\": 1,\n      \"demo\": 2,\n      \"edition\": 3,\n      \"entityfeaturegame\": 4,\n      \"game\": 5,\n      \"i\": 6,\n      \"ii\": 7,\n      \"in\": 8,\n      \"invader\": 9,\n      \"launch\": 10,\n      \"limited\": 11,\n      \"of\": 12,\n      \"play\": 13,\n      \"please\": 14,\n      \"space\": 15,\n      \"star\": 16,\n      \"three\": 17,\n      \"to\": 18,\n      \"want\": 19,\n      \"war\": 20\n    }\n  }\n}"

/-- What it denotes. -/
def tree28 : Json := .obj [(s "builtin_entity_scope", .arr []), (s "config", .obj [(s "unit_name", .str (s
  "tfidf_vectorizer")), (s "use_stemming", .bool false), (s "word_clusters_name", .null)]), (s "language_code", .str
  (s "en")), (s "vectorizer", .obj [(s "idf_diag", .arr [.float (4697178256928631 / 1000000000000000), .float
  (962470099135357 / 250000000000000), .float (4697178256928631 / 1000000000000000), .float (4697178256928631 /
  1000000000000000), .float (1375634053936659 / 500000000000000), .float (33978952727983707 / 10000000000000000),
  .float (30232018233569597 / 10000000000000000), .float (8818992368953701 / 2000000000000000), .float
  (16154205940676023 / 5000000000000000), .float (1375634053936659 / 500000000000000), .float (33978952727983707 /
  10000000000000000), .float (4697178256928631 / 1000000000000000), .float (11200233088171 / 4000000000000), .float
  (33978952727983707 / 10000000000000000), .float (33978952727983707 / 10000000000000000), .float (2002015538184343
  / 500000000000000), .float (2002015538184343 / 500000000000000), .float (4697178256928631 / 1000000000000000),
  .float (118503088061621 / 40000000000000), .float (33978952727983707 / 10000000000000000), .float
  (4186352633162641 / 1000000000000000)]), (s "vocab", .obj [(s "3", .int (0)), (s "attack", .int (1)), (s "demo",
  .int (2)), (s "edition", .int (3)), (s "entityfeaturegame", .int (4)), (s "game", .int (5)), (s "i", .int (6)), (s
  "ii", .int (7)), (s "in", .int (8)), (s "invader", .int (9)), (s "launch", .int (10)), (s "limited", .int (11)),
  (s "of", .int (12)), (s "play", .int (13)), (s "please", .int (14)), (s "space", .int (15)), (s "star", .int
  (16)), (s "three", .int (17)), (s "to", .int (18)), (s "want", .int (19)), (s "war", .int (20))])])]

#guard reads file28 tree28

#guard decoded (decodeTfidf Rounding.exact) (fun m => (m.idfDiag, m.vocab)) tree28 (([(4697178256928631 /
  1000000000000000 : ℚ), (962470099135357 / 250000000000000 : ℚ), (4697178256928631 / 1000000000000000 : ℚ),
  (4697178256928631 / 1000000000000000 : ℚ), (1375634053936659 / 500000000000000 : ℚ), (33978952727983707 /
  10000000000000000 : ℚ), (30232018233569597 / 10000000000000000 : ℚ), (8818992368953701 / 2000000000000000 : ℚ),
  (16154205940676023 / 5000000000000000 : ℚ), (1375634053936659 / 500000000000000 : ℚ), (33978952727983707 /
  10000000000000000 : ℚ), (4697178256928631 / 1000000000000000 : ℚ), (11200233088171 / 4000000000000 : ℚ),
  (33978952727983707 / 10000000000000000 : ℚ), (33978952727983707 / 10000000000000000 : ℚ), (2002015538184343 /
  500000000000000 : ℚ), (2002015538184343 / 500000000000000 : ℚ), (4697178256928631 / 1000000000000000 : ℚ),
  (118503088061621 / 40000000000000 : ℚ), (33978952727983707 / 10000000000000000 : ℚ), (4186352633162641 /
  1000000000000000 : ℚ)], [(s "3", 0), (s "attack", 1), (s "demo", 2), (s "edition", 3), (s "entityfeaturegame", 4),
  (s "game", 5), (s "i", 6), (s "ii", 7), (s "in", 8), (s "invader", 9), (s "launch", 10), (s "limited", 11), (s
  "of", 12), (s "play", 13), (s "please", 14), (s "space", 15), (s "star", 16), (s "three", 17), (s "to", 18), (s
  "want", 19), (s "war", 20)]))

/-- data/tests/models/nlu_engine_game/probabilistic_intent_parser/slot_filler_0/metadata.json -/
def file29 : Text := s "{\n  \"unit_name\": \"crf_slot_filler\"\n}"

/-- What it denotes. -/
def tree29 : Json := .obj [(s "unit_name", .str (s "crf_slot_filler"))]

#guard reads file29 tree29

#guard decoded (decodeUnit) (fun u => u) tree29 (.crfSlotFiller)

/-- data/tests/models/nlu_engine_game/probabilistic_intent_parser/slot_filler_0/slot_filler.json -/
def file30 : Text := s "{\n  \"config\": {\n    \"crf_args\": {\n      \"algorithm\": \"lbfgs\",\n      \"c1\": 0.1,\n      \"c2\": 0.1\n    },\n    \"data_augmentation_config\": {\n      \"add_builtin_entities_examples\": true,\n      \"capitalization_ratio\": 0.2,\n      \"min_utterances\": 200\n    },\n    \"feature_factory_configs\": [\n      {\n        \"args\": {\n          \"common_words_gazetteer_name\": \"top_10000_words_stemmed\",\n          \"language_code\": \"en\",\n          \"n\": 1,\n          \"use_stemming\": true\n        },\n        \"factory_name\": \"ngram\",\n        \"offsets\": [\n          -2,\n          -1,\n          0,\n          1,\n          2\n        ]\n      },\n      {\n        \"args\": {\n          \"common_words_gazetteer_name\": \"top_10000_words_stemmed\",\n          \"language_code\": \"en\",\n          \"n\": 2,\n          \"use_stemming\": true\n        },\n        \"factory_name\": \"ngram\",\n        \"offsets\": [\n          -2,\n          1\n        ]\n      },\n      {\n        \"args\": {},\n        \"factory_name\": \"is_digit\",\n        \"offsets\": [\n          -1,\n          0,\n          1\n        ]\n      },\n      {\n        \"args\": {},\n        \"factory_name\": \"is_first\",\n        \"offsets\": [\n          -2,\n          -1,\n          0\n        ]\n      },\n      {\n        \"args\": {},\n        \"factory_name\": \"is_last\",\n        \"offsets\": [\n          0,\n          1,\n          2\n        ]\n      },\n      {\n        \"args\": {\n          \"language_code\": \"en\",\n          \"n\": 1\n        },\n        \"factory_name\": \"shape_ngram\",\n        \"offsets\": [\n          0\n        ]\n      },\n      {\n        \"args\": {\n          \"language_code\": \"en\",\n          \"n\": 2\n        },\n        \"factory_name\": \"shape_ngram\",\n        \"offsets\": [\n          -1,\n          0\n        ]\n      },\n      {\n        \"args\": {\n          \"language_code\": \"en\",\n          \"n\": 3\n        },\n        \"factory_name\": \"shape_ngram\",\n        \"offsets\": [\n          -1\n        ]\n      },\n      {\n        \"args\": {\n          \"entities\": [],\n          \"entity_filter\": {\n            \"automatically_extensible\": false\n          },\n          \"tagging_scheme_code\": 2,\n          \"use_stemming\": true\n        },\n        \"factory_name\": \"entity_match\",\n        \"offsets\": [\n          -2,\n          -1,\n          0\n        ]\n      },\n      {\n        \"args\": {\n          \"entities\": [\n            \"game\"\n          ],\n          \"entity_filter\": {\n            \"automatically_extensible\": true\n          },\n          \"tagging_scheme_code\": 2,\n          \"use_stemming\": true\n        },\n        \"drop_out\": 0.5,\n        \"factory_name\": \"entity_match\",\n        \"offsets\": [\n          -2,\n          -1,\n          0\n        ]\n      },\n      {\n        \"args\": {\n          \"entity_labels\": [\n            \"snips/amountOfMoney\",\n            \"snips/date\",\n            \"snips/datePeriod\",\n            \"snips/datetime\",\n            \"snips/duration\",\n            \"snips/number\",\n            \"snips/ordinal\",\n            \"snips/percentage\",\n            \"snips/temperature\",\n            \"snips/time\",\n            \"snips/timePeriod\"\n          ],\n          \"language_code\": \"en\",\n          \"tagging_scheme_code\": 1\n        },\n        \"factory_name\": \"builtin_entity_match\",\n        \"offsets\": [\n          -2,\n          -1,\n          0\n        ]\n      },\n      {\n        \"args\": {\n          \"cluster_name\": \"brown_clusters\",\n          \"use_stemming\": false\n        },\n        \"factory_name\": \"word_cluster\",\n        \"offsets\": [\n          -2,\n          -1,\n          0,\n          1\n        ]\n      }\n    ],\n    \"tagging_scheme\": 1,\n    \"unit_name\": \"crf_slot_filler\"\n  },\n  \"crf_model_file\": \"model.crfsuite\",\n  \"intent\": \"PlayGame\",\n  \"language_code\": \"en\",\n  \"slot_name_mapping\": {\n    \"game\": \"game\"\n  }\n}"

/-- What it denotes. -/
def tree30 : Json := .obj [(s "config", .obj [(s "crf_args", .obj [(s "algorithm", .str (s "lbfgs")), (s "c1",
  .float (1 / 10)), (s "c2", .float (1 / 10))]), (s "data_augmentation_config", .obj [(s
  "add_builtin_entities_examples", .bool true), (s "capitalization_ratio", .float (1 / 5)), (s "min_utterances",
  .int (200))]), (s "feature_factory_configs", .arr [.obj [(s "args", .obj [(s "common_words_gazetteer_name", .str
  (s "top_10000_words_stemmed")), (s "language_code", .str (s "en")), (s "n", .int (1)), (s "use_stemming", .bool
  true)]), (s "factory_name", .str (s "ngram")), (s "offsets", .arr [.int (-2), .int (-1), .int (0), .int (1), .int
  (2)])], .obj [(s "args", .obj [(s "common_words_gazetteer_name", .str (s "top_10000_words_stemmed")), (s
  "language_code", .str (s "en")), (s "n", .int (2)), (s "use_stemming", .bool true)]), (s "factory_name", .str (s
  "ngram")), (s "offsets", .arr [.int (-2), .int (1)])], .obj [(s "args", .obj []), (s "factory_name", .str (s
  "is_digit")), (s "offsets", .arr [.int (-1), .int (0), .int (1)])], .obj [(s "args", .obj []), (s "factory_name",
  .str (s "is_first")), (s "offsets", .arr [.int (-2), .int (-1), .int (0)])], .obj [(s "args", .obj []), (s
  "factory_name", .str (s "is_last")), (s "offsets", .arr [.int (0), .int (1), .int (2)])], .obj [(s "args", .obj
  [(s "language_code", .str (s "en")), (s "n", .int (1))]), (s "factory_name", .str (s "shape_ngram")), (s
  "offsets", .arr [.int (0)])], .obj [(s "args", .obj [(s "language_code", .str (s "en")), (s "n", .int (2))]), (s
  "factory_name", .str (s "shape_ngram")), (s "offsets", .arr [.int (-1), .int (0)])], .obj [(s "args", .obj [(s
  "language_code", .str (s "en")), (s "n", .int (3))]), (s "factory_name", .str (s "shape_ngram")), (s "offsets",
  .arr [.int (-1)])], .obj [(s "args", .obj [(s "entities", .arr []), (s "entity_filter", .obj [(s
  "automatically_extensible", .bool false)]), (s "tagging_scheme_code", .int (2)), (s "use_stemming", .bool true)]),
  (s "factory_name", .str (s "entity_match")), (s "offsets", .arr [.int (-2), .int (-1), .int (0)])], .obj [(s
  "args", .obj [(s "entities", .arr [.str (s "game")]), (s "entity_filter", .obj [(s "automatically_extensible",
  .bool true)]), (s "tagging_scheme_code", .int (2)), (s "use_stemming", .bool true)]), (s "drop_out", .float (1 /
  2)), (s "factory_name", .str (s "entity_match")), (s "offsets", .arr [.int (-2), .int (-1), .int (0)])], .obj [(s
  "args", .obj [(s "entity_labels", .arr [.str (s "snips/amountOfMoney"), .str (s "snips/date"), .str (s
  "snips/datePeriod"), .str (s "snips/datetime"), .str (s "snips/duration"), .str (s "snips/number"), .str (s
  "snips/ordinal"), .str (s "snips/percentage"), .str (s "snips/temperature"), .str (s "snips/time"), .str (s
  "snips/timePeriod")]), (s "language_code", .str (s "en")), (s "tagging_scheme_code", .int (1))]), (s
  "factory_name", .str (s "builtin_entity_match")), (s "offsets", .arr [.int (-2), .int (-1), .int (0)])], .obj [(s
  "args", .obj [(s "cluster_name", .str (s "brown_clusters")), (s "use_stemming", .bool false)]), (s "factory_name",
  .str (s "word_cluster")), (s "offsets", .arr [.int (-2), .int (-1), .int (0), .int (1)])]]), (s "tagging_scheme",
  .int (1)), (s "unit_name", .str (s "crf_slot_filler"))]), (s "crf_model_file", .str (s "model.crfsuite")), (s
  "intent", .str (s "PlayGame")), (s "language_code", .str (s "en")), (s "slot_name_mapping", .obj [(s "game", .str
  (s "game"))])]

#guard reads file30 tree30

#guard decoded (decodeSlotFiller) (fun m => (m.languageCode, m.slotNameMapping)) tree30 ((s "en", [(s "game", s
  "game")]))

/-- data/tests/models/nlu_engine_game/resources/en/metadata.json -/
def file31 : Text := s "{\n  \"author\": \"Rosa Stern\",\n  \"description\": \"Language resources for English\",\n  \"email\": \"rosa.stern@snips.ai\",\n  \"gazetteers\": [\n    \"top_10000_words_stemmed\"\n  ],\n  \"language\": \"en\",\n  \"license\": \"Apache License, Version 2.0\",\n  \"name\": \"snips_nlu_en\",\n  \"noise\": \"noise\",\n  \"snips_nlu_version\": \">=0.1.0,<1.0.0\",\n  \"stems\": \"stems\",\n  \"stop_words\": \"stop_words\",\n  \"url\": \"https://snips-nlu.readthedocs.io\",\n  \"version\": \"0.2.2\",\n  \"word_clusters\": [\n    \"brown_clusters\"\n  ]\n}"

/-- What it denotes. -/
def tree31 : Json := .obj [(s "author", .str (s "Rosa Stern")), (s "description", .str (s "Language resources for English")),
  (s "email", .str (s "rosa.stern@snips.ai")), (s "gazetteers", .arr [.str (s "top_10000_words_stemmed")]), (s
  "language", .str (s "en")), (s "license", .str (s "Apache License, Version 2.0")), (s "name", .str (s
  "snips_nlu_en")), (s "noise", .str (s "noise")), (s "snips_nlu_version", .str (s ">=0.1.0,<1.0.0")), (s "stems",
  .str (s "stems")), (s "stop_words", .str (s "stop_words")), (s "url", .str (s
  "https://snips-nlu.readthedocs.io")), (s "version", .str (s "0.2.2")), (s "word_clusters", .arr [.str (s
  "brown_clusters")])]

#guard reads file31 tree31

#guard decoded (decodeResources) (fun m => (m.gazetteers, m.wordClusters, m.stems, m.stopWords)) tree31 ((some [s
  "top_10000_words_stemmed"], some [s "brown_clusters"], some (s "stems"), some (s "stop_words")))

/-- data/tests/models/nlu_engine_music/nlu_engine.json -/
def file32 : Text := s "{\n  \"builtin_entity_parser\": \"builtin_entity_parser\",\n  \"config\": {\n    \"intent_parsers_configs\": [\n      {\n        \"ignore_stop_words\": true,\n        \"max_pattern_length\": 1000,\n        \"max_queries\": 100,\n        \"unit_name\": \"deterministic_intent_parser\"\n      },\n      {\n        \"intent_classifier_config\": {\n          \"data_augmentation_config\": {\n            \"add_builtin_entities_examples\": true,\n            \"max_unknown_words\": 5,\n            \"min_utterances\": 20,\n            \"noise_factor\": 5,\n            \"unknown_word_prob\": 0.5,\n            \"unknown_words_replacement_string\": \"unknownword\"\n          },\n          \"featurizer_config\": {\n            \"added_cooccurrence_feature_ratio\": 0.25,\n            \"cooccurrence_vectorizer_config\": {\n              \"filter_stop_words\": true,\n              \"keep_order\": true,\n              \"unit_name\": \"cooccurrence_vectorizer\",\n              \"unknown_words_replacement_string\": \"unknownword\",\n              \"window_size\": 5\n            },\n            \"pvalue_threshold\": 0.4,\n            \"tfidf_vectorizer_config\": {\n              \"unit_name\": \"tfidf_vectorizer\",\n              \"use_stemming\": false,\n              \"word_clusters_name\": null\n            },\n            \"unit_name\": \"featurizer\"\n          },\n          \"noise_reweight_factor\": 1.0,\n          \"unit_name\": \"log_reg_intent_classifier\"\n        },\n        \"slot_filler_config\": {\n          \"crf_args\": {\n            \"algorithm\": \"lbfgs\",\n            \"c1\": 0.1,\n            \"c2\": 0.1\n          },\n          \"data_augmentation_config\": {\n            \"add_builtin_entities_examples\": true,\n            \"capitalization_ratio\": 0.2,\n            \"min_utterances\": 200\n          },\n          \"feature_factory_configs\": [\n            {\n              \"args\": {\n                \"common_words_gazetteer_name\": \"top_10000_words_stemmed\",\n                \"n\": 1,\n                \"use_stemming\": true\n              },\n              \"factory_name\": \"ngram\",\n              \"offsets\": [\n                -2,\n                -1,\n                0,\n                1,\n                2\n              ]\n            },\n            {\n              \"args\": {\n                \"common_words_gazetteer_name\": \"top_10000_words_stemmed\",\n                \"n\": 2,\n                \"use_stemming\": true\n              },\n              \"factory_name\": \"ngram\",\n              \"offsets\": [\n                -2,\n                1\n              ]\n            },\n            {\n              \"args\": {},\n              \"factory_name\": \"is_digit\",\n              \"offsets\": [\n                -1,\n                0,\n                1\n              ]\n            },\n            {\n              \"args\": {},\n              \"factory_name\": \"is_first\",\n              \"offsets\": [\n                -2,\n                -1,\n                0\n              ]\n            },\n            {\n              \"args\": {},\n              \"factory_name\": \"is_last\",\n              \"offsets\": [\n                0,\n                1,\n                2\n              ]\n            },\n            {\n              \"args\": {\n                \"n\": 1\n              },\n              \"factory_name\": \"shape_ngram\",\n              \"offsets\": [\n                0\n              ]\n            },\n            {\n              \"args\": {\n                \"n\": 2\n              },\n              \"factory_name\": \"shape_ngram\",\n              \"offsets\": [\n                -1,\n                0\n              ]\n            },\n            {\n              \"args\": {\n                \"n\": 3\n              },\n              \"factory_name\": \"shape_ngram\",\n              \"offsets\": [\n                -1\n              ]\n            },\n            {\n              \"args\": {\n                \"tagging_scheme_code\": 2,\n                \"use_stemming\": true\n              },\n              \"drop_out\": 0.5,\n              \"factory_name\": \"entity_match\",\n              \"offsets\": [\n                -2,\n                -1,\n                0\n              ]\n            },\n            {\n              \"args\": {\n                \"tagging_scheme_code\": 1\n              },\n              \"factory_name\": \"builtin_entity_match\",\n              \"offsets\": [\n                -2,\n                -1,\n                0\n              ]\n            }\n          ],\n          \"tagging_scheme\": 1,\n          \"unit_name\": \"crf_slot_filler\"\n        },\n        \"unit_name\": \"probabilistic_intent_parser\"\n      }\n    ],\n    \"unit_name\": \"nlu_engine\"\n  },\n  \"custom_entity_parser\": \"custom_entity_parser\",\n  \"dataset_metadata\": {\n    \"entities\": {\n      \"playlist\": {\n        \"automatically_extensible\": false\n      }\n    },\n    \"language_code\": \"fr\",\n    \"slot_name_mappings\": {\n      \"adri:PlayMusic\": {\n        \"musicAlbum\": \"snips/musicAlbum\",\n        \"musicArtist\": \"snips/musicArtist\",\n        \"playlist\": \"playlist\"\n      }\n    }\n  },\n  \"intent_parsers\": [\n    \"deterministic_intent_parser\",\n    \"probabilistic_intent_parser\"\n  ],\n  \"model_version\": \"0.20.0\",\n  \"training_package_version\": \"0.20.0\",\n  \"unit_name\": \"nlu_engine\"\n}"

/-- What it denotes. -/
def tree32 : Json := .obj [(s "builtin_entity_parser", .str (s "builtin_entity_parser")), (s "config", .obj [(s
  "intent_parsers_configs", .arr [.obj [(s "ignore_stop_words", .bool true), (s "max_pattern_length", .int (1000)),
  (s "max_queries", .int (100)), (s "unit_name", .str (s "deterministic_intent_parser"))], .obj [(s
  "intent_classifier_config", .obj [(s "data_augmentation_config", .obj [(s "add_builtin_entities_examples", .bool
  true), (s "max_unknown_words", .int (5)), (s "min_utterances", .int (20)), (s "noise_factor", .int (5)), (s
  "unknown_word_prob", .float (1 / 2)), (s "unknown_words_replacement_string", .str (s "unknownword"))]), (s
  "featurizer_config", .obj [(s "added_cooccurrence_feature_ratio", .float (1 / 4)), (s
  "cooccurrence_vectorizer_config", .obj [(s "filter_stop_words", .bool true), (s "keep_order", .bool true), (s
  "unit_name", .str (s "cooccurrence_vectorizer")), (s "unknown_words_replacement_string", .str (s "unknownword")),
  (s "window_size", .int (5))]), (s "pvalue_threshold", .float (2 / 5)), (s "tfidf_vectorizer_config", .obj [(s
  "unit_name", .str (s "tfidf_vectorizer")), (s "use_stemming", .bool false), (s "word_clusters_name", .null)]), (s
  "unit_name", .str (s "featurizer"))]), (s "noise_reweight_factor", .float (1 / 1)), (s "unit_name", .str (s
  "log_reg_intent_classifier"))]), (s "slot_filler_config", .obj [(s "crf_args", .obj [(s "algorithm", .str (s
  "lbfgs")), (s "c1", .float (1 / 10)), (s "c2", .float (1 / 10))]), (s "data_augmentation_config", .obj [(s
  "add_builtin_entities_examples", .bool true), (s "capitalization_ratio", .float (1 / 5)), (s "min_utterances",
  .int (200))]), (s "feature_factory_configs", .arr [.obj [(s "args", .obj [(s "common_words_gazetteer_name", .str
  (s "top_10000_words_stemmed")), (s "n", .int (1)), (s "use_stemming", .bool true)]), (s "factory_name", .str (s
  "ngram")), (s "offsets", .arr [.int (-2), .int (-1), .int (0), .int (1), .int (2)])], .obj [(s "args", .obj [(s
  "common_words_gazetteer_name", .str (s "top_10000_words_stemmed")), (s "n", .int (2)), (s "use_stemming", .bool
  true)]), (s "factory_name", .str (s "ngram")), (s "offsets", .arr [.int (-2), .int (1)])], .obj [(s "args", .obj
  []), (s "factory_name", .str (s "is_digit")), (s "offsets", .arr [.int (-1), .int (0), .int (1)])], .obj [(s
  "args", .obj []), (s "factory_name", .str (s "is_first")), (s "offsets", .arr [.int (-2), .int (-1), .int (0)])],
  .obj [(s "args", .obj []), (s "factory_name", .str (s "is_last")), (s "offsets", .arr [.int (0), .int (1), .int
  (2)])], .obj [(s "args", .obj [(s "n", .int (1))]), (s "factory_name", .str (s "shape_ngram")), (s "offsets", .arr
  [.int (0)])], .obj [(s "args", .obj [(s "n", .int (2))]), (s "factory_name", .str (s "shape_ngram")), (s
  "offsets", .arr [.int (-1), .int (0)])], .obj [(s "args", .obj [(s "n", .int (3))]), (s "factory_name", .str (s
  "shape_ngram")), (s "offsets", .arr [.int (-1)])], .obj [(s "args", .obj [(s "tagging_scheme_code", .int (2)), (s
  "use_stemming", .bool true)]), (s "drop_out", .float (1 / 2)), (s "factory_name", .str (s "entity_match")), (s
  "offsets", .arr [.int (-2), .int (-1), .int (0)])], .obj [(s "args", .obj [(s "tagging_scheme_code", .int (1))]),
  (s "factory_name", .str (s "builtin_entity_match")), (s "offsets", .arr [.int (-2), .int (-1), .int (0)])]]), (s
  "tagging_scheme", .int (1)), (s "unit_name", .str (s "crf_slot_filler"))]), (s "unit_name", .str (s
  "probabilistic_intent_parser"))]]), (s "unit_name", .str (s "nlu_engine"))]), (s "custom_entity_parser", .str (s
  "custom_entity_parser")), (s "dataset_metadata", .obj [(s "entities", .obj [(s "playlist", .obj [(s
  "automatically_extensible", .bool false)])]), (s "language_code", .str (s "fr")), (s "slot_name_mappings", .obj
  [(s "adri:PlayMusic", .obj [(s "musicAlbum", .str (s "snips/musicAlbum")), (s "musicArtist", .str (s
  "snips/musicArtist")), (s "playlist", .str (s "playlist"))])])]), (s "intent_parsers", .arr [.str (s
  "deterministic_intent_parser"), .str (s "probabilistic_intent_parser")]), (s "model_version", .str (s "0.20.0")),
  (s "training_package_version", .str (s "0.20.0")), (s "unit_name", .str (s "nlu_engine"))]

#guard reads file32 tree32

#guard decoded (decodeEngine) (fun m => (m.languageCode, m.intentParsers, m.builtinEntityParser,
  m.customEntityParser)) tree32 ((s "fr", [s "deterministic_intent_parser", s "probabilistic_intent_parser"], s
  "builtin_entity_parser", s "custom_entity_parser"))

/-- data/tests/models/nlu_engine_music/custom_entity_parser/metadata.json -/
def file33 : Text := s "{\n  \"language\": \"fr\",\n  \"parser_directory\": \"parser\",\n  \"parser_usage\": 2\n}"

/-- What it denotes. -/
def tree33 : Json := .obj [(s "language", .str (s "fr")), (s "parser_directory", .str (s "parser")), (s
  "parser_usage", .int (2))]

#guard reads file33 tree33

#guard decoded (decodeCustomParser) (fun m => (m.language, m.parserDirectory)) tree33 ((s "fr", s "parser"))

/-- data/tests/models/nlu_engine_music/deterministic_intent_parser/intent_parser.json -/
def file34 : Text := s "{\n  \"config\": {\n    \"ignore_stop_words\": true,\n    \"max_pattern_length\": 1000,\n    \"max_queries\": 100,\n    \"unit_name\": \"deterministic_intent_parser\"\n  },\n  \"group_names_to_slot_names\": {\n    \"group0\": \"musicAlbum\",\n    \"group1\": \"musicArtist\",\n    \"group2\": \"playlist\"\n  },\n  \"language_code\": \"fr\",\n  \"patterns\": {\n    \"adri:PlayMusic\": [\n      \"^\\\\s*mets\\\\s*son\\\\s*(?P<group1>%SNIPSMUSICARTIST%)\\\\s*$\",\n      \"^\\\\s*je\\\\s*veux\\\\s*ecouter\\\\s*chanson\\\\s*(?P<group1>%SNIPSMUSICARTIST%)\\\\s*please\\\\s*$\",\n      \"^\\\\s*je\\\\s*souhaiterais\\\\s*\\u00e9couter\\\\s*album\\\\s*(?P<group0>%SNIPSMUSICALBUM%)\\\\s*$\",\n      \"^\\\\s*mets\\\\s*album\\\\s*(?P<group0>%SNIPSMUSICALBUM%)\\\\s*(?P<group1>%SNIPSMUSICARTIST%)\\\\s*$\",\n      \"^\\\\s*lance\\\\s*album\\\\s*(?P<group0>%SNIPSMUSICALBUM%)\\\\s*veux\\\\s*$\",\n      \"^\\\\s*mets\\\\s*(?P<group1>%SNIPSMUSICARTIST%)\\\\s*$\",\n      \"^\\\\s*je\\\\s*veux\\\\s*ecouter\\\\s*album\\\\s*(?P<group0>%SNIPSMUSICALBUM%)\\\\s*(?P<group1>%SNIPSMUSICARTIST%)\\\\s*$\",\n      \"^\\\\s*peux\\\\s*mettre\\\\s*(?P<group1>%SNIPSMUSICARTIST%)\\\\s*$\",\n      \"^\\\\s*je\\\\s*voudrais\\\\s*ecouter\\\\s*(?P<group1>%SNIPSMUSICARTIST%)\\\\s*$\",\n      \"^\\\\s*je\\\\s*voudrais\\\\s*ecouter\\\\s*playlist\\\\s*(?P<group2>%PLAYLIST%)\\\\s*$\"\n    ]\n  },\n  \"slot_names_to_entities\": {\n    \"adri:PlayMusic\": {\n      \"musicAlbum\": \"snips/musicAlbum\",\n      \"musicArtist\": \"snips/musicArtist\",\n      \"playlist\": \"playlist\"\n    }\n  },\n  \"stop_words_whitelist\": {}\n}"

/-- What it denotes. -/
def tree34 : Json := .obj [(s "config", .obj [(s "ignore_stop_words", .bool true), (s "max_pattern_length", .int
  (1000)), (s "max_queries", .int (100)), (s "unit_name", .str (s "deterministic_intent_parser"))]), (s
  "group_names_to_slot_names", .obj [(s "group0", .str (s "musicAlbum")), (s "group1", .str (s "musicArtist")), (s
  "group2", .str (s "playlist"))]), (s "language_code", .str (s "fr")), (s "patterns", .obj [(s "adri:PlayMusic",
  .arr [.str (s "^\\s*mets\\s*son\\s*(?P<group1>%SNIPSMUSICARTIST%)\\s*$"), .str (s
  "^\\s*je\\s*veux\\s*ecouter\\s*chanson\\s*(?P<group1>%SNIPSMUSICARTIST%)\\s*please\\s*$"), .str (s
  "^\\s*je\\s*souhaiterais\\s*écouter\\s*album\\s*(?P<group0>%SNIPSMUSICALBUM%)\\s*$"), .str (s
  "^\\s*mets\\s*album\\s*(?P<group0>%SNIPSMUSICALBUM%)\\s*(?P<group1>%SNIPSMUSICARTIST%)\\s*$"), .str (s
  "^\\s*lance\\s*album\\s*(?P<group0>%SNIPSMUSICALBUM%)\\s*veux\\s*$"), .str (s
  "^\\s*mets\\s*(?P<group1>%SNIPSMUSICARTIST%)\\s*$"), .str (s
  "^\\s*je\\s*veux\\s*ecouter\\s*album\\s*(?P<group0>%SNIPSMUSICALBUM%)\\s*(?P<group1>%SNIPSMUSICARTIST%)\\s*$"),
  .str (s "^\\s*peux\\s*mettre\\s*(?P<group1>%SNIPSMUSICARTIST%)\\s*$"), .str (s
  "^\\s*je\\s*voudrais\\s*ecouter\\s*(?P<group1>%SNIPSMUSICARTIST%)\\s*$"), .str (s
  "^\\s*je\\s*voudrais\\s*ecouter\\s*playlist\\s*(?P<group2>%PLAYLIST%)\\s*$")])]), (s "slot_names_to_entities",
  .obj [(s "adri:PlayMusic", .obj [(s "musicAlbum", .str (s "snips/musicAlbum")), (s "musicArtist", .str (s
  "snips/musicArtist")), (s "playlist", .str (s "playlist"))])]), (s "stop_words_whitelist", .obj [])]

#guard reads file34 tree34

#guard decoded (decodeDeterministic) (fun m => (m.languageCode, m.patterns)) tree34 ((s "fr", [(s "adri:PlayMusic",
  [s "^\\s*mets\\s*son\\s*(?P<group1>%SNIPSMUSICARTIST%)\\s*$", s
  "^\\s*je\\s*veux\\s*ecouter\\s*chanson\\s*(?P<group1>%SNIPSMUSICARTIST%)\\s*please\\s*$", s
  "^\\s*je\\s*souhaiterais\\s*écouter\\s*album\\s*(?P<group0>%SNIPSMUSICALBUM%)\\s*$", s
  "^\\s*mets\\s*album\\s*(?P<group0>%SNIPSMUSICALBUM%)\\s*(?P<group1>%SNIPSMUSICARTIST%)\\s*$", s
  "^\\s*lance\\s*album\\s*(?P<group0>%SNIPSMUSICALBUM%)\\s*veux\\s*$", s
  "^\\s*mets\\s*(?P<group1>%SNIPSMUSICARTIST%)\\s*$", s
  "^\\s*je\\s*veux\\s*ecouter\\s*album\\s*(?P<group0>%SNIPSMUSICALBUM%)\\s*(?P<group1>%SNIPSMUSICARTIST%)\\s*$", s
  "^\\s*peux\\s*mettre\\s*(?P<group1>%SNIPSMUSICARTIST%)\\s*$", s
  "^\\s*je\\s*voudrais\\s*ecouter\\s*(?P<group1>%SNIPSMUSICARTIST%)\\s*$", s
  "^\\s*je\\s*voudrais\\s*ecouter\\s*playlist\\s*(?P<group2>%PLAYLIST%)\\s*$"])]))

/-- data/tests/models/nlu_engine_music/deterministic_intent_parser/metadata.json -/
def file35 : Text := s "{\n  \"unit_name\": \"deterministic_intent_parser\"\n}"

/-- What it denotes. -/
def tree35 : Json := .obj [(s "unit_name", .str (s "deterministic_intent_parser"))]

#guard reads file35 tree35

#guard decoded (decodeUnit) (fun u => u) tree35 (.deterministicIntentParser)

/-- data/tests/models/nlu_engine_music/probabilistic_intent_parser/intent_parser.json -/
def file36 : Text := s "{\n  \"config\": {\n    \"intent_classifier_config\": {\n      \"data_augmentation_config\": {\n        \"add_builtin_entities_examples\": true,\n        \"max_unknown_words\": 5,\n        \"min_utterances\": 20,\n        \"noise_factor\": 5,\n        \"unknown_word_prob\": 0.5,\n        \"unknown_words_replacement_string\": \"unknownword\"\n      },\n      \"featurizer_config\": {\n        \"added_cooccurrence_feature_ratio\": 0.25,\n        \"cooccurrence_vectorizer_config\": {\n          \"filter_stop_words\": true,\n          \"keep_order\": true,\n          \"unit_name\": \"cooccurrence_vectorizer\",\n          \"unknown_words_replacement_string\": \"unknownword\",\n          \"window_size\": 5\n        },\n        \"pvalue_threshold\": 0.4,\n        \"tfidf_vectorizer_config\": {\n          \"unit_name\": \"tfidf_vectorizer\",\n          \"use_stemming\": false,\n          \"word_clusters_name\": null\n        },\n        \"unit_name\": \"featurizer\"\n      },\n      \"noise_reweight_factor\": 1.0,\n      \"unit_name\": \"log_reg_intent_classifier\"\n    },\n    \"slot_filler_config\": {\n      \"crf_args\": {\n        \"algorithm\": \"lbfgs\",\n        \"c1\": 0.1,\n        \"c2\": 0.1\n      },\n      \"data_augmentation_config\": {\n        \"add_builtin_entities_examples\": true,\n        \"capitalization_ratio\": 0.2,\n        \"min_utterances\": 200\n      },\n      \"feature_factory_configs\": [\n        {\n          \"args\": {\n            \"common_words_gazetteer_name\": \"top_10000_words_stemmed\",\n            \"n\": 1,\n            \"use_stemming\": true\n          },\n          \"factory_name\": \"ngram\",\n          \"offsets\": [\n            -2,\n            -1,\n            0,\n            1,\n            2\n          ]\n        },\n        {\n          \"args\": {\n            \"common_words_gazetteer_name\": \"top_10000_words_stemmed\",\n            \"n\": 2,\n            \"use_stemming\": true\n          },\n          \"factory_name\": \"ngram\",\n          \"offsets\": [\n            -2,\n            1\n          ]\n        },\n        {\n          \"args\": {},\n          \"factory_name\": \"is_digit\",\n          \"offsets\": [\n            -1,\n            0,\n            1\n          ]\n        },\n        {\n          \"args\": {},\n          \"factory_name\": \"is_first\",\n          \"offsets\": [\n            -2,\n            -1,\n            0\n          ]\n        },\n        {\n          \"args\": {},\n          \"factory_name\": \"is_last\",\n          \"offsets\": [\n            0,\n            1,\n            2\n          ]\n        },\n        {\n          \"args\": {\n            \"n\": 1\n          },\n          \"factory_name\": \"shape_ngram\",\n          \"offsets\": [\n            0\n          ]\n        },\n        {\n          \"args\": {\n            \"n\": 2\n          },\n          \"factory_name\": \"shape_ngram\",\n          \"offsets\": [\n            -1,\n            0\n          ]\n        },\n        {\n          \"args\": {\n            \"n\": 3\n          },\n          \"factory_name\": \"shape_ngram\",\n          \"offsets\": [\n            -1\n          ]\n        },\n        {\n          \"args\": {\n            \"tagging_scheme_code\": 2,\n            \"use_stemming\": true\n          },\n          \"drop_out\": 0.5,\n          \"factory_name\": \"entity_match\",\n          \"offsets\": [\n            -2,\n            -1,\n            0\n          ]\n        },\n        {\n          \"args\": {\n            \"tagging_scheme_code\": 1\n          },\n          \"factory_name\": \"builtin_entity_match\",\n          \"offsets\": [\n            -2,\n            -1,\n            0\n          ]\n        }\n      ],\n      \"tagging_scheme\": 1,\n      \"unit_name\": \"crf_slot_filler\"\n    },\n    \"unit_name\": \"probabilistic_intent_parser\"\n  },\n  \"slot_fillers\": [\n    {\n      \"intent\": \"adri:PlayMusic\",\n      \"slot_filler_name\": \"slot_filler_0\"\n    }\n  ]\n}"

/-- What it denotes. -/
def tree36 : Json := .obj [(s "config", .obj [(s "intent_classifier_config", .obj [(s "data_augmentation_config",
  .obj [(s "add_builtin_entities_examples", .bool true), (s "max_unknown_words", .int (5)), (s "min_utterances",
  .int (20)), (s "noise_factor", .int (5)), (s "unknown_word_prob", .float (1 / 2)), (s
  "unknown_words_replacement_string", .str (s "unknownword"))]), (s "featurizer_config", .obj [(s
  "added_cooccurrence_feature_ratio", .float (1 / 4)), (s "cooccurrence_vectorizer_config", .obj [(s
  "filter_stop_words", .bool true), (s "keep_order", .bool true), (s "unit_name", .str (s
  "cooccurrence_vectorizer")), (s "unknown_words_replacement_string", .str (s "unknownword")), (s "window_size",
  .int (5))]), (s "pvalue_threshold", .float (2 / 5)), (s "tfidf_vectorizer_config", .obj [(s "unit_name", .str (s
  "tfidf_vectorizer")), (s "use_stemming", .bool false), (s "word_clusters_name", .null)]), (s "unit_name", .str (s
  "featurizer"))]), (s "noise_reweight_factor", .float (1 / 1)), (s "unit_name", .str (s
  "log_reg_intent_classifier"))]), (s "slot_filler_config", .obj [(s "crf_args", .obj [(s "algorithm", .str (s
  "lbfgs")), (s "c1", .float (1 / 10)), (s "c2", .float (1 / 10))]), (s "data_augmentation_config", .obj [(s
  "add_builtin_entities_examples", .bool true), (s "capitalization_ratio", .float (1 / 5)), (s "min_utterances",
  .int (200))]), (s "feature_factory_configs", .arr [.obj [(s "args", .obj [(s "common_words_gazetteer_name", .str
  (s "top_10000_words_stemmed")), (s "n", .int (1)), (s "use_stemming", .bool true)]), (s "factory_name", .str (s
  "ngram")), (s "offsets", .arr [.int (-2), .int (-1), .int (0), .int (1), .int (2)])], .obj [(s "args", .obj [(s
  "common_words_gazetteer_name", .str (s "top_10000_words_stemmed")), (s "n", .int (2)), (s "use_stemming", .bool
  true)]), (s "factory_name", .str (s "ngram")), (s "offsets", .arr [.int (-2), .int (1)])], .obj [(s "args", .obj
  []), (s "factory_name", .str (s "is_digit")), (s "offsets", .arr [.int (-1), .int (0), .int (1)])], .obj [(s
  "args", .obj []), (s "factory_name", .str (s "is_first")), (s "offsets", .arr [.int (-2), .int (-1), .int (0)])],
  .obj [(s "args", .obj []), (s "factory_name", .str (s "is_last")), (s "offsets", .arr [.int (0), .int (1), .int
  (2)])], .obj [(s "args", .obj [(s "n", .int (1))]), (s "factory_name", .str (s "shape_ngram")), (s "offsets", .arr
  [.int (0)])], .obj [(s "args", .obj [(s "n", .int (2))]), (s "factory_name", .str (s "shape_ngram")), (s
  "offsets", .arr [.int (-1), .int (0)])], .obj [(s "args", .obj [(s "n", .int (3))]), (s "factory_name", .str (s
  "shape_ngram")), (s "offsets", .arr [.int (-1)])], .obj [(s "args", .obj [(s "tagging_scheme_code", .int (2)), (s
  "use_stemming", .bool true)]), (s "drop_out", .float (1 / 2)), (s "factory_name", .str (s "entity_match")), (s
  "offsets", .arr [.int (-2), .int (-1), .int (0)])], .obj [(s "args", .obj [(s "tagging_scheme_code", .int (1))]),
  (s "factory_name", .str (s "builtin_entity_match")), (s "offsets", .arr [.int (-2), .int (-1), .int (0)])]]), (s
  "tagging_scheme", .int (1)), (s "unit_name", .str (s "crf_slot_filler"))]), (s "unit_name", .str (s
  "probabilistic_intent_parser"))]), (s "slot_fillers", .arr [.obj [(s "intent", .str (s "adri:PlayMusic")), (s
  "slot_filler_name", .str (s "slot_filler_0"))]])]

#guard reads file36 tree36

#guard decoded (decodeProbabilistic) (fun m => m) tree36 ([(s "adri:PlayMusic", s "slot_filler_0")])

/-- data/tests/models/nlu_engine_music/probabilistic_intent_parser/metadata.json -/
def file37 : Text := s "{\n  \"unit_name\": \"probabilistic_intent_parser\"\n}"

/-- What it denotes. -/
def tree37 : Json := .obj [(s "unit_name", .str (s "probabilistic_intent_parser"))]

#guard reads file37 tree37

#guard decoded (decodeUnit) (fun u => u) tree37 (.probabilisticIntentParser)

/-- data/tests/models/nlu_engine_music/probabilistic_intent_parser/intent_classifier/intent_classifier.json -/
def file38 : Text := s "{\n  \"coeffs\": [\n    [\n      -0.5166360015252428,\n      -0.37123136560399383,\n      -0.5990894741148578,\n      -1.118727734094978,\n      -0.030597456416977947,\n      1.0322279612160994,\n      1.016885422821252,\n      -0.7621951278255702,\n      -0.18816721865208444,\n      -0.18816721865208444,\n      -0.3827265434396571,\n      1.0195576774593815,\n      -0.5166360015252428,\n      -1.1284893473963162,\n      -1.3002036067433036,\n      -0.5832964749395109,\n      -0.18816721865208444,\n      -0.030597456416977947,\n      -0.15204859193852968,\n      -0.1956950722711481,\n      -1.3811965585429193,\n      3.2429520118942476,\n      -0.2631328048160813,\n      -0.7114748378163408,\n      -1.8419736587848352,\n      -0.636452201857874,\n      -1.0594513135610186,\n      -0.6320896470933497,\n      -1.6115371082209173,\n      -2.444543746213874\n    ]\n  ],\n  \"config\": {\n    \"data_augmentation_config\": {\n      \"add_builtin_entities_examples\": true,\n      \"max_unknown_words\": 5,\n      \"min_utterances\": 20,\n      \"noise_factor\": 5,\n      \"unknown_word_prob\": 0.5,\n      \"unknown_words_replacement_string\": \"unknownword\"\n    },\n    \"featurizer_config\": {\n      \"added_cooccurrence_feature_ratio\": 0.25,\n      \"cooccurrence_vectorizer_config\": {\n        \"filter_stop_words\": true,\n        \"keep_order\": true,\n        \"unit_name\": \"cooccurrence_vectorizer\",\n        \"unknown_words_replacement_string\": \"unknownword\",\n        \"window_size\": 5\n      },\n      \"pvalue_threshold\": 0.4,\n      \"tfidf_vectorizer_config\": {\n        \"unit_name\": \"tfidf_vectorizer\",\n        \"use_stemming\": false,\n        \"word_clusters_name\": null\n      },\n      \"unit_name\": \"featurizer\"\n    },\n    \"noise_reweight_factor\": 1.0,\n    \"unit_name\": \"log_reg_intent_classifier\"\n  },\n  \"featurizer\": \"featurizer\",\n  \"intent_list\": [\n    \"adri:PlayMusic\",\n    null\n  ],\n  \"intercept\": [\n    0.028391354876375573\n  ],\n  \"t_\": 961.0\n}"

/-- What it denotes. -/
def tree38 : Json := .obj [(s "coeffs", .arr [.arr [.float (-1291590003813107 / 2500000000000000), .float
  (-37123136560399383 / 100000000000000000), .float (-2995447370574289 / 5000000000000000), .float (-559363867047489
  / 500000000000000), .float (-30597456416977947 / 1000000000000000000), .float (5161139806080497 /
  5000000000000000), .float (254221355705313 / 250000000000000), .float (-3810975639127851 / 5000000000000000),
  .float (-4704180466302111 / 25000000000000000), .float (-4704180466302111 / 25000000000000000), .float
  (-3827265434396571 / 10000000000000000), .float (2039115354918763 / 2000000000000000), .float (-1291590003813107 /
  2500000000000000), .float (-5642446736981581 / 5000000000000000), .float (-3250509016858259 / 2500000000000000),
  .float (-5832964749395109 / 10000000000000000), .float (-4704180466302111 / 25000000000000000), .float
  (-30597456416977947 / 1000000000000000000), .float (-1900607399231621 / 12500000000000000), .float
  (-1956950722711481 / 10000000000000000), .float (-13811965585429193 / 10000000000000000), .float (8107380029735619
  / 2500000000000000), .float (-2631328048160813 / 10000000000000000), .float (-444671773635213 / 625000000000000),
  .float (-575616768370261 / 312500000000000), .float (-318226100928937 / 500000000000000), .float
  (-5297256567805093 / 5000000000000000), .float (-6320896470933497 / 10000000000000000), .float (-16115371082209173
  / 10000000000000000), .float (-1222271873106937 / 500000000000000)]]), (s "config", .obj [(s
  "data_augmentation_config", .obj [(s "add_builtin_entities_examples", .bool true), (s "max_unknown_words", .int
  (5)), (s "min_utterances", .int (20)), (s "noise_factor", .int (5)), (s "unknown_word_prob", .float (1 / 2)), (s
  "unknown_words_replacement_string", .str (s "unknownword"))]), (s "featurizer_config", .obj [(s
  "added_cooccurrence_feature_ratio", .float (1 / 4)), (s "cooccurrence_vectorizer_config", .obj [(s
  "filter_stop_words", .bool true), (s "keep_order", .bool true), (s "unit_name", .str (s
  "cooccurrence_vectorizer")), (s "unknown_words_replacement_string", .str (s "unknownword")), (s "window_size",
  .int (5))]), (s "pvalue_threshold", .float (2 / 5)), (s "tfidf_vectorizer_config", .obj [(s "unit_name", .str (s
  "tfidf_vectorizer")), (s "use_stemming", .bool false), (s "word_clusters_name", .null)]), (s "unit_name", .str (s
  "featurizer"))]), (s "noise_reweight_factor", .float (1 / 1)), (s "unit_name", .str (s
  "log_reg_intent_classifier"))]), (s "featurizer", .str (s "featurizer")), (s "intent_list", .arr [.str (s
  "adri:PlayMusic"), .null]), (s "intercept", .arr [.float (28391354876375573 / 1000000000000000000)]), (s "t_",
  .float (961 / 1))]

#guard reads file38 tree38

#guard decoded (decodeClassifier Rounding.exact) (fun m => (m.intentList, m.intercept)) tree38 (([some (s
  "adri:PlayMusic"), none], some [(28391354876375573 / 1000000000000000000 : ℚ)]))

/-- data/tests/models/nlu_engine_music/probabilistic_intent_parser/intent_classifier/metadata.json -/
def file39 : Text := s "{\n  \"unit_name\": \"log_reg_intent_classifier\"\n}"

/-- What it denotes. -/
def tree39 : Json := .obj [(s "unit_name", .str (s "log_reg_intent_classifier"))]

#guard reads file39 tree39

#guard decoded (decodeUnit) (fun u => u) tree39 (.logRegIntentClassifier)

/-- data/tests/models/nlu_engine_music/probabilistic_intent_parser/intent_classifier/featurizer/featurizer.json -/
def file40 : Text := s "{\n  \"config\": {\n    \"added_cooccurrence_feature_ratio\": 0.25,\n    \"cooccurrence_vectorizer_config\": {\n      \"filter_stop_words\": true,\n      \"keep_order\": true,\n      \"unit_name\": \"cooccurrence_vectorizer\",\n      \"unknown_words_replacement_string\": \"unknownword\",\n      \"window_size\": 5\n    },\n    \"pvalue_threshold\": 0.4,\n    \"tfidf_vectorizer_config\": {\n      \"unit_name\": \"tfidf_vectorizer\",\n      \"use_stemming\": false,\n      \"word_clusters_name\": null\n    },\n    \"unit_name\": \"featurizer\"\n  },\n  \"cooccurrence_vectorizer\": \"cooccurrence_vectorizer\",\n  \"language_code\": \"fr\",\n  \"tfidf_vectorizer\": \"tfidf_vectorizer\"\n}"

/-- What it denotes. -/
def tree40 : Json := .obj [(s "config", .obj [(s "added_cooccurrence_feature_ratio", .float (1 / 4)), (s
  "cooccurrence_vectorizer_config", .obj [(s "filter_stop_words", .bool true), (s "keep_order", .bool true), (s
  "unit_name", .str (s "cooccurrence_vectorizer")), (s "unknown_words_replacement_string", .str (s "unknownword")),
  (s "window_size", .int (5))]), (s "pvalue_threshold", .float (2 / 5)), (s "tfidf_vectorizer_config", .obj [(s
  "unit_name", .str (s "tfidf_vectorizer")), (s "use_stemming", .bool false), (s "word_clusters_name", .null)]), (s
  "unit_name", .str (s "featurizer"))]), (s "cooccurrence_vectorizer", .str (s "cooccurrence_vectorizer")), (s
  "language_code", .str (s "fr")), (s "tfidf_vectorizer", .str (s "tfidf_vectorizer"))]

#guard reads file40 tree40

#guard decoded (decodeFeaturizer) (fun m => (m.tfidfVectorizer, m.cooccurrenceVectorizer)) tree40 ((s
  "tfidf_vectorizer", some (s "cooccurrence_vectorizer")))

/-- data/tests/models/nlu_engine_music/probabilistic_intent_parser/intent_classifier/featurizer/cooccurrence_vectorizer/vectorizer.json -/
def file41 : Text := s "{\n  \"builtin_entity_scope\": [\n    \"snips/musicAlbum\",\n    \"snips/musicArtist\"\n  ],\n  \"config\": {\n    \"filter_stop_words\": true,\n    \"keep_order\": true,\n    \"unit_name\": \"cooccurrence_vectorizer\",\n    \"unknown_words_replacement_string\": \"unknownword\",\n    \"window_size\": 5\n  },\n  \"language_code\": \"fr\",\n  \"word_pairs\": {\n    \"0\": [\n      \"album\",\n      \"SNIPSMUSICALBUM\"\n    ],\n    \"1\": [\n      \"ecouter\",\n      \"SNIPSMUSICALBUM\"\n    ],\n    \"2\": [\n      \"ecouter\",\n      \"SNIPSMUSICARTIST\"\n    ],\n    \"3\": [\n      \"je\",\n      \"SNIPSMUSICALBUM\"\n    ],\n    \"4\": [\n      \"je\",\n      \"ecouter\"\n    ],\n    \"5\": [\n      \"mets\",\n      \"SNIPSMUSICARTIST\"\n    ]\n  }\n}"

/-- What it denotes. -/
def tree41 : Json := .obj [(s "builtin_entity_scope", .arr [.str (s "snips/musicAlbum"), .str (s
  "snips/musicArtist")]), (s "config", .obj [(s "filter_stop_words", .bool true), (s "keep_order", .bool true), (s
  "unit_name", .str (s "cooccurrence_vectorizer")), (s "unknown_words_replacement_string", .str (s "unknownword")),
  (s "window_size", .int (5))]), (s "language_code", .str (s "fr")), (s "word_pairs", .obj [(s "0", .arr [.str (s
  "album"), .str (s "SNIPSMUSICALBUM")]), (s "1", .arr [.str (s "ecouter"), .str (s "SNIPSMUSICALBUM")]), (s "2",
  .arr [.str (s "ecouter"), .str (s "SNIPSMUSICARTIST")]), (s "3", .arr [.str (s "je"), .str (s
  "SNIPSMUSICALBUM")]), (s "4", .arr [.str (s "je"), .str (s "ecouter")]), (s "5", .arr [.str (s "mets"), .str (s
  "SNIPSMUSICARTIST")])])]

#guard reads file41 tree41

#guard decoded (decodeCooc) (fun m => m.wordPairs) tree41 ([(0, (s "album", s "SNIPSMUSICALBUM")), (1, (s "ecouter",
  s "SNIPSMUSICALBUM")), (2, (s "ecouter", s "SNIPSMUSICARTIST")), (3, (s "je", s "SNIPSMUSICALBUM")), (4, (s "je",
  s "ecouter")), (5, (s "mets", s "SNIPSMUSICARTIST"))])

/-- data/tests/models/nlu_engine_music/probabilistic_intent_parser/intent_classifier/featurizer/tfidf_vectorizer/vectorizer.json -/
def file42 : Text := s "{\n  \"builtin_entity_scope\": [\n    \"snips/musicAlbum\",\n    \"snips/musicArtist\"\n  ],\n  \"config\": {\n    \"unit_name\": \"tfidf_vectorizer\",\n    \"use_stemming\": false,\n    \"word_clusters_name\": null\n  },\n  \"language_code\": \"fr\",\n  \"vectorizer\": {\n    \"idf_diag\": [\n      4.697178256928631,\n      3.4932054526026954,\n      2.2404424841073274,\n      2.361803341111595,\n      4.697178256928631,\n      3.5985659682605218,\n      2.3300546427970144,\n      3.3978952727983707,\n      4.697178256928631,\n      4.697178256928631,\n      3.4932054526026954,\n      2.8513515664303006,\n      4.697178256928631,\n      3.849880396541428,\n      4.4094961844768505,\n      4.4094961844768505,\n      4.697178256928631,\n      4.697178256928631,\n      4.186352633162641,\n      4.697178256928631,\n      4.186352633162641,\n      1.0772916743016465,\n      3.716349003916905,\n      4.186352633162641\n    ],\n    \"vocab\": {\n      \"?\": 0,\n      \"album\": 1,\n      \"builtinentityfeaturesnipsmusicalbum\": 2,\n      \"builtinentityfeaturesnipsmusicartist\": 3,\n      \"chanson\": 4,\n      \"dans\": 5,\n      \"de\": 6,\n      \"ecouter\": 7,\n      \"entityfeatureplaylist\": 8,\n      \"jazz\": 9,\n      \"l\": 10,\n      \"la\": 11,\n      \"lance\": 12,\n      \"mets\": 13,\n      \"mettre\": 14,\n      \"moi\": 15,\n      \"playlist\": 16,\n      \"please\": 17,\n      \"son\": 18,\n      \"souhaiterais\": 19,\n      \"stp\": 20,\n      \"unknownword\": 21,\n      \"veux\": 22,\n      \"voudrais\": 23\n    }\n  }\n}"

/-- What it denotes. -/
def tree42 : Json := .obj [(s "builtin_entity_scope", .arr [.str (s "snips/musicAlbum"), .str (s
  "snips/musicArtist")]), (s "config", .obj [(s "unit_name", .str (s "tfidf_vectorizer")), (s "use_stemming", .bool
  false), (s "word_clusters_name", .null)]), (s "language_code", .str (s "fr")), (s "vectorizer", .obj [(s
  "idf_diag", .arr [.float (4697178256928631 / 1000000000000000), .float (17466027263013477 / 5000000000000000),
  .float (11202212420536637 / 5000000000000000), .float (472360668222319 / 200000000000000), .float
  (4697178256928631 / 1000000000000000), .float (17992829841302609 / 5000000000000000), .float (728142075874067 /
  312500000000000), .float (33978952727983707 / 10000000000000000), .float (4697178256928631 / 1000000000000000),
  .float (4697178256928631 / 1000000000000000), .float (17466027263013477 / 5000000000000000), .float
  (14256757832151503 / 5000000000000000), .float (4697178256928631 / 1000000000000000), .float (962470099135357 /
  250000000000000), .float (8818992368953701 / 2000000000000000), .float (8818992368953701 / 2000000000000000),
  .float (4697178256928631 / 1000000000000000), .float (4697178256928631 / 1000000000000000), .float
  (4186352633162641 / 1000000000000000), .float (4697178256928631 / 1000000000000000), .float (4186352633162641 /
  1000000000000000), .float (2154583348603293 / 2000000000000000), .float (743269800783381 / 200000000000000),
  .float (4186352633162641 / 1000000000000000)]), (s "vocab", .obj [(s "?", .int (0)), (s "album", .int (1)), (s
  "builtinentityfeaturesnipsmusicalbum", .int (2)), (s "builtinentityfeaturesnipsmusicartist", .int (3)), (s
  "chanson", .int (4)), (s "dans", .int (5)), (s "de", .int (6)), (s "ecouter", .int (7)), (s
  "entityfeatureplaylist", .int (8)), (s "jazz", .int (9)), (s "l", .int (10)), (s "la", .int (11)), (s "lance",
  .int (12)), (s "mets", .int (13)), (s "mettre", .int (14)), (s "moi", .int (15)), (s "playlist", .int (16)), (s
  "please", .int (17)), (s "son", .int (18)), (s "souhaiterais", .int (19)), (s "stp", .int (20)), (s "unknownword",
  .int (21)), (s "veux", .int (22)), (s "voudrais", .int (23))])])]

#guard reads file42 tree42

#guard decoded (decodeTfidf Rounding.exact) (fun m => (m.idfDiag, m.vocab)) tree42 (([(4697178256928631 /
  1000000000000000 : ℚ), (17466027263013477 / 5000000000000000 : ℚ), (11202212420536637 / 5000000000000000 : ℚ),
  (472360668222319 / 200000000000000 : ℚ), (4697178256928631 / 1000000000000000 : ℚ), (17992829841302609 /
  5000000000000000 : ℚ), (728142075874067 / 312500000000000 : ℚ), (33978952727983707 / 10000000000000000 : ℚ),
  (4697178256928631 / 1000000000000000 : ℚ), (4697178256928631 / 1000000000000000 : ℚ), (17466027263013477 /
  5000000000000000 : ℚ), (14256757832151503 / 5000000000000000 : ℚ), (4697178256928631 / 1000000000000000 : ℚ),
  (962470099135357 / 250000000000000 : ℚ), (8818992368953701 / 2000000000000000 : ℚ), (8818992368953701 /
  2000000000000000 : ℚ), (4697178256928631 / 1000000000000000 : ℚ), (4697178256928631 / 1000000000000000 : ℚ),
  (4186352633162641 / 1000000000000000 : ℚ), (4697178256928631 / 1000000000000000 : ℚ), (4186352633162641 /
  1000000000000000 : ℚ), (2154583348603293 / 2000000000000000 : ℚ), (743269800783381 / 200000000000000 : ℚ),
  (4186352633162641 / 1000000000000000 : ℚ)], [(s "?", 0), (s "album", 1), (s "builtinentityfeaturesnipsmusicalbum",
  2), (s "builtinentityfeaturesnipsmusicartist", 3), (s "chanson", 4), (s "dans", 5), (s "de", 6), (s "ecouter", 7),
  (s "entityfeatureplaylist", 8), (s "jazz", 9), (s "l", 10), (s "la", 11), (s "lance", 12), (s "mets", 13), (s
  "mettre", 14), (s "moi", 15), (s "playlist", 16), (s "please", 17), (s "son", 18), (s "souhaiterais", 19), (s
  "stp", 20), (s "unknownword", 21), (s "veux", 22), (s "voudrais", 23)]))

/-- data/tests/models/nlu_engine_music/probabilistic_intent_parser/slot_filler_0/metadata.json -/
def file43 : Text := s "{\n  \"unit_name\": \"crf_slot_filler\"\n}"

/-- What it denotes. -/
def tree43 : Json := .obj [(s "unit_name", .str (s "crf_slot_filler"))]

#guard reads file43 tree43

#guard decoded (decodeUnit) (fun u => u) tree43 (.crfSlotFiller)

/-- data/tests/models/nlu_engine_music/probabilistic_intent_parser/slot_filler_0/slot_filler.json -/
def file44 : Text := s "{\n  \"config\": {\n    \"crf_args\": {\n      \"algorithm\": \"lbfgs\",\n      \"c1\": 0.1,\n      \"c2\": 0.1\n    },\n    \"data_augmentation_config\": {\n      \"add_builtin_entities_examples\": true,\n      \"capitalization_ratio\": 0.2,\n      \"min_utterances\": 200\n    },\n    \"feature_factory_configs\": [\n      {\n        \"args\": {\n          \"common_words_gazetteer_name\": \"top_10000_words_stemmed\",\n          \"language_code\": \"fr\",\n          \"n\": 1,\n          \"use_stemming\": true\n        },\n        \"factory_name\": \"ngram\",\n        \"offsets\": [\n          -2,\n          -1,\n          0,\n          1,\n          2\n        ]\n      },\n      {\n        \"args\": {\n          \"common_words_gazetteer_name\": \"top_10000_words_stemmed\",\n          \"language_code\": \"fr\",\n          \"n\": 2,\n          \"use_stemming\": true\n        },\n        \"factory_name\": \"ngram\",\n        \"offsets\": [\n          -2,\n          1\n        ]\n      },\n      {\n        \"args\": {},\n        \"factory_name\": \"is_digit\",\n        \"offsets\": [\n          -1,\n          0,\n          1\n        ]\n      },\n      {\n        \"args\": {},\n        \"factory_name\": \"is_first\",\n        \"offsets\": [\n          -2,\n          -1,\n          0\n        ]\n      },\n      {\n        \"args\": {},\n        \"factory_name\": \"is_last\",\n        \"offsets\": [\n          0,\n          1,\n          2\n        ]\n      },\n      {\n        \"args\": {\n          \"language_code\": \"fr\",\n          \"n\": 1\n        },\n        \"factory_name\": \"shape_ngram\",\n        \"offsets\": [\n          0\n        ]\n      },\n      {\n        \"args\": {\n          \"language_code\": \"fr\",\n          \"n\": 2\n        },\n        \"factory_name\": \"shape_ngram\",\n        \"offsets\": [\n          -1,\n          0\n        ]\n      },\n      {\n        \"args\": {\n          \"language_code\": \"fr\",\n          \"n\": 3\n        },\n        \"factory_name\": \"shape_ngram\",\n        \"offsets\": [\n          -1\n        ]\n      },\n      {\n        \"args\": {\n          \"entities\": [\n            \"playlist\"\n          ],\n          \"tagging_scheme_code\": 2,\n          \"use_stemming\": true\n        },\n        \"drop_out\": 0.5,\n        \"factory_name\": \"entity_match\",\n        \"offsets\": [\n          -2,\n          -1,\n          0\n        ]\n      },\n      {\n        \"args\": {\n          \"entity_labels\": [\n            \"snips/amountOfMoney\",\n            \"snips/datetime\",\n            \"snips/duration\",\n            \"snips/musicAlbum\",\n            \"snips/musicArtist\",\n            \"snips/number\",\n            \"snips/ordinal\",\n            \"snips/percentage\",\n            \"snips/temperature\"\n          ],\n          \"language_code\": \"fr\",\n          \"tagging_scheme_code\": 1\n        },\n        \"factory_name\": \"builtin_entity_match\",\n        \"offsets\": [\n          -2,\n          -1,\n          0\n        ]\n      }\n    ],\n    \"tagging_scheme\": 1,\n    \"unit_name\": \"crf_slot_filler\"\n  },\n  \"crf_model_file\": \"modeluzcfum35.crfsuite\",\n  \"intent\": \"adri:PlayMusic\",\n  \"language_code\": \"fr\",\n  \"slot_name_mapping\": {\n    \"musicAlbum\": \"snips/musicAlbum\",\n    \"musicArtist\": \"snips/musicArtist\",\n    \"playlist\": \"playlist\"\n  }\n}"

/-- What it denotes. -/
def tree44 : Json := .obj [(s "config", .obj [(s "crf_args", .obj [(s "algorithm", .str (s "lbfgs")), (s "c1",
  .float (1 / 10)), (s "c2", .float (1 / 10))]), (s "data_augmentation_config", .obj [(s
  "add_builtin_entities_examples", .bool true), (s "capitalization_ratio", .float (1 / 5)), (s "min_utterances",
  .int (200))]), (s "feature_factory_configs", .arr [.obj [(s "args", .obj [(s "common_words_gazetteer_name", .str
  (s "top_10000_words_stemmed")), (s "language_code", .str (s "fr")), (s "n", .int (1)), (s "use_stemming", .bool
  true)]), (s "factory_name", .str (s "ngram")), (s "offsets", .arr [.int (-2), .int (-1), .int (0), .int (1), .int
  (2)])], .obj [(s "args", .obj [(s "common_words_gazetteer_name", .str (s "top_10000_words_stemmed")), (s
  "language_code", .str (s "fr")), (s "n", .int (2)), (s "use_stemming", .bool true)]), (s "factory_name", .str (s
  "ngram")), (s "offsets", .arr [.int (-2), .int (1)])], .obj [(s "args", .obj []), (s "factory_name", .str (s
  "is_digit")), (s "offsets", .arr [.int (-1), .int (0), .int (1)])], .obj [(s "args", .obj []), (s "factory_name",
  .str (s "is_first")), (s "offsets", .arr [.int (-2), .int (-1), .int (0)])], .obj [(s "args", .obj []), (s
  "factory_name", .str (s "is_last")), (s "offsets", .arr [.int (0), .int (1), .int (2)])], .obj [(s "args", .obj
  [(s "language_code", .str (s "fr")), (s "n", .int (1))]), (s "factory_name", .str (s "shape_ngram")), (s
  "offsets", .arr [.int (0)])], .obj [(s "args", .obj [(s "language_code", .str (s "fr")), (s "n", .int (2))]), (s
  "factory_name", .str (s "shape_ngram")), (s "offsets", .arr [.int (-1), .int (0)])], .obj [(s "args", .obj [(s
  "language_code", .str (s "fr")), (s "n", .int (3))]), (s "factory_name", .str (s "shape_ngram")), (s "offsets",
  .arr [.int (-1)])], .obj [(s "args", .obj [(s "entities", .arr [.str (s "playlist")]), (s "tagging_scheme_code",
  .int (2)), (s "use_stemming", .bool true)]), (s "drop_out", .float (1 / 2)), (s "factory_name", .str (s
  "entity_match")), (s "offsets", .arr [.int (-2), .int (-1), .int (0)])], .obj [(s "args", .obj [(s
  "entity_labels", .arr [.str (s "snips/amountOfMoney"), .str (s "snips/datetime"), .str (s "snips/duration"), .str
  (s "snips/musicAlbum"), .str (s "snips/musicArtist"), .str (s "snips/number"), .str (s "snips/ordinal"), .str (s
  "snips/percentage"), .str (s "snips/temperature")]), (s "language_code", .str (s "fr")), (s "tagging_scheme_code",
  .int (1))]), (s "factory_name", .str (s "builtin_entity_match")), (s "offsets", .arr [.int (-2), .int (-1), .int
  (0)])]]), (s "tagging_scheme", .int (1)), (s "unit_name", .str (s "crf_slot_filler"))]), (s "crf_model_file", .str
  (s "modeluzcfum35.crfsuite")), (s "intent", .str (s "adri:PlayMusic")), (s "language_code", .str (s "fr")), (s
  "slot_name_mapping", .obj [(s "musicAlbum", .str (s "snips/musicAlbum")), (s "musicArtist", .str (s
  "snips/musicArtist")), (s "playlist", .str (s "playlist"))])]

#guard reads file44 tree44

#guard decoded (decodeSlotFiller) (fun m => (m.languageCode, m.slotNameMapping)) tree44 ((s "fr", [(s "musicAlbum",
  s "snips/musicAlbum"), (s "musicArtist", s "snips/musicArtist"), (s "playlist", s "playlist")]))

/-- data/tests/models/nlu_engine_music/resources/fr/metadata.json -/
def file45 : Text := s "{\n  \"author\": \"Rosa Stern\",\n  \"description\": \"Language resources for French\",\n  \"email\": \"rosa.stern@snips.ai\",\n  \"gazetteers\": [\n    \"top_10000_words_stemmed\"\n  ],\n  \"language\": \"fr\",\n  \"license\": \"Apache License, Version 2.0\",\n  \"name\": \"snips_nlu_fr\",\n  \"noise\": \"noise\",\n  \"snips_nlu_version\": \">=0.1.0,<1.0.0\",\n  \"stems\": \"stems\",\n  \"stop_words\": \"stop_words\",\n  \"url\": \"https://snips-nlu.readthedocs.io\",\n  \"version\": \"0.2.4\",\n  \"word_clusters\": []\n}"

/-- What it denotes. -/
def tree45 : Json := .obj [(s "author", .str (s "Rosa Stern")), (s "description", .str (s "Language resources for French")),
  (s "email", .str (s "rosa.stern@snips.ai")), (s "gazetteers", .arr [.str (s "top_10000_words_stemmed")]), (s
  "language", .str (s "fr")), (s "license", .str (s "Apache License, Version 2.0")), (s "name", .str (s
  "snips_nlu_fr")), (s "noise", .str (s "noise")), (s "snips_nlu_version", .str (s ">=0.1.0,<1.0.0")), (s "stems",
  .str (s "stems")), (s "stop_words", .str (s "stop_words")), (s "url", .str (s
  "https://snips-nlu.readthedocs.io")), (s "version", .str (s "0.2.4")), (s "word_clusters", .arr [])]

#guard reads file45 tree45

#guard decoded (decodeResources) (fun m => (m.gazetteers, m.wordClusters, m.stems, m.stopWords)) tree45 ((some [s
  "top_10000_words_stemmed"], some [], some (s "stems"), some (s "stop_words")))

/-- The files with their places under data/tests/models. -/
def modelFiles : List (String × Text) :=
  [("nlu_engine_beverage/nlu_engine.json", file1),
    ("nlu_engine_beverage/custom_entity_parser/metadata.json", file2),
    ("nlu_engine_beverage/deterministic_intent_parser/intent_parser.json", file3),
    ("nlu_engine_beverage/deterministic_intent_parser/metadata.json", file4),
    ("nlu_engine_beverage/lookup_intent_parser/intent_parser.json", file5),
    ("nlu_engine_beverage/lookup_intent_parser/metadata.json", file6),
    ("nlu_engine_beverage/probabilistic_intent_parser/intent_parser.json", file7),
    ("nlu_engine_beverage/probabilistic_intent_parser/metadata.json", file8),
    ("nlu_engine_beverage/probabilistic_intent_parser/intent_classifier/intent_classifier.json", file9),
    ("nlu_engine_beverage/probabilistic_intent_parser/intent_classifier/metadata.json", file10),
    ("nlu_engine_beverage/probabilistic_intent_parser/intent_classifier/featurizer/featurizer.json",
      file11),
    ("nlu_engine_beverage/probabilistic_intent_parser/intent_classifier/featurizer/cooccurrence_vectorizer/vectorizer.json",
      file12),
    ("nlu_engine_beverage/probabilistic_intent_parser/intent_classifier/featurizer/tfidf_vectorizer/vectorizer.json",
      file13),
    ("nlu_engine_beverage/probabilistic_intent_parser/slot_filler_0/metadata.json", file14),
    ("nlu_engine_beverage/probabilistic_intent_parser/slot_filler_0/slot_filler.json", file15),
    ("nlu_engine_beverage/probabilistic_intent_parser/slot_filler_1/metadata.json", file16),
    ("nlu_engine_beverage/probabilistic_intent_parser/slot_filler_1/slot_filler.json", file17),
    ("nlu_engine_beverage/resources/en/metadata.json", file18),
    ("nlu_engine_game/nlu_engine.json", file19),
    ("nlu_engine_game/custom_entity_parser/metadata.json", file20),
    ("nlu_engine_game/lookup_intent_parser/intent_parser.json", file21),
    ("nlu_engine_game/lookup_intent_parser/metadata.json", file22),
    ("nlu_engine_game/probabilistic_intent_parser/intent_parser.json", file23),
    ("nlu_engine_game/probabilistic_intent_parser/metadata.json", file24),
    ("nlu_engine_game/probabilistic_intent_parser/intent_classifier/intent_classifier.json", file25),
    ("nlu_engine_game/probabilistic_intent_parser/intent_classifier/metadata.json", file26),
    ("nlu_engine_game/probabilistic_intent_parser/intent_classifier/featurizer/featurizer.json", file27),
    ("nlu_engine_game/probabilistic_intent_parser/intent_classifier/featurizer/tfidf_vectorizer/vectorizer.json",
      file28),
    ("nlu_engine_game/probabilistic_intent_parser/slot_filler_0/metadata.json", file29),
    ("nlu_engine_game/probabilistic_intent_parser/slot_filler_0/slot_filler.json", file30),
    ("nlu_engine_game/resources/en/metadata.json", file31),
    ("nlu_engine_music/nlu_engine.json", file32),
    ("nlu_engine_music/custom_entity_parser/metadata.json", file33),
    ("nlu_engine_music/deterministic_intent_parser/intent_parser.json", file34),
    ("nlu_engine_music/deterministic_intent_parser/metadata.json", file35),
    ("nlu_engine_music/probabilistic_intent_parser/intent_parser.json", file36),
    ("nlu_engine_music/probabilistic_intent_parser/metadata.json", file37),
    ("nlu_engine_music/probabilistic_intent_parser/intent_classifier/intent_classifier.json", file38),
    ("nlu_engine_music/probabilistic_intent_parser/intent_classifier/metadata.json", file39),
    ("nlu_engine_music/probabilistic_intent_parser/intent_classifier/featurizer/featurizer.json", file40),
    ("nlu_engine_music/probabilistic_intent_parser/intent_classifier/featurizer/cooccurrence_vectorizer/vectorizer.json",
      file41),
    ("nlu_engine_music/probabilistic_intent_parser/intent_classifier/featurizer/tfidf_vectorizer/vectorizer.json",
      file42),
    ("nlu_engine_music/probabilistic_intent_parser/slot_filler_0/metadata.json", file43),
    ("nlu_engine_music/probabilistic_intent_parser/slot_filler_0/slot_filler.json", file44),
    ("nlu_engine_music/resources/fr/metadata.json", file45)]

end Snips.Conformance
