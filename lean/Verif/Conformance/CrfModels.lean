import Verif.Conformance.Support

/-! # The trained CRF models and the language resources of the test models

Written by tools/crf_models.py from the files in /repo/data/tests/models.  Weights are in units of 10⁻⁹. -/

namespace Snips.Conformance

/-- A linear-chain CRF: its labels, the weights of attributes at labels, the weights of labels following labels. -/
structure CrfWeights where
  labels : List String
  state : List (String × String × Int)
  transition : List (String × String × Int)

/-- data/tests/models/nlu_engine_beverage/probabilistic_intent_parser/slot_filler_0/model55imurmx.crfsuite -/
def crfCoffee : CrfWeights where
  labels := ["Tw==", "Qi1udW1iZXJfb2ZfY3Vwcw==", "SS1udW1iZXJfb2ZfY3Vwcw=="]
  state :=
    [("ngram_1:rare_word", "Tw==", 184143292), ("ngram_1[+1]:rare_word", "Tw==", 28924921),
      ("ngram_2[+1]:rare_word cup", "Tw==", 28924921), ("is_digit[+1]:1", "Tw==", 28924921),
      ("is_first:1", "Tw==", 1300789096), ("shape_ngram_1:xxx", "Tw==", 2341546199),
      ("shape_ngram_1:xxx", "Qi1udW1iZXJfb2ZfY3Vwcw==", -1177754080),
      ("shape_ngram_1:xxx", "SS1udW1iZXJfb2ZfY3Vwcw==", -661102490), ("shape_ngram_2:xxx xX", "Tw==", 28924921),
      ("ngram_1[-1]:rare_word", "Tw==", -204760478),
      ("ngram_1[-1]:rare_word", "Qi1udW1iZXJfb2ZfY3Vwcw==", 490004231),
      ("ngram_1[+1]:cup", "Qi1udW1iZXJfb2ZfY3Vwcw==", 640981025),
      ("ngram_1[+1]:cup", "SS1udW1iZXJfb2ZfY3Vwcw==", 993941838),
      ("ngram_1[+2]:of", "Qi1udW1iZXJfb2ZfY3Vwcw==", 640981025),
      ("ngram_1[+2]:of", "SS1udW1iZXJfb2ZfY3Vwcw==", 993941838),
      ("ngram_2[+1]:cup of", "Qi1udW1iZXJfb2ZfY3Vwcw==", 640981025),
      ("ngram_2[+1]:cup of", "SS1udW1iZXJfb2ZfY3Vwcw==", 993941838),
      ("builtin_entity_match_snips/datePeriod:B-", "Qi1udW1iZXJfb2ZfY3Vwcw==", 1611604777),
      ("builtin_entity_match_snips/datePeriod:B-", "SS1udW1iZXJfb2ZfY3Vwcw==", 208496757),
      ("builtin_entity_match_snips/datetime:B-", "Qi1udW1iZXJfb2ZfY3Vwcw==", 1611604777),
      ("builtin_entity_match_snips/datetime:B-", "SS1udW1iZXJfb2ZfY3Vwcw==", 208496757),
      ("builtin_entity_match_snips/number:B-", "Qi1udW1iZXJfb2ZfY3Vwcw==", 2152495482),
      ("builtin_entity_match_snips/temperature:B-", "Qi1udW1iZXJfb2ZfY3Vwcw==", 2152495482),
      ("ngram_1:cup", "Tw==", 854049658), ("ngram_1[+1]:of", "Tw==", 854049658),
      ("ngram_1[+2]:coffe", "Tw==", 854049658), ("ngram_2[+1]:of coffe", "Tw==", 854049658),
      ("is_last[+2]:1", "Tw==", 452532600), ("shape_ngram_2:xxx xxx", "Tw==", 316880312),
      ("builtin_entity_match_snips/number[-1]:B-", "Tw==", -154440836),
      ("builtin_entity_match_snips/number[-1]:B-", "SS1udW1iZXJfb2ZfY3Vwcw==", 289501788),
      ("builtin_entity_match_snips/temperature[-1]:B-", "Tw==", -154440836),
      ("builtin_entity_match_snips/temperature[-1]:B-", "SS1udW1iZXJfb2ZfY3Vwcw==", 289501788),
      ("ngram_1[-1]:cup", "Tw==", 227213865), ("ngram_1:of", "Tw==", 227213865),
      ("ngram_1[+1]:coffe", "Tw==", 227213865), ("is_last[+1]:1", "Tw==", 143288478),
      ("shape_ngram_2[-1]:xxx xxx", "Tw==", 274178668),
      ("shape_ngram_2[-1]:xxx xxx", "Qi1udW1iZXJfb2ZfY3Vwcw==", -426701030),
      ("shape_ngram_3[-1]:xxx xxx xxx", "Tw==", -498642689),
      ("shape_ngram_3[-1]:xxx xxx xxx", "SS1udW1iZXJfb2ZfY3Vwcw==", 251860862),
      ("ngram_1[-2]:cup", "Tw==", 384264096), ("ngram_1[-1]:of", "Tw==", 384264096),
      ("ngram_1:coffe", "Tw==", 384264096), ("ngram_2[-2]:cup of", "Tw==", 384264096),
      ("is_last:1", "Tw==", 997763775), ("ngram_1[-1]:make", "Tw==", 210089334), ("ngram_1:me", "Tw==", 210089334),
      ("ngram_1[+1]:twenti", "Tw==", 16634814), ("ngram_1[+2]:one", "Tw==", 127143178),
      ("ngram_2[+1]:twenti one", "Tw==", 16634814), ("ngram_1[-2]:make", "Qi1udW1iZXJfb2ZfY3Vwcw==", 310332312),
      ("ngram_1[-1]:me", "Qi1udW1iZXJfb2ZfY3Vwcw==", 310332312),
      ("ngram_2[-2]:make me", "Qi1udW1iZXJfb2ZfY3Vwcw==", 310332312),
      ("builtin_entity_match_snips/time:B-", "Qi1udW1iZXJfb2ZfY3Vwcw==", 1408545732),
      ("builtin_entity_match_snips/time:B-", "SS1udW1iZXJfb2ZfY3Vwcw==", 256434272),
      ("ngram_1[-1]:twenti", "SS1udW1iZXJfb2ZfY3Vwcw==", 232727442),
      ("ngram_1:one", "Qi1udW1iZXJfb2ZfY3Vwcw==", 231199220),
      ("ngram_1:one", "SS1udW1iZXJfb2ZfY3Vwcw==", 209703715),
      ("builtin_entity_match_snips/datePeriod:I-", "SS1udW1iZXJfb2ZfY3Vwcw==", 232727442),
      ("builtin_entity_match_snips/datetime:I-", "SS1udW1iZXJfb2ZfY3Vwcw==", 232727442),
      ("builtin_entity_match_snips/number:I-", "SS1udW1iZXJfb2ZfY3Vwcw==", 2338117430),
      ("builtin_entity_match_snips/temperature:I-", "SS1udW1iZXJfb2ZfY3Vwcw==", 2338117430),
      ("builtin_entity_match_snips/time[-1]:B-", "Tw==", -36346972),
      ("builtin_entity_match_snips/time[-1]:B-", "SS1udW1iZXJfb2ZfY3Vwcw==", 139914804),
      ("builtin_entity_match_snips/time:I-", "SS1udW1iZXJfb2ZfY3Vwcw==", 232727442),
      ("ngram_1[-1]:one", "Tw==", 9612439),
      ("builtin_entity_match_snips/number[-1]:I-", "SS1udW1iZXJfb2ZfY3Vwcw==", 290041012),
      ("builtin_entity_match_snips/temperature[-1]:I-", "SS1udW1iZXJfb2ZfY3Vwcw==", 290041012),
      ("ngram_1[-2]:of", "Tw==", 225696645), ("ngram_1[-1]:coffe", "Tw==", 225696645),
      ("ngram_1:pleas", "Tw==", 225696645), ("ngram_2[-2]:of coffe", "Tw==", 225696645),
      ("ngram_1[-1]:can", "Tw==", 36630646), ("ngram_1:you", "Tw==", 36630646),
      ("ngram_1[+1]:prepar", "Tw==", 36630646), ("ngram_1[-2]:can", "Tw==", 131297492),
      ("ngram_1[-1]:you", "Tw==", 131297492), ("ngram_1:prepar", "Tw==", 131297492),
      ("ngram_1[+1]:three", "Tw==", 38992089), ("ngram_1[+2]:hundr", "Tw==", 38992089),
      ("ngram_2[-2]:can you", "Tw==", 131297492), ("ngram_2[+1]:three hundr", "Tw==", 38992089),
      ("ngram_1[-2]:you", "Qi1udW1iZXJfb2ZfY3Vwcw==", 304333078),
      ("ngram_1[-1]:prepar", "Qi1udW1iZXJfb2ZfY3Vwcw==", 304333078),
      ("ngram_2[-2]:you prepar", "Qi1udW1iZXJfb2ZfY3Vwcw==", 304333078),
      ("ngram_1[-1]:three", "SS1udW1iZXJfb2ZfY3Vwcw==", 128099614),
      ("ngram_1:hundr", "SS1udW1iZXJfb2ZfY3Vwcw==", 128099614),
      ("ngram_1[+1]:and", "SS1udW1iZXJfb2ZfY3Vwcw==", 128099614),
      ("ngram_1[+2]:four", "SS1udW1iZXJfb2ZfY3Vwcw==", 128099614),
      ("ngram_2[+1]:and four", "SS1udW1iZXJfb2ZfY3Vwcw==", 128099614),
      ("ngram_1[-2]:three", "SS1udW1iZXJfb2ZfY3Vwcw==", 124378893),
      ("ngram_1[-1]:hundr", "SS1udW1iZXJfb2ZfY3Vwcw==", 124378893),
      ("ngram_1:and", "SS1udW1iZXJfb2ZfY3Vwcw==", 124378893),
      ("ngram_1[+1]:four", "SS1udW1iZXJfb2ZfY3Vwcw==", 124378893),
      ("ngram_2[-2]:three hundr", "SS1udW1iZXJfb2ZfY3Vwcw==", 124378893),
      ("ngram_2[+1]:four cup", "SS1udW1iZXJfb2ZfY3Vwcw==", 124378893),
      ("ngram_1[-2]:hundr", "SS1udW1iZXJfb2ZfY3Vwcw==", 354578121),
      ("ngram_1[-1]:and", "SS1udW1iZXJfb2ZfY3Vwcw==", 354578121),
      ("ngram_1:four", "SS1udW1iZXJfb2ZfY3Vwcw==", 354578121),
      ("ngram_2[-2]:hundr and", "SS1udW1iZXJfb2ZfY3Vwcw==", 354578121),
      ("ngram_1:five", "Qi1udW1iZXJfb2ZfY3Vwcw==", 236276339)]
  transition :=
    [("Tw==", "Tw==", 2056801500), ("Tw==", "Qi1udW1iZXJfb2ZfY3Vwcw==", 1637421687),
      ("Qi1udW1iZXJfb2ZfY3Vwcw==", "Tw==", -274810731),
      ("Qi1udW1iZXJfb2ZfY3Vwcw==", "SS1udW1iZXJfb2ZfY3Vwcw==", 1066361696),
      ("SS1udW1iZXJfb2ZfY3Vwcw==", "Tw==", -404036044),
      ("SS1udW1iZXJfb2ZfY3Vwcw==", "SS1udW1iZXJfb2ZfY3Vwcw==", 1331991266)]

/-- data/tests/models/nlu_engine_beverage/probabilistic_intent_parser/slot_filler_1/model8a9dqxnp.crfsuite -/
def crfTea : CrfWeights where
  labels := ["Tw==", "Qi1udW1iZXJfb2ZfY3Vwcw==", "Qi1iZXZlcmFnZV90ZW1wZXJhdHVyZQ==", "SS1udW1iZXJfb2ZfY3Vwcw==", "SS1iZXZlcmFnZV90ZW1wZXJhdHVyZQ=="]
  state :=
    [("ngram_1:can", "Tw==", 55139970), ("ngram_1[+1]:you", "Tw==", 55139970),
      ("ngram_1[+2]:prepar", "Tw==", 55139970), ("ngram_2[+1]:you prepar", "Tw==", 55139970),
      ("is_first:1", "Tw==", 1477385202), ("shape_ngram_1:xxx", "Tw==", 2886874648),
      ("shape_ngram_1:xxx", "Qi1udW1iZXJfb2ZfY3Vwcw==", -490474120),
      ("shape_ngram_1:xxx", "Qi1iZXZlcmFnZV90ZW1wZXJhdHVyZQ==", -739398615),
      ("shape_ngram_1:xxx", "SS1iZXZlcmFnZV90ZW1wZXJhdHVyZQ==", -317559975),
      ("shape_ngram_2:xxx xxx", "Tw==", 519908370),
      ("shape_ngram_2:xxx xxx", "Qi1udW1iZXJfb2ZfY3Vwcw==", -224793825),
      ("shape_ngram_2:xxx xxx", "Qi1iZXZlcmFnZV90ZW1wZXJhdHVyZQ==", 16568226),
      ("shape_ngram_2:xxx xxx", "SS1iZXZlcmFnZV90ZW1wZXJhdHVyZQ==", -87811159),
      ("ngram_1[-1]:can", "Tw==", 49571609), ("ngram_1:you", "Tw==", 49571609),
      ("ngram_1[+1]:prepar", "Tw==", 49571609), ("ngram_1[+2]:rare_word", "Tw==", -254789323),
      ("ngram_1[+2]:rare_word", "Qi1iZXZlcmFnZV90ZW1wZXJhdHVyZQ==", 277090824),
      ("ngram_1[+2]:rare_word", "SS1iZXZlcmFnZV90ZW1wZXJhdHVyZQ==", 488322756),
      ("is_first[-1]:1", "Tw==", 1357784952), ("shape_ngram_2[-1]:xxx xxx", "Tw==", 413910806),
      ("shape_ngram_2[-1]:xxx xxx", "Qi1udW1iZXJfb2ZfY3Vwcw==", -103021790),
      ("shape_ngram_2[-1]:xxx xxx", "Qi1iZXZlcmFnZV90ZW1wZXJhdHVyZQ==", -156905002),
      ("shape_ngram_2[-1]:xxx xxx", "SS1udW1iZXJfb2ZfY3Vwcw==", 23875436),
      ("shape_ngram_3[-1]:xxx xxx xxx", "Tw==", -935621633),
      ("shape_ngram_3[-1]:xxx xxx xxx", "Qi1iZXZlcmFnZV90ZW1wZXJhdHVyZQ==", 597352152),
      ("shape_ngram_3[-1]:xxx xxx xxx", "SS1udW1iZXJfb2ZfY3Vwcw==", 129670491),
      ("ngram_1[-2]:can", "Tw==", 297687966), ("ngram_1[-1]:you", "Tw==", 297687966),
      ("ngram_1:prepar", "Tw==", 297687966), ("ngram_1[+1]:rare_word", "Tw==", 283867711),
      ("ngram_1[+2]:cup", "Tw==", 76082890), ("ngram_1[+2]:cup", "SS1udW1iZXJfb2ZfY3Vwcw==", 136917818),
      ("ngram_2[-2]:can you", "Tw==", 297687966), ("is_first[-2]:1", "Tw==", 102961100),
      ("is_first[-2]:1", "Qi1udW1iZXJfb2ZfY3Vwcw==", 502054302),
      ("ngram_1[-2]:you", "Qi1udW1iZXJfb2ZfY3Vwcw==", 363916713),
      ("ngram_1[-1]:prepar", "Qi1udW1iZXJfb2ZfY3Vwcw==", 363916713),
      ("ngram_1:rare_word", "Qi1iZXZlcmFnZV90ZW1wZXJhdHVyZQ==", 151067002),
      ("ngram_1[+1]:cup", "Tw==", -1478844342), ("ngram_1[+1]:cup", "Qi1udW1iZXJfb2ZfY3Vwcw==", 177406937),
      ("ngram_1[+1]:cup", "Qi1iZXZlcmFnZV90ZW1wZXJhdHVyZQ==", 556378451),
      ("ngram_1[+2]:of", "Qi1udW1iZXJfb2ZfY3Vwcw==", 238340452),
      ("ngram_1[+2]:of", "Qi1iZXZlcmFnZV90ZW1wZXJhdHVyZQ==", 964013719),
      ("ngram_1[+2]:of", "SS1udW1iZXJfb2ZfY3Vwcw==", 559941222),
      ("ngram_2[-2]:you prepar", "Qi1udW1iZXJfb2ZfY3Vwcw==", 363916713),
      ("ngram_2[+1]:cup of", "Qi1udW1iZXJfb2ZfY3Vwcw==", 238340452),
      ("ngram_2[+1]:cup of", "Qi1iZXZlcmFnZV90ZW1wZXJhdHVyZQ==", 964013719),
      ("ngram_2[+1]:cup of", "SS1udW1iZXJfb2ZfY3Vwcw==", 559941222),
      ("is_digit:1", "Qi1udW1iZXJfb2ZfY3Vwcw==", 7235630), ("shape_ngram_1:xX", "Tw==", 490257265),
      ("shape_ngram_2[-1]:xxx xX", "Tw==", 490257265),
      ("shape_ngram_2:xX xxx", "Qi1udW1iZXJfb2ZfY3Vwcw==", 7235630),
      ("shape_ngram_3[-1]:xxx xX xxx", "Qi1udW1iZXJfb2ZfY3Vwcw==", 7235630),
      ("builtin_entity_match_snips/datePeriod:B-", "Qi1udW1iZXJfb2ZfY3Vwcw==", 1557325164),
      ("builtin_entity_match_snips/datePeriod:B-", "SS1udW1iZXJfb2ZfY3Vwcw==", 247813282),
      ("builtin_entity_match_snips/datetime:B-", "Qi1udW1iZXJfb2ZfY3Vwcw==", 1557325164),
      ("builtin_entity_match_snips/datetime:B-", "SS1udW1iZXJfb2ZfY3Vwcw==", 247813282),
      ("builtin_entity_match_snips/number:B-", "Qi1udW1iZXJfb2ZfY3Vwcw==", 2056238702),
      ("builtin_entity_match_snips/temperature:B-", "Qi1udW1iZXJfb2ZfY3Vwcw==", 2056238702),
      ("ngram_1[-1]:rare_word", "SS1iZXZlcmFnZV90ZW1wZXJhdHVyZQ==", 1018098562),
      ("ngram_1:cup", "Tw==", 1441527203), ("ngram_1[+1]:of", "Tw==", 1396787033),
      ("ngram_1[+2]:cold", "Tw==", 57105), ("ngram_2[+1]:of cold", "Tw==", 57105),
      ("is_digit[-1]:1", "Tw==", 2391020), ("shape_ngram_2[-1]:xX xxx", "Tw==", 2391020),
      ("shape_ngram_3[-1]:xX xxx xxx", "Tw==", 2391020),
      ("builtin_entity_match_snips/datePeriod[-1]:B-", "Tw==", 189875073),
      ("builtin_entity_match_snips/datetime[-1]:B-", "Tw==", 189875073),
      ("builtin_entity_match_snips/number[-1]:B-", "SS1udW1iZXJfb2ZfY3Vwcw==", 264409755),
      ("builtin_entity_match_snips/temperature[-1]:B-", "SS1udW1iZXJfb2ZfY3Vwcw==", 264409755),
      ("ngram_1[-1]:cup", "Tw==", 797519445), ("ngram_1:of", "Tw==", 797519445),
      ("ngram_1[+1]:cold", "Tw==", 38667766), ("ngram_1[+2]:tea", "Qi1iZXZlcmFnZV90ZW1wZXJhdHVyZQ==", 429811186),
      ("ngram_2[+1]:cold tea", "Tw==", 38667766),
      ("builtin_entity_match_snips/datePeriod[-2]:B-", "Tw==", 114001067),
      ("builtin_entity_match_snips/datetime[-2]:B-", "Tw==", 114001067), ("ngram_1[-2]:cup", "Tw==", -390136472),
      ("ngram_1[-2]:cup", "Qi1iZXZlcmFnZV90ZW1wZXJhdHVyZQ==", 1237438995), ("ngram_1[-1]:of", "Tw==", -390136472),
      ("ngram_1[-1]:of", "Qi1iZXZlcmFnZV90ZW1wZXJhdHVyZQ==", 1237438995),
      ("ngram_1:cold", "Qi1iZXZlcmFnZV90ZW1wZXJhdHVyZQ==", 1294773210), ("ngram_1[+1]:tea", "Tw==", -1508421156),
      ("ngram_1[+1]:tea", "Qi1iZXZlcmFnZV90ZW1wZXJhdHVyZQ==", 161771229),
      ("ngram_1[+1]:tea", "SS1iZXZlcmFnZV90ZW1wZXJhdHVyZQ==", 615648919),
      ("ngram_2[-2]:cup of", "Tw==", -390136472),
      ("ngram_2[-2]:cup of", "Qi1iZXZlcmFnZV90ZW1wZXJhdHVyZQ==", 1237438995),
      ("ngram_2[+1]:tea rare_word", "Qi1iZXZlcmFnZV90ZW1wZXJhdHVyZQ==", 567565753),
      ("ngram_2[+1]:tea rare_word", "SS1iZXZlcmFnZV90ZW1wZXJhdHVyZQ==", 725806226),
      ("is_last[+2]:1", "Tw==", -1194677462), ("is_last[+2]:1", "Qi1iZXZlcmFnZV90ZW1wZXJhdHVyZQ==", 239096430),
      ("is_last[+2]:1", "SS1iZXZlcmFnZV90ZW1wZXJhdHVyZQ==", 215357179), ("ngram_1[-2]:of", "Tw==", -89864839),
      ("ngram_1[-2]:of", "SS1iZXZlcmFnZV90ZW1wZXJhdHVyZQ==", 978100784), ("ngram_1:tea", "Tw==", 2668819424),
      ("is_last[+1]:1", "Tw==", 1421584041), ("ngram_1[-2]:cold", "Tw==", 652184006),
      ("ngram_1[-1]:tea", "Tw==", 904038681), ("ngram_2[-2]:cold tea", "Tw==", 652184006),
      ("is_last:1", "Tw==", 2601759624), ("entity_match_Temperature[-2]:U-", "Tw==", 155978831),
      ("ngram_1:i", "Tw==", 115905265), ("ngram_1[+1]:want", "Tw==", 115905265),
      ("ngram_1[-1]:i", "Tw==", 63920430), ("ngram_1:want", "Tw==", 63920430),
      ("ngram_1[+2]:one", "Tw==", 145400360), ("ngram_1[-2]:i", "Qi1udW1iZXJfb2ZfY3Vwcw==", 266453432),
      ("ngram_1[-1]:want", "Qi1udW1iZXJfb2ZfY3Vwcw==", 266453432),
      ("ngram_1:twenti", "Qi1udW1iZXJfb2ZfY3Vwcw==", 714696),
      ("ngram_2[-2]:i want", "Qi1udW1iZXJfb2ZfY3Vwcw==", 266453432),
      ("builtin_entity_match_snips/time:B-", "Qi1udW1iZXJfb2ZfY3Vwcw==", 1047066316),
      ("builtin_entity_match_snips/time:B-", "SS1udW1iZXJfb2ZfY3Vwcw==", 268649975),
      ("ngram_1[-1]:twenti", "SS1udW1iZXJfb2ZfY3Vwcw==", 313487526),
      ("ngram_1:one", "Qi1udW1iZXJfb2ZfY3Vwcw==", 23073743),
      ("ngram_1:one", "SS1udW1iZXJfb2ZfY3Vwcw==", 294006312),
      ("builtin_entity_match_snips/datePeriod:I-", "SS1udW1iZXJfb2ZfY3Vwcw==", 313487526),
      ("builtin_entity_match_snips/datetime:I-", "SS1udW1iZXJfb2ZfY3Vwcw==", 313487526),
      ("builtin_entity_match_snips/number:I-", "SS1udW1iZXJfb2ZfY3Vwcw==", 2462364203),
      ("builtin_entity_match_snips/temperature:I-", "SS1udW1iZXJfb2ZfY3Vwcw==", 2462364203),
      ("builtin_entity_match_snips/time[-1]:B-", "SS1udW1iZXJfb2ZfY3Vwcw==", 130737326),
      ("builtin_entity_match_snips/time:I-", "SS1udW1iZXJfb2ZfY3Vwcw==", 313487526),
      ("ngram_1[-2]:twenti", "Tw==", 15698872), ("ngram_1[-1]:one", "Tw==", 357402862),
      ("ngram_2[-2]:twenti one", "Tw==", 15698872), ("ngram_2[+1]:of rare_word", "Tw==", 127302417),
      ("builtin_entity_match_snips/datePeriod[-1]:I-", "Tw==", 15698872),
      ("builtin_entity_match_snips/datetime[-1]:I-", "Tw==", 15698872),
      ("builtin_entity_match_snips/number[-1]:I-", "SS1udW1iZXJfb2ZfY3Vwcw==", 247841819),
      ("builtin_entity_match_snips/temperature[-1]:I-", "SS1udW1iZXJfb2ZfY3Vwcw==", 247841819),
      ("builtin_entity_match_snips/time[-1]:I-", "Tw==", 15698872), ("ngram_1[+2]:hot", "Tw==", 113009320),
      ("builtin_entity_match_snips/number[-2]:I-", "Tw==", 153036961),
      ("builtin_entity_match_snips/temperature[-2]:I-", "Tw==", 153036961),
      ("ngram_1[+1]:hot", "Qi1iZXZlcmFnZV90ZW1wZXJhdHVyZQ==", 496759652),
      ("ngram_2[+1]:hot tea", "Qi1iZXZlcmFnZV90ZW1wZXJhdHVyZQ==", 1051324824),
      ("entity_match_Temperature:B-", "Qi1iZXZlcmFnZV90ZW1wZXJhdHVyZQ==", 223171983),
      ("ngram_1:hot", "Qi1iZXZlcmFnZV90ZW1wZXJhdHVyZQ==", 821943783),
      ("ngram_1:hot", "SS1iZXZlcmFnZV90ZW1wZXJhdHVyZQ==", 1094594529),
      ("ngram_2[-2]:of rare_word", "SS1iZXZlcmFnZV90ZW1wZXJhdHVyZQ==", 1133158248),
      ("entity_match_Temperature[-1]:B-", "SS1iZXZlcmFnZV90ZW1wZXJhdHVyZQ==", 347672535),
      ("entity_match_Temperature:L-", "SS1iZXZlcmFnZV90ZW1wZXJhdHVyZQ==", 252313098),
      ("ngram_1[-1]:hot", "Tw==", 325456499), ("ngram_1[-2]:hot", "Tw==", 160675738),
      ("ngram_1:make", "Tw==", 302341035), ("ngram_1[+1]:me", "Tw==", 302341035),
      ("ngram_1[-1]:make", "Tw==", 245529707), ("ngram_1:me", "Tw==", 245529707),
      ("ngram_1[-2]:make", "Qi1udW1iZXJfb2ZfY3Vwcw==", 51729452),
      ("ngram_1[-1]:me", "Qi1udW1iZXJfb2ZfY3Vwcw==", 51729452), ("ngram_1:a", "Tw==", 633234817),
      ("ngram_2[-2]:make me", "Qi1udW1iZXJfb2ZfY3Vwcw==", 51729452), ("ngram_2[+1]:hot cup", "Tw==", 633234817),
      ("ngram_1[-2]:me", "Tw==", -766037105), ("ngram_1[-2]:me", "Qi1iZXZlcmFnZV90ZW1wZXJhdHVyZQ==", 1138771238),
      ("ngram_1[-1]:a", "Qi1iZXZlcmFnZV90ZW1wZXJhdHVyZQ==", 1551235904),
      ("ngram_2[-2]:me a", "Qi1iZXZlcmFnZV90ZW1wZXJhdHVyZQ==", 1551235904), ("ngram_1[-2]:a", "Tw==", 272134992),
      ("ngram_2[-2]:a hot", "Tw==", 272134992), ("ngram_2[+1]:of tea", "Tw==", 272134992),
      ("ngram_1[+1]:three", "Tw==", 19003848), ("ngram_1[+2]:hundr", "Tw==", 19003848),
      ("ngram_2[+1]:three hundr", "Tw==", 19003848), ("ngram_1[-1]:three", "SS1udW1iZXJfb2ZfY3Vwcw==", 152308846),
      ("ngram_1:hundr", "SS1udW1iZXJfb2ZfY3Vwcw==", 152308846),
      ("ngram_1[+1]:and", "SS1udW1iZXJfb2ZfY3Vwcw==", 152308846),
      ("ngram_1[+2]:four", "SS1udW1iZXJfb2ZfY3Vwcw==", 152308846),
      ("ngram_2[+1]:and four", "SS1udW1iZXJfb2ZfY3Vwcw==", 152308846),
      ("ngram_1[-2]:three", "SS1udW1iZXJfb2ZfY3Vwcw==", 128677925),
      ("ngram_1[-1]:hundr", "SS1udW1iZXJfb2ZfY3Vwcw==", 128677925),
      ("ngram_1:and", "SS1udW1iZXJfb2ZfY3Vwcw==", 128677925),
      ("ngram_1[+1]:four", "SS1udW1iZXJfb2ZfY3Vwcw==", 128677925),
      ("ngram_2[-2]:three hundr", "SS1udW1iZXJfb2ZfY3Vwcw==", 128677925),
      ("ngram_1[-2]:hundr", "SS1udW1iZXJfb2ZfY3Vwcw==", 361414986),
      ("ngram_1[-1]:and", "SS1udW1iZXJfb2ZfY3Vwcw==", 361414986),
      ("ngram_1:four", "SS1udW1iZXJfb2ZfY3Vwcw==", 361414986),
      ("ngram_2[-2]:hundr and", "SS1udW1iZXJfb2ZfY3Vwcw==", 361414986),
      ("ngram_2[+1]:tea cup", "SS1udW1iZXJfb2ZfY3Vwcw==", 2551952), ("ngram_1[-2]:and", "Tw==", 24196852),
      ("ngram_1[-1]:four", "Tw==", 24196852), ("ngram_2[-2]:and four", "Tw==", 24196852),
      ("entity_match_Temperature:U-", "Qi1iZXZlcmFnZV90ZW1wZXJhdHVyZQ==", 868325022),
      ("ngram_1:five", "Qi1udW1iZXJfb2ZfY3Vwcw==", 13035194)]
  transition :=
    [("Tw==", "Tw==", 1982985550), ("Tw==", "Qi1udW1iZXJfb2ZfY3Vwcw==", 1500036368),
      ("Tw==", "Qi1iZXZlcmFnZV90ZW1wZXJhdHVyZQ==", 1525066901),
      ("Qi1udW1iZXJfb2ZfY3Vwcw==", "SS1udW1iZXJfb2ZfY3Vwcw==", 1130676960),
      ("Qi1iZXZlcmFnZV90ZW1wZXJhdHVyZQ==", "Tw==", 252712766),
      ("Qi1iZXZlcmFnZV90ZW1wZXJhdHVyZQ==", "SS1iZXZlcmFnZV90ZW1wZXJhdHVyZQ==", 1815461270),
      ("SS1udW1iZXJfb2ZfY3Vwcw==", "Tw==", -150731295),
      ("SS1udW1iZXJfb2ZfY3Vwcw==", "SS1udW1iZXJfb2ZfY3Vwcw==", 1352412608)]

/-- data/tests/models/nlu_engine_game/probabilistic_intent_parser/slot_filler_0/model.crfsuite -/
def crfGame : CrfWeights where
  labels := ["Tw==", "Qi1nYW1l", "SS1nYW1l"]
  state :=
    [("ngram_1:i", "Tw==", 252361590), ("ngram_1[+1]:want", "Tw==", 252361590),
      ("ngram_1[+2]:to", "Tw==", 550395391), ("ngram_2[+1]:want to", "Tw==", 252361590),
      ("is_first:1", "Tw==", 1049564527), ("shape_ngram_1:xxx", "Tw==", 1117233726),
      ("shape_ngram_1:xxx", "Qi1nYW1l", -761708946), ("shape_ngram_2:xxx xxx", "Tw==", 466094730),
      ("shape_ngram_2:xxx xxx", "Qi1nYW1l", -122325513), ("word_cluster_brown_clusters:0000", "Tw==", 252361590),
      ("word_cluster_brown_clusters[+1]:01001011", "Tw==", 252361590), ("ngram_1[+1]:to", "Tw==", 693295251),
      ("is_first[-1]:1", "Tw==", 643557043), ("shape_ngram_2[-1]:xxx xxx", "Qi1nYW1l", -266847119),
      ("shape_ngram_2[-1]:xxx xxx", "SS1nYW1l", 395046805), ("shape_ngram_3[-1]:xxx xxx xxx", "Tw==", -82093931),
      ("shape_ngram_3[-1]:xxx xxx xxx", "SS1nYW1l", 225051234),
      ("word_cluster_brown_clusters[+1]:1010", "Tw==", 693295251), ("ngram_1:to", "Tw==", 710388018),
      ("is_first[-2]:1", "Tw==", 537787311), ("word_cluster_brown_clusters:1010", "Tw==", 710388018),
      ("ngram_1[-2]:want", "Tw==", 206370482), ("ngram_1[-1]:to", "Qi1nYW1l", 646460467),
      ("ngram_1:play", "Tw==", 206370482), ("ngram_2[-2]:want to", "Tw==", 206370482),
      ("word_cluster_brown_clusters[-2]:01001011", "Tw==", 206370482),
      ("word_cluster_brown_clusters[-1]:1010", "Qi1nYW1l", 646460467),
      ("word_cluster_brown_clusters:010110010110", "Tw==", 206370482), ("ngram_1[-2]:to", "SS1nYW1l", 475337210),
      ("ngram_1[-1]:play", "Tw==", 410887707), ("ngram_1[+2]:rare_word", "Tw==", 404179795),
      ("ngram_2[-2]:to play", "Tw==", 410887707), ("word_cluster_brown_clusters[-2]:1010", "SS1nYW1l", 475337210),
      ("word_cluster_brown_clusters[-1]:010110010110", "Tw==", 410887707),
      ("ngram_1[-2]:play", "Qi1nYW1l", 1223671180), ("ngram_1:star", "Qi1nYW1l", 270917822),
      ("ngram_1[+1]:rare_word", "Qi1nYW1l", 256721554), ("ngram_1[+1]:rare_word", "SS1nYW1l", -32333654),
      ("ngram_2[-2]:play to", "Qi1nYW1l", 1223671180), ("is_last[+2]:1", "Tw==", -238233105),
      ("is_last[+2]:1", "SS1nYW1l", 83053869),
      ("word_cluster_brown_clusters[-2]:010110010110", "Qi1nYW1l", 1223671180),
      ("word_cluster_brown_clusters:1111110010101", "Qi1nYW1l", 270917822),
      ("word_cluster_brown_clusters[+1]:111111010110", "Qi1nYW1l", 405078256),
      ("ngram_1[-1]:star", "SS1nYW1l", 293727435), ("ngram_1:rare_word", "Qi1nYW1l", 273871956),
      ("ngram_1:rare_word", "SS1nYW1l", 768387487), ("is_last[+1]:1", "Qi1nYW1l", 82422083),
      ("is_last[+1]:1", "SS1nYW1l", 1198135312), ("entity_match_game:I-", "SS1nYW1l", 266100912),
      ("word_cluster_brown_clusters[-1]:1111110010101", "SS1nYW1l", 293727435),
      ("word_cluster_brown_clusters:111111010110", "Qi1nYW1l", 476404301),
      ("word_cluster_brown_clusters:111111010110", "SS1nYW1l", 422797304),
      ("ngram_1[-1]:rare_word", "SS1nYW1l", 809391015), ("ngram_1:ii", "SS1nYW1l", 747853084),
      ("is_last:1", "Tw==", 78220443), ("entity_match_game[-1]:I-", "SS1nYW1l", 625740907),
      ("entity_match_game:L-", "SS1nYW1l", 984035564),
      ("word_cluster_brown_clusters[-1]:111111010110", "Tw==", -98003325),
      ("word_cluster_brown_clusters[-1]:111111010110", "SS1nYW1l", 988989665),
      ("word_cluster_brown_clusters:001011111001", "SS1nYW1l", 747853084), ("ngram_1:pleas", "Tw==", 295188472),
      ("ngram_1[+1]:launch", "Tw==", 295188472), ("ngram_1[+2]:the", "Tw==", 295188472),
      ("ngram_2[+1]:launch the", "Tw==", 295188472),
      ("word_cluster_brown_clusters:11101010110", "Tw==", 295188472),
      ("word_cluster_brown_clusters[+1]:111101111100111", "Tw==", 295188472),
      ("ngram_1[-1]:pleas", "Tw==", 155184467), ("ngram_1:launch", "Tw==", 155184467),
      ("ngram_1[+1]:the", "Tw==", 155184467), ("word_cluster_brown_clusters[-1]:11101010110", "Tw==", 155184467),
      ("word_cluster_brown_clusters:111101111100111", "Tw==", 155184467),
      ("word_cluster_brown_clusters[+1]:110100", "Tw==", 155184467), ("ngram_1[-2]:pleas", "Tw==", 237950147),
      ("ngram_1[-1]:launch", "Tw==", 237950147), ("ngram_1:the", "Tw==", 237950147),
      ("ngram_1[+2]:war", "Tw==", 8654144), ("ngram_2[-2]:pleas launch", "Tw==", 237950147),
      ("ngram_2[+1]:rare_word war", "Tw==", 8654144),
      ("word_cluster_brown_clusters[-2]:11101010110", "Tw==", 237950147),
      ("word_cluster_brown_clusters[-1]:111101111100111", "Tw==", 237950147),
      ("word_cluster_brown_clusters:110100", "Tw==", 237950147), ("ngram_1[-2]:launch", "Qi1nYW1l", 989910027),
      ("ngram_1[-1]:the", "Qi1nYW1l", 989910027), ("ngram_1[+1]:war", "Qi1nYW1l", 286183060),
      ("ngram_2[-2]:launch the", "Qi1nYW1l", 989910027), ("entity_match_game:B-", "Qi1nYW1l", 599129948),
      ("word_cluster_brown_clusters[-2]:111101111100111", "Qi1nYW1l", 989910027),
      ("word_cluster_brown_clusters[-1]:110100", "Qi1nYW1l", 989910027),
      ("word_cluster_brown_clusters[+1]:1111010101001", "Qi1nYW1l", 286183060),
      ("ngram_1[-2]:the", "SS1nYW1l", 618843220), ("ngram_1[+2]:game", "SS1nYW1l", 323801618),
      ("word_cluster_brown_clusters[-2]:110100", "SS1nYW1l", 618843220),
      ("word_cluster_brown_clusters[+1]:1111011110111101", "SS1nYW1l", 359660617),
      ("ngram_1[-2]:rare_word", "Tw==", -142573669), ("ngram_1[-2]:rare_word", "SS1nYW1l", 574503463),
      ("ngram_1[-1]:war", "SS1nYW1l", 8160299), ("ngram_1:demo", "SS1nYW1l", 519813113),
      ("ngram_1[+1]:game", "SS1nYW1l", 992195133), ("ngram_2[-2]:rare_word war", "SS1nYW1l", 8160299),
      ("entity_match_game[-2]:B-", "SS1nYW1l", 143447688),
      ("word_cluster_brown_clusters[-2]:111111010110", "Tw==", -142573669),
      ("word_cluster_brown_clusters[-2]:111111010110", "SS1nYW1l", 574503463),
      ("word_cluster_brown_clusters[-1]:1111010101001", "SS1nYW1l", 8160299),
      ("word_cluster_brown_clusters:1111011110111101", "SS1nYW1l", 1233631631),
      ("word_cluster_brown_clusters[+1]:111101110111110", "SS1nYW1l", 992195133),
      ("ngram_1:game", "Tw==", 3192373851), ("entity_match_game[-2]:I-", "Tw==", 31820246),
      ("entity_match_game[-1]:L-", "Tw==", 856141935),
      ("word_cluster_brown_clusters:111101110111110", "Tw==", 3192373851),
      ("entity_match_game[-1]:B-", "SS1nYW1l", 645290675), ("ngram_2[-2]:to rare_word", "SS1nYW1l", 91208454),
      ("ngram_1[+2]:attack", "Tw==", 92421709), ("ngram_2[+1]:rare_word attack", "Tw==", 92421709),
      ("ngram_1[+1]:attack", "Qi1nYW1l", 405875071),
      ("word_cluster_brown_clusters[+1]:11110111111110", "Qi1nYW1l", 405875071),
      ("ngram_1:attack", "SS1nYW1l", 60711429),
      ("word_cluster_brown_clusters:11110111111110", "SS1nYW1l", 60711429),
      ("ngram_1:three", "SS1nYW1l", 82183685), ("builtin_entity_match_snips/datePeriod:B-", "SS1nYW1l", 429295381),
      ("builtin_entity_match_snips/datetime:B-", "SS1nYW1l", 429295381),
      ("builtin_entity_match_snips/number:B-", "SS1nYW1l", 429295381),
      ("builtin_entity_match_snips/temperature:B-", "SS1nYW1l", 429295381),
      ("builtin_entity_match_snips/time:B-", "SS1nYW1l", 429295381),
      ("word_cluster_brown_clusters:111111101010", "SS1nYW1l", 82183685), ("ngram_1:space", "Qi1nYW1l", 248610465),
      ("word_cluster_brown_clusters:11110111001110", "Qi1nYW1l", 248610465),
      ("ngram_1[-1]:space", "SS1nYW1l", 335545647),
      ("word_cluster_brown_clusters[-1]:11110111001110", "SS1nYW1l", 335545647),
      ("ngram_1:limit", "SS1nYW1l", 229107898), ("ngram_1[+1]:edit", "SS1nYW1l", 229107898),
      ("ngram_2[+1]:edit game", "SS1nYW1l", 8190526),
      ("word_cluster_brown_clusters:1111100011100", "SS1nYW1l", 229107898),
      ("ngram_1[-1]:limit", "SS1nYW1l", 217242682), ("ngram_1:edit", "SS1nYW1l", 217242682),
      ("ngram_2[-2]:rare_word limit", "SS1nYW1l", 217242682),
      ("word_cluster_brown_clusters[-1]:1111100011100", "SS1nYW1l", 217242682),
      ("ngram_1[-1]:ii", "Tw==", 51994446), ("ngram_2[-2]:rare_word ii", "Tw==", 51994446),
      ("word_cluster_brown_clusters[-1]:001011111001", "Tw==", 51994446)]
  transition :=
    [("Tw==", "Tw==", 2438426646), ("Tw==", "Qi1nYW1l", 1890853991), ("Qi1nYW1l", "SS1nYW1l", 3034560761),
      ("SS1nYW1l", "SS1nYW1l", 1439613449)]

/-- resources/en/stop_words.txt of both models -/
def stopWordsFile : Text := s "!\n?\na\nabout\nallright\nalright\nalthough\nan\nand\nany\nbesides\nbut\ncan\nhello\nhey\nhi\ninstead\njust\nlol\nman\nme\nmy\nnow\nok\nonly\nplease\npls\nso\nsome\nsuch\nthat\nthe\nthen\nthese\nthis\nthose\nthough\nto\ntoo\nvery\nwhile\nyo\nyou\nyour\nyours\nyourself\n"

/-- The lines of resources/en/stemming/stems.txt of both models with one of the words of the tests. -/
def stemsFile : Text := s "boil,boiled,boiling,boils\ncoffe,coffee\ncup,cups\nmake,made,makes,making\nplay,played,playing,plays\npleas,please,pleased,pleases,pleasing\nwant,wanted,wanting,wants\n"

/-- The lines of resources/en/gazetteers/top_10000_words_stemmed.txt of both models with one of these words or their
stems. -/
def commonWordsFile : Text := s "a\ncoffe\ncold\ncup\nhot\ni\nmake\nme\nof\nplay\npleas\ntea\nthree\nto\ntwo\nwant\n"

end Snips.Conformance
