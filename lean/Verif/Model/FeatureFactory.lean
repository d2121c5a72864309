import Verif.Model.SlotFiller
import Verif.Model.Json

/-! # Building of the features of a slot filler

`ProbabilisticFeatureProcessor::new` (src/slot_filler/feature_processor.rs:17-32), `get_features`
(src/slot_filler/macros.rs:27-41) and the `build_features` of src/slot_filler/features.rs. -/

namespace Snips

/-- `FeatureFactory` (src/models/slot_filler.rs:22-27). -/
structure FactoryConfig where
  factoryName : Text
  offsets : List Int
  args : Map Text Json

/-- `SharedResources` (src/resources/mod.rs:14-21) without the entity parsers, which are reached through the
effects of `Prog`. -/
structure Resources where
  gazetteers : Map Text Gazetteer
  stemmer : Option Stemmer
  wordClusterers : Map Text WordClusterer
  stopWords : List Text

/-- `args.get(arg_name).ok_or_else(..)?` (src/slot_filler/features.rs:438-439, :450-451, :460-461, :475-476, :483-484). -/
def getArg (args : Map Text Json) (name : Text) : Outcome Json := Outcome.ofOption (.site 30) (args.get name)

/-- `parse_as_string` (src/slot_filler/features.rs:436-443). -/
def parseAsString (args : Map Text Json) (name : Text) : Outcome Text := do
  let v ← getArg args name
  Outcome.ofOption (.site 31) v.asStr

/-- `parse_as_opt_string` (src/slot_filler/features.rs:445-454). -/
def parseAsOptString (args : Map Text Json) (name : Text) : Outcome (Option Text) := do
  let v ← getArg args name
  .ok v.asStr

/-- `parse_as_vec_string` (src/slot_filler/features.rs:456-471). -/
def parseAsVecString (args : Map Text Json) (name : Text) : Outcome (List Text) := do
  let v ← getArg args name
  let l ← Outcome.ofOption (.site 32) v.asArray
  mapOutcome (fun x => Outcome.ofOption (.site 31) x.asStr) l

/-- `parse_as_bool` (src/slot_filler/features.rs:473-479). -/
def parseAsBool (args : Map Text Json) (name : Text) : Outcome Bool := do
  let v ← getArg args name
  Outcome.ofOption (.site 33) v.asBool

/-- `parse_as_u64` (src/slot_filler/features.rs:481-487). -/
def parseAsU64 (args : Map Text Json) (name : Text) : Outcome Nat := do
  let v ← getArg args name
  Outcome.ofOption (.site 34) v.asU64

/-- The gazetteer of an n-gram feature (src/slot_filler/features.rs:116-131). -/
def pickGazetteer (fns : TextFns) (r : Resources) : Option Text → Outcome (Option (Text → Bool))
  | none => .ok none
  | some name => do
    let g ← Outcome.ofOption (.site 35) (r.gazetteers.get name)
    .ok (some (g.contains fns.hashStr))

/-- The stemmer of a feature or vectorizer (src/slot_filler/features.rs:132-142, :283-293,
src/intent_classifier/featurizer.rs:155-165). -/
def pickStemmer (fns : TextFns) (r : Resources) (useStemming : Bool) : Outcome (Option (Text → Text)) :=
  if useStemming then do
    let s ← Outcome.ofOption (.site 36) r.stemmer
    .ok (some (s.stem fns))
  else .ok none

/-- The word clusters of a feature or vectorizer (src/slot_filler/features.rs:394-403,
src/intent_classifier/featurizer.rs:129-144). -/
def pickClusterer (fns : TextFns) (r : Resources) (name : Text) : Outcome (Text → Option Text) := do
  let c ← Outcome.ofOption (.site 37) (r.wordClusterers.get name)
  .ok (c.getCluster fns.hashStr)

/-- `TaggingScheme::from_u8(code as u8)` (src/slot_filler/features.rs:281-282, :346-347): only the last byte
of the code counts. -/
def schemeOfCode (code : Nat) : Outcome Scheme := Scheme.fromU8 (code % 256)

/-- `NgramFeature::build_features` (src/slot_filler/features.rs:110-148). -/
def buildNgram (fns : TextFns) (r : Resources) (args : Map Text Json) : Outcome (List Feature) := do
  let n ← parseAsU64 args "n".toList
  let name ← parseAsOptString args "common_words_gazetteer_name".toList
  let g ← pickGazetteer fns r name
  let use ← parseAsBool args "use_stemming".toList
  let s ← pickStemmer fns r use
  .ok [.ngram n g s]

/-- `CustomEntityMatchFeature::build_features` (src/slot_filler/features.rs:276-305). -/
def buildEntityMatch (fns : TextFns) (r : Resources) (args : Map Text Json) : Outcome (List Feature) := do
  let entities ← parseAsVecString args "entities".toList
  let code ← parseAsU64 args "tagging_scheme_code".toList
  let scheme ← schemeOfCode code
  let use ← parseAsBool args "use_stemming".toList
  let s ← pickStemmer fns r use
  .ok (entities.map fun e => .entityMatch e scheme s)

/-- `BuiltinEntityMatchFeature::build_features` (src/slot_filler/features.rs:341-360). -/
def buildBuiltinEntityMatch (names : KindNames) (args : Map Text Json) : Outcome (List Feature) := do
  let labels ← parseAsVecString args "entity_labels".toList
  let code ← parseAsU64 args "tagging_scheme_code".toList
  let scheme ← schemeOfCode code
  mapOutcome (fun label => do
    let kind ← names.fromIdentifierOrErr label
    .ok (Feature.builtinEntityMatch kind (names.identifier kind) scheme)) labels

/-- `WordClusterFeature::build_features` (src/slot_filler/features.rs:389-408). -/
def buildWordCluster (fns : TextFns) (r : Resources) (args : Map Text Json) : Outcome (List Feature) := do
  let name ← parseAsString args "cluster_name".toList
  let c ← pickClusterer fns r name
  .ok [.wordCluster name c]

/-- Features whose only argument is a size (src/slot_filler/features.rs:188-194, :221-227, :244-250). -/
def buildSized (mk : Nat → Feature) (args : Map Text Json) (name : Text) : Outcome (List Feature) := do
  let n ← parseAsU64 args name
  .ok [mk n]

/-- The `match` of `get_features` (src/slot_filler/macros.rs:31-36 with the table of
src/slot_filler/feature_processor.rs:96-108). -/
def buildFeatures (fns : TextFns) (names : KindNames) (r : Resources) (factoryName : Text)
    (args : Map Text Json) : Outcome (List Feature) :=
  if factoryName = "is_digit".toList then .ok [.isDigit]
  else if factoryName = "length".toList then .ok [.length]
  else if factoryName = "is_first".toList then .ok [.isFirst]
  else if factoryName = "is_last".toList then .ok [.isLast]
  else if factoryName = "ngram".toList then buildNgram fns r args
  else if factoryName = "shape_ngram".toList then buildSized .shapeNgram args "n".toList
  else if factoryName = "prefix".toList then buildSized .pfx args "prefix_size".toList
  else if factoryName = "suffix".toList then buildSized .sfx args "suffix_size".toList
  else if factoryName = "entity_match".toList then buildEntityMatch fns r args
  else if factoryName = "builtin_entity_match".toList then buildBuiltinEntityMatch names args
  else if factoryName = "word_cluster".toList then buildWordCluster fns r args
  else .err (.site 38)

/-- `get_features` (src/slot_filler/macros.rs:27-41). -/
def getFeatures (fns : TextFns) (names : KindNames) (r : Resources) (f : FactoryConfig) : Outcome (List Offsetter) := do
  let features ← buildFeatures fns names r f.factoryName f.args
  .ok (features.map fun feature => ⟨feature, f.offsets⟩)

/-- `ProbabilisticFeatureProcessor::new` (src/slot_filler/feature_processor.rs:17-32). -/
def buildProcessor (fns : TextFns) (names : KindNames) (r : Resources) (configs : List FactoryConfig) :
    Outcome (List Offsetter) := do
  let l ← mapOutcome (getFeatures fns names r) configs
  .ok l.flatten

end Snips
