import Verif.Model.Crf
import Verif.Model.TextFns

/-! # Model of src/slot_filler/{features,features_utils,feature_processor}.rs -/

namespace Snips

/-- `get_word_chunk` (src/slot_filler/features_utils.rs:6-25). -/
def getWordChunk (word : Text) (chunkSize chunkStart : Nat) (reverse : Bool) : Option Text :=
  if reverse ∧ chunkSize > chunkStart then none
  else
    let start := if reverse then chunkStart - chunkSize else chunkStart
    if start + chunkSize > word.length then none
    else some ((word.drop start).take chunkSize)

/-- Loop of `initial_string_from_tokens` (src/slot_filler/features_utils.rs:30-39). -/
def initialStringFrom (currentIndex : Nat) : List Token → Text
  | [] => []
  | tok :: toks =>
    (if tok.charRange.start > currentIndex then List.replicate (tok.charRange.start - currentIndex) ' '
      else []) ++ tok.value ++ initialStringFrom tok.charRange.stop toks

/-- `initial_string_from_tokens` (src/slot_filler/features_utils.rs:27-40).  For an empty list the
capacity `2 * 0 - 1` underflows: a panic (as an overflow in debug builds, as a too large capacity in
release builds). -/
def initialStringFromTokens (toks : List Token) : Outcome Text :=
  if toks = [] then .panic else .ok (initialStringFrom 0 toks)

/-- The value of a token after normalization and optional stemming
(src/slot_filler/features.rs:157-161 and :423-425). -/
def normStem (fns : TextFns) (stemmer : Option (Text → Text)) (value : Text) : Text :=
  match stemmer with
  | some stem => stem (fns.normalize value)
  | none => fns.normalize value

/-- Loop of `transform_tokens` (src/slot_filler/features.rs:420-433). -/
def transformTokensFrom (fns : TextFns) (stemmer : Option (Text → Text)) :
    (charIndex byteIndex : Nat) → List Token → List Token
  | _, _, [] => []
  | ci, bi, tok :: toks =>
    let v := normStem fns stemmer tok.value
    ⟨v, ⟨bi, bi + byteLen v⟩, ⟨ci, ci + v.length⟩⟩
      :: transformTokensFrom fns stemmer (ci + v.length + 1) (bi + byteLen v + 1) toks

/-- `transform_tokens` (src/slot_filler/features.rs:417-434). -/
def transformTokens (fns : TextFns) (stemmer : Option (Text → Text)) (toks : List Token) : List Token :=
  transformTokensFrom fns stemmer 0 0 toks

/-- The features (src/slot_filler/features.rs:22-410), with the resources they hold: gazetteer membership,
stemmer, word clusters. -/
inductive Feature where
  | isDigit
  | length
  | isFirst
  | isLast
  | ngram (n : Nat) (commonWords : Option (Text → Bool)) (stemmer : Option (Text → Text))
  | shapeNgram (n : Nat)
  | pfx (n : Nat)
  | sfx (n : Nat)
  | entityMatch (entity : Text) (scheme : Scheme) (stemmer : Option (Text → Text))
  | builtinEntityMatch (kind : Kind) (kindIdentifier : Text) (scheme : Scheme)
  | wordCluster (name : Text) (getCluster : Text → Option Text)

/-- `Feature::name` (src/slot_filler/feature_processor.rs:83-86 and the overrides in features.rs:106-108,
:184-186, :217-219, :240-242, :272-274, :333-339, :385-387; identifiers from feature_processor.rs:96-108). -/
def Feature.name : Feature → Text
  | .isDigit => "is_digit".toList
  | .length => "length".toList
  | .isFirst => "is_first".toList
  | .isLast => "is_last".toList
  | .ngram n _ _ => "ngram_".toList ++ natText n
  | .shapeNgram n => "shape_ngram_".toList ++ natText n
  | .pfx n => "prefix_".toList ++ natText n
  | .sfx n => "suffix_".toList ++ natText n
  | .entityMatch e _ _ => "entity_match_".toList ++ e
  | .builtinEntityMatch _ k _ => "builtin_entity_match_".toList ++ k
  | .wordCluster c _ => "word_cluster_".toList ++ c

/-- One word of an n-gram (src/slot_filler/features.rs:156-171). -/
def ngramWord (fns : TextFns) (commonWords : Option (Text → Bool)) (stemmer : Option (Text → Text))
    (value : Text) : Text :=
  let v := normStem fns stemmer value
  match commonWords with
  | some contains => if contains v then v else "rare_word".toList
  | none => v

/-- `(0..tokens.len()).filter(|i| ranges_overlap(&tokens[*i].char_range, &e.range))`
(src/slot_filler/features.rs:316-318, :369-371). -/
def touchedTokens (toks : List Token) (r : Rng) : List Nat :=
  (List.range toks.length).filter fun j =>
    match toks[j]? with
    | some t => rangesOverlap t.charRange r
    | none => false

/-- `.into_iter().find(|e| overlap(e, token)).map(|e| get_scheme_prefix(..))`, the common end of
`CustomEntityMatchFeature::compute` and `BuiltinEntityMatchFeature::compute`
(src/slot_filler/features.rs:314-322, :367-375), on the ranges of the entities found.  Indexing the
tokens panics out of bounds. -/
def entityPrefix (scheme : Scheme) (toks : List Token) (i : Nat) : List Rng → Outcome (Option Text)
  | [] => .ok none
  | r :: rs =>
    match toks[i]? with
    | none => .panic
    | some tok =>
      if rangesOverlap r tok.charRange then
        match getSchemePrefix i (touchedTokens toks r) scheme with
        | .ok p => .ok (some p)
        | .err e => .err e
        | .panic => .panic
      else entityPrefix scheme toks i rs

/-- `Feature::compute`: features.rs:32-40 (is_digit), :53-58 (length), :71-77 (is_first), :90-96
(is_last; `tokens.len() - 1` underflows on an empty list), :150-176 (ngram), :196-209 (shape_ngram),
:229-232 (prefix), :252-261 (suffix), :307-323 (entity_match), :362-376 (builtin_entity_match), :410-414
(word_cluster).  `token_index + ngram_size` overflowing a `usize` panics in an n-gram, in a debug build at the sum and
in a release build at the slice, whose end is then before its start; in a shape n-gram a release build finds no
feature, like the model, and a debug build panics, which is in `Feature.compute64` only (`Model/Machine`). -/
def Feature.compute (fns : TextFns) (toks : List Token) (i : Nat) : Feature → Prog (Option Text)
  | .isDigit => Prog.ofOutcome (do
      let tok ← Outcome.unwrap toks[i]?
      .ok (if tok.value.all Char.isDigit then some ['1'] else none))
  | .length => Prog.ofOutcome (do
      let tok ← Outcome.unwrap toks[i]?
      .ok (some (natText tok.value.length)))
  | .isFirst => .ret (if i = 0 then some ['1'] else none)
  | .isLast => if toks = [] then .panic else .ret (if i = toks.length - 1 then some ['1'] else none)
  | .ngram n common stemmer =>
    if usizeCount ≤ i + n then .panic
    else .ret (if i + n > toks.length then none
      else some (joinWith [' '] (((toks.drop i).take n).map (fun t => ngramWord fns common stemmer t.value))))
  | .shapeNgram n =>
    .ret (if i < i + n ∧ i + n ≤ toks.length then
        some (joinWith [' '] (((toks.drop i).take n).map (fun t => fns.shape t.value)))
      else none)
  | .pfx n => Prog.ofOutcome (do
      let tok ← Outcome.unwrap toks[i]?
      .ok (getWordChunk (fns.normalize tok.value) n 0 false))
  | .sfx n => Prog.ofOutcome (do
      let tok ← Outcome.unwrap toks[i]?
      .ok (getWordChunk (fns.normalize tok.value) n (fns.normalize tok.value).length true))
  | .entityMatch entity scheme stemmer =>
    (Prog.ofOutcome (initialStringFromTokens (transformTokens fns stemmer toks))).bind fun text =>
      .custom text (some [entity]) 0 fun es =>
        Prog.ofOutcome (entityPrefix scheme (transformTokens fns stemmer toks) i (es.map CustomEntity.range))
  | .builtinEntityMatch kind _ scheme =>
    (Prog.ofOutcome (initialStringFromTokens toks)).bind fun text =>
      .builtinCached text (some [kind]) fun es =>
        Prog.ofOutcome (entityPrefix scheme toks i (es.map KindMatch.range))
  | .wordCluster _ getCluster => Prog.ofOutcome (do
      let tok ← Outcome.unwrap toks[i]?
      .ok (getCluster (fns.lower tok.value)))

/-- `FeatureOffsetter` (src/slot_filler/feature_processor.rs:56-59); `i32` offsets as integers. -/
structure Offsetter where
  feature : Feature
  offsets : List Int

/-- `{:+}`: a signed decimal. -/
def signedText (i : Int) : Text := (if i < 0 then '-' else '+') :: natText i.natAbs

/-- `FeatureOffsetter::offsets_with_name` (src/slot_filler/feature_processor.rs:62-76). -/
def Offsetter.offsetsWithName (o : Offsetter) : List (Int × Text) :=
  o.offsets.map fun i =>
    (i, if i = 0 then o.feature.name else o.feature.name ++ ['['] ++ signedText i ++ [']'])

/-- Body of the `for_each` of `compute_features` (src/slot_filler/feature_processor.rs:42-48).
Simplification: `i32` arithmetic does not overflow. -/
def pushFeature (i : Nat) (value : Text) (features : List (List (Text × Text))) (ok : Int × Text) :
    List (List (Text × Text)) :=
  if (i : Int) - ok.1 ≥ 0 ∧ (i : Int) - ok.1 < features.length then
    features.modify ((i : Int) - ok.1).toNat (fun l => l ++ [(ok.2, value)])
  else features

/-- Inner loop of `compute_features` (src/slot_filler/feature_processor.rs:40-50). -/
def featureLoop (fns : TextFns) (toks : List Token) (o : Offsetter) :
    List Nat → List (List (Text × Text)) → Prog (List (List (Text × Text)))
  | [], features => .ret features
  | i :: is, features =>
    (o.feature.compute fns toks i).bind fun v =>
      match v with
      | some value => featureLoop fns toks o is (o.offsetsWithName.foldl (pushFeature i value) features)
      | none => featureLoop fns toks o is features

/-- Outer loop of `compute_features` (src/slot_filler/feature_processor.rs:39-51). -/
def offsettersLoop (fns : TextFns) (toks : List Token) :
    List Offsetter → List (List (Text × Text)) → Prog (List (List (Text × Text)))
  | [], features => .ret features
  | o :: os, features =>
    (featureLoop fns toks o (List.range toks.length) features).bind fun features =>
      offsettersLoop fns toks os features

/-- `ProbabilisticFeatureProcessor::compute_features` (src/slot_filler/feature_processor.rs:37-53). -/
def computeFeatures (fns : TextFns) (os : List Offsetter) (toks : List Token) :
    Prog (List (List (Text × Text))) :=
  offsettersLoop fns toks os (List.replicate toks.length [])

end Snips
