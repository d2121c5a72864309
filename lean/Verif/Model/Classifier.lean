import Verif.Model.Lookup

/-! # Model of src/intent_classifier/{featurizer,logreg,log_reg_intent_classifier}.rs -/

namespace Snips

/-- `f32` operations used by the classifier.  The numeric code is written for an arbitrary number type
and arbitrary operations; theorems say which laws they need.  `dot` is the inner product computed by
`ndarray` (order of summation unspecified). -/
structure FloatOps (F : Type) where
  zero : F
  one : F
  add : F → F → F
  sub : F → F → F
  mul : F → F → F
  div : F → F → F
  neg : F → F
  exp : F → F
  sqrt : F → F
  /-- `x > 0.` -/
  pos : F → Bool
  dot : List F → List F → F

/-! ### src/intent_classifier/logreg.rs -/

/-- `MulticlassLogisticRegression` (src/intent_classifier/logreg.rs:8-15).  The matrix of shape
(1 + number of features, number of classes) is kept by columns, one per class, the intercept first. -/
structure LogReg (F : Type) where
  nbFeatures : Nat
  columns : List (List F)
deriving DecidableEq

/-- Column `j` of the matrix built by `Array::from_shape_fn((nb_features, nb_classes), |(i, j)|
coeffs[j][i])` (src/intent_classifier/log_reg_intent_classifier.rs:58-59); indexing panics. -/
def coeffColumn {F : Type} (coeffs : List (List F)) (nbFeatures j : Nat) : Outcome (List F) :=
  mapOutcome (fun i => Outcome.unwrap ((coeffs[j]?).bind fun row => row[i]?)) (List.range nbFeatures)

/-- Loading of the regression (src/intent_classifier/log_reg_intent_classifier.rs:53-60) with
`MulticlassLogisticRegression::new` (src/intent_classifier/logreg.rs:33-40), whose `stack!` always
receives matching shapes here. -/
def LogReg.new {F : Type} (intercept : List F) (coeffs : List (List F)) : Outcome (LogReg F) := do
  let first ← Outcome.unwrap coeffs[0]?
  let columns ← mapOutcome (fun jb : Nat × F => do
      let column ← coeffColumn coeffs first.length jb.1
      .ok (jb.2 :: column)) ((List.range intercept.length).zip intercept)
  .ok ⟨first.length, columns⟩

/-- `logit` (src/intent_classifier/logreg.rs:56-58). -/
def logit {F : Type} (ops : FloatOps F) (x : F) : F := ops.div ops.one (ops.add ops.one (ops.exp (ops.neg x)))

/-- `MulticlassLogisticRegression::run` (src/intent_classifier/logreg.rs:42-53); `into_shape` fails if
the number of features does not fit. -/
def LogReg.run {F : Type} (ops : FloatOps F) (m : LogReg F) (features : List F) : Outcome (List F) :=
  if features.length ≠ m.nbFeatures then .err (.external 100)
  else
    let result := m.columns.map fun column => logit ops (ops.dot (ops.one :: features) column)
    match result with
    | [r] => .ok [ops.sub ops.one r, r]
    | _ => .ok result

/-! ### src/intent_classifier/featurizer.rs -/

/-- What the featurizers use from outside, besides text functions: the names of builtin kinds,
`snips_nlu_utils::token::compute_all_ngrams` (external; only the texts of the n-grams are used), the
stop words of the shared resources, and whether the crate is built with debug assertions (and overflow
checks). -/
structure FeatEnv where
  names : KindNames
  allNgrams : List Text → Nat → List Text
  stopWords : List Text
  debugAssertions : Bool

/-- `iter.sorted()` on strings: ordered by code points (which is the order of the UTF-8 bytes). -/
def sortTexts (l : List Text) : List Text := l.insertionSort (fun a b => a ≤ b)

/-- `TfidfVectorizer` (src/intent_classifier/featurizer.rs:90-98), with the text functions of its language. -/
structure Tfidf (F : Type) where
  fns : TextFns
  scope : List Kind
  vocabulary : Map Text Nat
  idf : List F
  clusterer : Option (Text → Option Text)
  stemmer : Option (Text → Text)

/-- `get_builtin_entity_feature_name` (src/intent_classifier/featurizer.rs:384-390). -/
def builtinFeatureName (fns : TextFns) (env : FeatEnv) (k : Kind) : Text :=
  "builtinentityfeature".toList ++ joinWith [] (fns.tokenizeLight (fns.lower (env.names.identifier k)))

/-- `get_custom_entity_feature_name` (src/intent_classifier/featurizer.rs:392-395). -/
def customFeatureName (fns : TextFns) (name : Text) : Text :=
  "entityfeature".toList ++ joinWith [] (fns.tokenizeLight (fns.lower name))

/-- `get_word_clusters` (src/intent_classifier/featurizer.rs:397-407). -/
def getWordClusters (fns : TextFns) (env : FeatEnv) (toks : List Text) (getCluster : Text → Option Text) : List Text :=
  sortTexts ((env.allNgrams toks toks.length).filterMap fun g => getCluster (fns.lower g))

/-- `normalize_stem` (src/intent_classifier/featurizer.rs:409-413). -/
def normalizeStem (fns : TextFns) (toks : List Text) (stemmer : Option (Text → Text)) : List Text :=
  match stemmer with
  | some stem => toks.map fun t => stem (fns.normalize t)
  | none => toks.map fns.normalize

/-- The first loop of `transform` (src/intent_classifier/featurizer.rs:223-230): counts, and the set of
indexes met (`HashSet::insert`).  `features[*word_idx]` panics out of bounds. -/
def countWords {F : Type} (ops : FloatOps F) (vocabulary : Map Text Nat) :
    List Text → List F × List Nat → Outcome (List F × List Nat)
  | [], st => .ok st
  | word :: words, (features, matched) =>
    match vocabulary.get word with
    | none => countWords ops vocabulary words (features, matched)
    | some ix =>
      if ix < features.length then
        countWords ops vocabulary words
          (features.modify ix (fun c => ops.add c ops.one), if matched.contains ix then matched else matched ++ [ix])
      else .panic

/-- The second loop of `transform` (src/intent_classifier/featurizer.rs:232-234), over the set in hash
order; both index operations panic. -/
def applyIdf {F : Type} (ops : FloatOps F) (idf : List F) : List Nat → List F → Outcome (List F)
  | [], features => .ok features
  | ix :: ixs, features =>
    match idf[ix]? with
    | none => .panic
    | some d =>
      if ix < features.length then applyIdf ops idf ixs (features.modify ix (fun c => ops.mul c d))
      else .panic

/-- Normalisation (src/intent_classifier/featurizer.rs:236-239). -/
def normalizeVector {F : Type} (ops : FloatOps F) (features : List F) : List F :=
  let l2 := ops.sqrt (features.foldl (fun norm v => ops.add norm (ops.mul v v)) ops.zero)
  let safe := if ops.pos l2 then l2 else ops.one
  features.map fun c => ops.div c safe

/-- The numeric part of `transform` (src/intent_classifier/featurizer.rs:220-240) for the extracted
words.  `values().max().unwrap()` panics on an empty vocabulary. -/
def tfidfVector {F : Type} (ops : FloatOps F) (o : HashOrd) (v : Tfidf F) (words : List Text) :
    Outcome (List F) := do
  let maxIx ← Outcome.unwrap (v.vocabulary.map Prod.snd).max?
  let counted ← countWords ops v.vocabulary words (List.replicate (maxIx + 1) ops.zero, [])
  let features ← applyIdf ops v.idf (o.order 0 counted.2) counted.1
  .ok (normalizeVector ops features)

/-- `TfidfVectorizer::transform` (src/intent_classifier/featurizer.rs:178-241). -/
def Tfidf.transform {F : Type} (ops : FloatOps F) (env : FeatEnv) (o : HashOrd) (v : Tfidf F) (utterance : Text) :
    Prog (List F) :=
  let toks := v.fns.tokenizeLight utterance
  let normalized := normalizeStem v.fns toks v.stemmer
  .builtinCached utterance (some v.scope) fun bs =>
    .custom (joinWith [' '] normalized) none 0 fun cs =>
      let clusters := match v.clusterer with
        | some getCluster => getWordClusters v.fns env toks getCluster
        | none => []
      Prog.ofOutcome (tfidfVector ops o v
        (normalized ++ sortTexts (bs.map fun b => builtinFeatureName v.fns env b.kind) ++
          cs.map (fun c => customFeatureName v.fns c.identifier) ++ clusters))

/-- `CooccurrenceVectorizer` (src/intent_classifier/featurizer.rs:244-253), with the text functions of its
language. -/
structure Cooc where
  fns : TextFns
  scope : List Kind
  wordPairs : Map (Text × Text) Nat
  filterStopWords : Bool
  windowSize : Option Nat
  keepOrder : Bool
  unknownWord : Option Text

/-- `word_pairs` of `CooccurrenceVectorizer::new` (src/intent_classifier/featurizer.rs:287-291): the
table of the model, from indexes to pairs, turned around (later entries replace earlier ones). -/
def invertPairs (o : HashOrd) (m : Map Nat (Text × Text)) : Map (Text × Text) Nat :=
  (o.order 0 m).foldl (fun acc e => acc.insert e.2 e.1) []

/-- `placeholder_fn` (src/intent_classifier/featurizer.rs:350-354). -/
def coocPlaceholder (fns : TextFns) (kind : Text) : Text := fns.upper (joinWith [] (fns.tokenizeLight kind))

/-- Filter of `extract_word_pairs` (src/intent_classifier/featurizer.rs:357-363). -/
def Cooc.filterTokens (stopWords : List Text) (v : Cooc) (toks : List Text) : List Text :=
  toks.filter fun t => !(v.filterStopWords && stopWords.contains t) && !(some t == v.unknownWord)

/-- The pair of two words (src/intent_classifier/featurizer.rs:372-377). -/
def Cooc.pairOf (v : Cooc) (t other : Text) : Text × Text :=
  if v.keepOrder || decide (t < other) then (t, other) else (other, t)

/-- The pairs of `extract_word_pairs` (src/intent_classifier/featurizer.rs:364-380), for the filtered
tokens, as long as `i + window_size + 1` does not overflow. -/
def Cooc.pairsFrom (v : Cooc) : List Text → List (Text × Text)
  | [] => []
  | t :: rest =>
    ((match v.windowSize with
      | some w => rest.take w
      | none => rest).map (v.pairOf t)) ++ v.pairsFrom rest

/-- Whether `i + window_size + 1` overflows a `usize` for the last `i`, hence for one of them
(src/intent_classifier/featurizer.rs:370).  A debug build panics; a release build computes a `max_index` of at most
`i`, and the slice `[i + 1..max_index]` panics. -/
def Cooc.windowOverflows (v : Cooc) (filtered : List Text) : Bool :=
  match v.windowSize with
  | some w => decide (filtered ≠ [] ∧ usizeCount ≤ filtered.length + w)
  | none => false

/-- `extract_word_pairs` (src/intent_classifier/featurizer.rs:356-381): a set, in hash order. -/
def Cooc.extractWordPairs (env : FeatEnv) (o : HashOrd) (v : Cooc) (toks : List Text) : Outcome (List (Text × Text)) :=
  if v.windowOverflows (v.filterTokens env.stopWords toks) then .panic
  else .ok (o.order 1 (unique (v.pairsFrom (v.filterTokens env.stopWords toks))))

/-- Loop of `transform` (src/intent_classifier/featurizer.rs:341-346); the assignment panics out of
bounds. -/
def setPairs {F : Type} (ops : FloatOps F) (table : Map (Text × Text) Nat) :
    List (Text × Text) → List F → Outcome (List F)
  | [], features => .ok features
  | pair :: pairs, features =>
    match table.get pair with
    | none => setPairs ops table pairs features
    | some ix =>
      if ix < features.length then setPairs ops table pairs (features.set ix ops.one)
      else .panic

/-- `CooccurrenceVectorizer::transform` (src/intent_classifier/featurizer.rs:313-348). -/
def Cooc.transform {F : Type} (ops : FloatOps F) (env : FeatEnv) (o : HashOrd) (v : Cooc) (utterance : Text) :
    Prog (List F) :=
  .builtinCached utterance (some v.scope) fun bs =>
    .custom utterance none 0 fun cs =>
      Prog.ofOutcome (do
        let enriched ← replaceChecked env.debugAssertions utterance
          (bs.map (KindMatch.toMatched env.names) ++ cs.map CustomEntity.toMatched) (coocPlaceholder v.fns)
        let pairs ← v.extractWordPairs env o (v.fns.tokenizeLight enriched.2)
        setPairs ops v.wordPairs pairs (List.replicate v.wordPairs.length ops.zero))

/-- `Featurizer` (src/intent_classifier/featurizer.rs:26-29). -/
structure Featurizer (F : Type) where
  tfidf : Tfidf F
  cooc : Option Cooc

/-- `Featurizer::transform` (src/intent_classifier/featurizer.rs:80-87). -/
def Featurizer.transform {F : Type} (ops : FloatOps F) (env : FeatEnv) (o : HashOrd) (f : Featurizer F)
    (input : Text) : Prog (List F) :=
  (f.tfidf.transform ops env o input).bind fun features =>
    match f.cooc with
    | none => .ret features
    | some v => (v.transform ops env o input).bind fun more => .ret (features ++ more)

/-! ### src/intent_classifier/log_reg_intent_classifier.rs -/

/-- `LogRegIntentClassifier` (src/intent_classifier/log_reg_intent_classifier.rs:21-25).  Scores are
rationals: a finite `f32` is one. -/
structure Classifier where
  intentList : List (Option Text)
  featurizer : Option (Featurizer ℚ)
  logreg : Option (LogReg ℚ)

/-- The closure of `filter` (src/intent_classifier/log_reg_intent_classifier.rs:142-151). -/
def keptByWhitelist (whitelist : Option (List Text)) (res : IntentResult) : Bool :=
  match res.name with
  | some intent =>
    match whitelist with
    | some l => l.contains intent
    | none => true
  | none => true

/-- The ranking for a featurized input (src/intent_classifier/log_reg_intent_classifier.rs:134-153). -/
def Classifier.rank (c : Classifier) (scores : List ℚ) (whitelist : Option (List Text)) : List IntentResult :=
  sortDesc IntentResult.score
    (((c.intentList.zip scores).map fun ns => ⟨ns.1, ns.2⟩).filter (keptByWhitelist whitelist))

/-- `get_intents_with_whitelist` (src/intent_classifier/log_reg_intent_classifier.rs:101-154). -/
def Classifier.getIntentsWithWhitelist (ops : FloatOps ℚ) (env : FeatEnv) (o : HashOrd) (c : Classifier)
    (input : Text) (whitelist : Option (List Text)) : Prog (List IntentResult) :=
  if c.intentList.length ≤ 1 then .ret [⟨(c.intentList.head?).join, 1⟩]
  else if input = [] then .ret (blank c)
  else
    match c.featurizer, c.logreg with
    | some featurizer, some logreg =>
      (featurizer.transform ops env o input).bind fun features =>
        (Prog.ofOutcome (logreg.run ops features)).bind fun scores => .ret (c.rank scores whitelist)
    | _, _ => .ret (blank c)
where
  /-- Answer without features (src/intent_classifier/log_reg_intent_classifier.rs:113-123). -/
  blank (c : Classifier) : List IntentResult :=
    sortDesc IntentResult.score (c.intentList.map fun n => ⟨n, if n = none then 1 else 0⟩)

/-- `get_intent` (src/intent_classifier/log_reg_intent_classifier.rs:76-93). -/
def Classifier.getIntent (ops : FloatOps ℚ) (env : FeatEnv) (o : HashOrd) (c : Classifier) (input : Text)
    (whitelist : Option (List Text)) : Prog IntentResult :=
  (c.getIntentsWithWhitelist ops env o input whitelist).bind fun rs =>
    .ret (match rs with
      | [] => ⟨none, 1⟩
      | r :: _ => r)

/-- `get_intents` (src/intent_classifier/log_reg_intent_classifier.rs:95-97). -/
def Classifier.getIntents (ops : FloatOps ℚ) (env : FeatEnv) (o : HashOrd) (c : Classifier) (input : Text) :
    Prog (List IntentResult) :=
  c.getIntentsWithWhitelist ops env o input none

/-- `compute_features` (src/intent_classifier/log_reg_intent_classifier.rs:158-163). -/
def Classifier.computeFeatures (ops : FloatOps ℚ) (env : FeatEnv) (o : HashOrd) (c : Classifier) (input : Text) :
    Prog (List ℚ) :=
  match c.featurizer with
  | some featurizer => featurizer.transform ops env o input
  | none => .ret []

end Snips
