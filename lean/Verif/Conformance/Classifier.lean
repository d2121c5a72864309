import Verif.Conformance.Support
import Verif.Model.Classifier
import Verif.Model.Resources

/-! # Tests of src/resources and src/intent_classifier

Numbers are rationals; the square root and the exponential are approximated well enough for the tolerance of
10⁻⁶ used in the tests. -/

namespace Snips.Conformance

/-! ### src/resources -/

/-- `test_hashmap_word_clusterer_with_non_u16_values` (src/resources/word_clusterer.rs:87-110). -/
def clustererT : Outcome WordClusterer := WordClusterer.fromReader plainFns.hashStr .insertion
  [.ok [s "hello", s "42"], .ok [s "world", s "123"], .ok [s "\"yolo", s "cluster_which_is_not_u16"]]

example : (match clustererT with
    | .ok w => match w with
      | .textual _ => [s "hello", s "world", s "\"yolo", s "unknown"].map (w.getCluster plainFns.hashStr)
      | .numeric _ => []
    | _ => []) = [some (s "42"), some (s "123"), some (s "cluster_which_is_not_u16"), none] := by decide +kernel

/-- `test_hashmap_word_clusterer_with_u16_values` (src/resources/word_clusterer.rs:112-135). -/
def clustererN : Outcome WordClusterer := WordClusterer.fromReader plainFns.hashStr .insertion
  [.ok [s "hello", s "42"], .ok [s "world", s "123"], .ok [s "yolo", s "65500"]]

example : (match clustererN with
    | .ok w => match w with
      | .textual _ => []
      | .numeric _ => [s "hello", s "world", s "yolo", s "unknown"].map (w.getCluster plainFns.hashStr)
    | _ => []) = [some (s "42"), some (s "123"), some (s "65500"), none] := by decide +kernel

/-- `test_hashset_gazetteer` (src/resources/gazetteer.rs:50-70). -/
def gazetteer : Outcome Gazetteer := Gazetteer.fromReader plainFns.hashStr
  [.ok [], .ok (s "dog"), .ok (s "cat"), .ok (s "bear"), .ok (s "crocodile")]

example : (match gazetteer with
    | .ok g => [s "dog", s "crocodile", s "bird"].map (g.contains plainFns.hashStr)
    | _ => []) = [true, true, false] := by decide +kernel

/-- `test_hashmap_stemmer` (src/resources/stemmer.rs:61-80). -/
def stemmer : Outcome Stemmer := Stemmer.fromReader plainFns.hashStr
  [.ok [s "investigate", s "investigated", s "investigation", s "\"investigate"],
    .ok [s "do", s "done", s "don't", s "doing", s "did", s "does"]]

example : (match stemmer with
    | .ok st => [s "don't", s "does", s "\"investigate", s "unknown"].map (st.stem plainFns)
    | _ => []) = [s "do", s "do", s "investigate", s "unknown"] := by decide +kernel

/-! ### src/intent_classifier -/

/-- Texts of all the runs of consecutive tokens, joined by a space. -/
def ngrams (toks : List Text) (_ : Nat) : List Text :=
  (toks.tails.flatMap fun t => (t.inits.filter fun i => !i.isEmpty)).map (joinWith [' '])

/-- Like `plainFns`, normalisation also removing the diaereses of the tests. -/
def accentFns : TextFns :=
  { plainFns with
    normalize := List.map fun c => if c = 'ë' then 'e' else if c = 'ï' then 'i' else c.toLower
    tokenizeLight := fun t => (t.splitOn ' ').flatMap fun w =>
      (w.splitOn '/').filterMap fun x => let y := x.filter (· ≠ ','); if y = [] then none else some y }

/-- Environment of the featurizers. -/
def featEnv (stop : List Text) : FeatEnv := ⟨kinds, ngrams, stop, true⟩

/-- `√x` to eight places. -/
def approxSqrt (x : ℚ) : ℚ := (Nat.sqrt (x * 10 ^ 16).floor.toNat : ℚ) / 10 ^ 8

/-- `eˣ` by its series, for small arguments. -/
def approxExp (x : ℚ) : ℚ := ((List.range 40).foldl (fun (st : ℚ × ℚ) i => (st.1 + st.2, st.2 * x / (i + 1))) (0, 1)).1

/-- Operations on rationals. -/
def ratOps : FloatOps ℚ where
  zero := 0
  one := 1
  add := (· + ·)
  sub := (· - ·)
  mul := (· * ·)
  div := (· / ·)
  neg := fun x => -x
  exp := approxExp
  sqrt := approxSqrt
  pos := fun x => decide (0 < x)
  dot := fun a b => (List.zipWith (· * ·) a b).foldl (· + ·) 0

/-- `assert_epsilon_eq_array1(_, _, 1e-6)` (src/testutils.rs). -/
def closeTo : List ℚ → Outcome (List ℚ) → Bool
  | expected, .ok l => expected.length = l.length && (expected.zip l).all fun p => decide (|p.1 - p.2| < 1 / 10 ^ 6)
  | _, _ => false

/-- The stemmer of the tests of the featurizers. -/
def beauti (t : Text) : Text := if accentFns.normalize t = s "beautiful" then s "beauti" else t

/-- The vectorizer of the tests. -/
def tfidfModel : Tfidf ℚ where
  fns := accentFns
  scope := [0]
  vocabulary := [(s "awful", 0), (s "beauti", 1), (s "bird", 2), (s "blue", 3), (s "hello", 4), (s "nice", 5),
    (s "world", 6), (s "entityfeatureanimal", 7), (s "entityfeatureword", 8), (s "entityfeaturegreeting", 9),
    (s "builtinentityfeaturesnipsnumber", 10)]
  idf := [2.252762968495368, 2.252762968495368, 1.5596157879354227, 2.252762968495368, 1.8472978603872037,
    1.8472978603872037, 1.5596157879354227, 0.7, 1.7, 2.7, 1.0]
  clusterer := none
  stemmer := some beauti

def birdEntities (sentence : Text) : List (Text × List CustomEntity) :=
  [(sentence, [⟨s "hello", s "hello", [], ⟨0, 5⟩, s "greeting"⟩, ⟨s "hello", s "hello", [], ⟨0, 5⟩, s "word"⟩,
    ⟨s "bird", s "bird", [], ⟨11, 15⟩, s "animal"⟩, ⟨s "bird", s "bird", [], ⟨31, 35⟩, s "animal"⟩])]

/-- Expected features, the same in both tests. -/
def birdFeatures : List ℚ := [0, 0.4022979853278378, 0.5570317855419762, 0, 0.3298901029212854, 0, 0,
  0.25001173551567585, 0.30358567884046356, 0.4821654899230893, 0.17857981108262563]

/-! `test_transform` (src/intent_classifier/featurizer.rs:444-576) -/

example : closeTo birdFeatures (((⟨tfidfModel, none⟩ : Featurizer ℚ).transform ratOps (featEnv []) .insertion
      (s "Hëllo this bïrd is a beautiful Bïrd with 22 wings")).run
    (mocked [(s "Hëllo this bïrd is a beautiful Bïrd with 22 wings", [⟨s "22", ⟨41, 43⟩, .builtin 22, [], 0⟩])]
      (birdEntities (s "hello this bird is a beauti bird with 22 wings")))) = true := by decide +kernel

/-! `test_transform_with_cooccurrence` (src/intent_classifier/featurizer.rs:578-776) -/

def coocModel : Cooc where
  fns := accentFns
  scope := [0]
  wordPairs := invertPairs .insertion
    [(0, (s "ANIMAL", s "beautiful")), (1, (s "hello", s "ANIMAL")), (2, (s "hello", s "is")),
      (3, (s "this", s "beautiful")), (4, (s "with", s "SNIPSNUMBER")), (5, (s "hello", s "wings"))]
  filterStopWords := true
  windowSize := some 2
  keepOrder := true
  unknownWord := none

def birdText : Text := s "hello this bird is a beautiful bird with 22 wings"

example : closeTo (birdFeatures ++ [1, 0, 0, 0, 1, 0])
    (((⟨tfidfModel, some coocModel⟩ : Featurizer ℚ).transform ratOps (featEnv [s "a"]) .insertion birdText).run
    (mocked [(birdText, [⟨s "22", ⟨41, 43⟩, .builtin 22, [], 0⟩])]
      (birdEntities birdText ++ birdEntities (s "hello this bird is a beauti bird with 22 wings")))) = true := by
  decide +kernel

/-! `test_get_word_cluster_features` (src/intent_classifier/featurizer.rs:778-799) -/

example : getWordClusters accentFns (featEnv []) (accentFns.tokenizeLight (s "I, love House, muSic"))
      (fun w => [(s "love", s "cluster_love"), (s "house", s "cluster_house")].lookup w) =
    [s "cluster_house", s "cluster_love"] := by decide +kernel

/-! `test_extract_word_pairs`, `test_extract_word_pairs_unordered` (src/intent_classifier/featurizer.rs:801-919) -/

example : (⟨accentFns, [], [], false, none, true, some (s "d")⟩ : Cooc).extractWordPairs (featEnv []) .insertion
      [s "a", s "c", s "b", s "d"] = .ok [(s "a", s "c"), (s "a", s "b"), (s "c", s "b")] := by decide +kernel

example : (⟨accentFns, [], [], false, none, false, some (s "d")⟩ : Cooc).extractWordPairs (featEnv []) .insertion
      [s "a", s "c", s "b", s "d"] = .ok [(s "a", s "c"), (s "a", s "b"), (s "b", s "c")] := by decide +kernel

/-! `test_multiclass_logistic_regression`, `test_multiclass_logistic_regression_when_binary`
(src/intent_classifier/logreg.rs:67-110); `LogReg.new` takes the weights by class. -/

/-- Result of the regression. -/
def regress (intercept : List ℚ) (coeffs : List (List ℚ)) (features : List ℚ) : Outcome (List ℚ) :=
  (LogReg.new intercept coeffs).bind fun m => m.run ratOps features

example : closeTo [0.7109495, 0.3384968, 0.8710191] (regress [0.98, 0.32, -0.76]
    [[2.5, 1.2, 1.5, -0.9], [-0.6, 1.2, 0.1, 1.4], [0.5, -2.7, -3.2, 1.8]] [0.4, -2.3, 1.9, 1.3]) = true := by
  decide +kernel

example : closeTo [0.2890504, 0.7109495] (regress [0.98] [[2.5, 1.2, 1.5, -0.9]] [0.4, -2.3, 1.9, 1.3]) = true := by
  decide +kernel

/-! ### src/intent_classifier/log_reg_intent_classifier.rs -/

/-- `get_sample_log_reg_classifier` (src/intent_classifier/log_reg_intent_classifier.rs:179-323). -/
def beverage : Classifier where
  intentList := [some (s "MakeCoffee"), some (s "MakeTea"), none]
  featurizer := some ⟨{
    fns := accentFns
    scope := [0]
    vocabulary := [(s "?", 0), (s "and", 1), (s "boiling", 2), (s "brew", 3), (s "builtinentityfeaturesnipsnumber", 4),
      (s "can", 5), (s "coffee", 6), (s "cold", 7), (s "cup", 8), (s "cups", 9),
      (s "entityfeaturetemperature", 10), (s "hot", 11), (s "make", 12), (s "me", 13), (s "please", 14),
      (s "pls", 15), (s "prepare", 16), (s "tea", 17), (s "unknownword", 18), (s "want", 19), (s "you", 20)]
    idf := [4.15700042, 3.38381053, 4.33932198, 4.00284974, 2.36524095, 3.38381053, 2.90423745, 4.15700042, 2.72988407,
      3.11554655, 3.17617117, 3.55086462, 3.00432091, 3.00432091, 3.75153531, 4.15700042, 3.38381053, 2.90423745,
      1.15296934, 4.15700042, 3.17617117]
    clusterer := none
    stemmer := none }, none⟩
  logreg := match LogReg.new [-0.06864156, -0.08753256, -0.05181312]
      [[-0.55510086, -0.86491577, -0.27719474, 1.01186938, 0.90334115, 0.45271861, 2.40544488, -0.36875983,
          0.99532187, 0.02645324, 0, -0.74874958, 0.14024503, 0.1279823, 0.97976051, -0.36875983, 0.45271861,
          -1.3218943, -2.84005242, -0.36875983, 0.15139972],
        [0.7976861, -0.95653898, 0.68651478, -0.70297145, 0.05727077, 0.02173045, -1.65874611, 0.7715152,
          0.15168923, 0.87229664, 0, 1.60177833, 0.80573202, 0.83453344, -0.85976499, 0.7715152, 0.02173045,
          2.63325741, -2.38149177, 0.7715152, -0.27275113],
        [-0.26737936, 0.68592655, -0.33716278, -0.48817112, -1.27965565, -0.59612932, -0.99629522, -0.40549986,
          -1.12883455, -0.99187234, 0, -0.68324725, -0.9105869, -0.92031765, -0.31696237, -0.40549986,
          -0.59612932, -1.12923572, 1.99231387, -0.40549986, -0.32869601]] with
    | .ok m => some m
    | _ => none

/-- The entities of the sentence of the tests. -/
def twoCups : World := mockedBuiltin [(s "Make me two cups of tea", [⟨s "two", ⟨8, 11⟩, .builtin 2, [], 0⟩])]

/-- Result of `get_intent`. -/
def getIntentB (t : String) (wl : Option (List Text)) : Outcome IntentResult :=
  (beverage.getIntent ratOps (featEnv []) .insertion (s t) wl).run twoCups

/-! `test_get_intent`, `test_get_intents`, `test_filter_intents` (lines 353-419) -/

example : (match getIntentB "Make me two cups of tea" none with
    | .ok r => decide (r.name = some (s "MakeTea")) && closeTo [0.9088109819597295] (.ok [r.score])
    | _ => false) = true := by decide +kernel

example : (match (beverage.getIntents ratOps (featEnv []) .insertion (s "Make me two cups of tea")).run twoCups with
    | .ok rs => rs.map IntentResult.name
    | _ => []) = [some (s "MakeTea"), some (s "MakeCoffee"), none] := by decide +kernel

example : (match getIntentB "Make me two cups of tea" (some [s "MakeCoffee", s "MakeTea"]),
      getIntentB "Make me two cups of tea" (some [s "MakeCoffee"]), getIntentB "bla bla bla" (some [s "MakeCoffee"]) with
    | .ok a, .ok b, .ok c => [a.name, b.name, c.name]
    | _, _, _ => []) = [some (s "MakeTea"), some (s "MakeCoffee"), none] := by decide +kernel

end Snips.Conformance
