import Verif.Model.Probabilistic
import Mathlib.Analysis.SpecialFunctions.Exp
import Mathlib.Analysis.SpecialFunctions.Sqrt

/-! Vocabulary for statements about the classifier. -/

namespace Snips

/-- Exact real arithmetic. -/
noncomputable def realOps : FloatOps ℝ where
  zero := 0
  one := 1
  add := (· + ·)
  sub := (· - ·)
  mul := (· * ·)
  div := (· / ·)
  neg := Neg.neg
  exp := Real.exp
  sqrt := Real.sqrt
  pos x := open Classical in decide (0 < x)
  dot a b := (List.zipWith (· * ·) a b).sum

/-- The logistic function. -/
noncomputable def sigmoid (x : ℝ) : ℝ := 1 / (1 + Real.exp (-x))

/-- `z` is the linear score of class `j`: the intercept plus the sum of the features weighted with the
coefficients of the class, all of which exist. -/
def LinearScore (intercept : List ℝ) (coeffs : List (List ℝ)) (features : List ℝ) (j : Nat) (z : ℝ) : Prop :=
  ∃ (b : ℝ) (ws : List ℝ), intercept[j]? = some b ∧ ws.length = features.length ∧
    (∀ i < features.length, ((coeffs[j]?).bind fun row => row[i]?) = ws[i]?) ∧
    z = b + (List.zipWith (· * ·) features ws).sum

/-- Operations on `f32` values rounded by `rd`, with any approximation of the exponential that is
non-negative and monotone (on finite values). -/
structure RoundedOps (rd : Rounding) (ops : FloatOps ℚ) : Prop where
  one : ops.one = 1
  neg : ∀ x, ops.neg x = -x
  add : ∀ x y, ops.add x y = rd.rnd (x + y)
  sub : ∀ x y, ops.sub x y = rd.rnd (x - y)
  div : ∀ x y, ops.div x y = rd.rnd (x / y)
  exp_nonneg : ∀ x, 0 ≤ ops.exp x
  exp_mono : ∀ x y, x ≤ y → ops.exp x ≤ ops.exp y

/-- Number of words with the given vocabulary index. -/
def termCount (vocabulary : Map Text Nat) (words : List Text) (ix : Nat) : Nat :=
  (words.filter fun w => vocabulary.get w = some ix).length

/-- The word of a token: normalized, and stemmed if there is a stemmer. -/
def tfidfWord (fns : TextFns) (stemmer : Option (Text → Text)) (tok : Text) : Text :=
  match stemmer with
  | some stem => stem (fns.normalize tok)
  | none => fns.normalize tok

/-- The name standing for an entity: a prefix, then the tokens of the lowercased identifier. -/
def entityWord (fns : TextFns) (pre identifier : Text) : Text :=
  pre ++ (fns.tokenizeLight (fns.lower identifier)).flatten

/-- The words the tf-idf vectorizer looks at, when the extractors answer `bs` and `cs`: normalized tokens,
names for the entities, word clusters of n-grams of the tokens; in any order. -/
def TfidfWords {F : Type} (env : FeatEnv) (v : Tfidf F) (utterance : Text) (bs : List BuiltinEntity)
    (cs : List CustomEntity) (words : List Text) : Prop :=
  words.Perm ((v.fns.tokenizeLight utterance).map (tfidfWord v.fns v.stemmer) ++
    bs.map (fun b => entityWord v.fns "builtinentityfeature".toList (env.names.identifier b.kind)) ++
    cs.map (fun c => entityWord v.fns "entityfeature".toList c.identifier) ++
    match v.clusterer with
    | some getCluster => (env.allNgrams (v.fns.tokenizeLight utterance)
        (v.fns.tokenizeLight utterance).length).filterMap fun g => getCluster (v.fns.lower g)
    | none => [])

/-- The answers of the extractors a tf-idf vectorizer uses: builtin entities of its scope in the utterance,
custom entities in the normalized utterance. -/
def TfidfEntities {F : Type} (w : World) (v : Tfidf F) (utterance : Text)
    (bs : List BuiltinEntity) (cs : List CustomEntity) : Prop :=
  w.builtin utterance (some v.scope) 0 = .ok bs ∧
  w.custom (joinWith [' '] ((v.fns.tokenizeLight utterance).map (tfidfWord v.fns v.stemmer))) none 0 = .ok cs

/-- `out` is the normalised tf-idf vector of the words. -/
structure TfidfVector (v : Tfidf ℝ) (words : List Text) (out : List ℝ) : Prop where
  /-- one entry for each number up to the greatest index of the vocabulary -/
  length : ∀ ix, ix < out.length ↔ ∃ e ∈ v.vocabulary, ix ≤ e.2
  /-- zero on terms that do not occur -/
  absent : ∀ ix x, out[ix]? = some x → termCount v.vocabulary words ix = 0 → x = 0
  /-- proportional to count times inverse document frequency on terms that occur -/
  proportional : ∃ k : ℝ, 0 < k ∧ ∀ ix x, out[ix]? = some x → 0 < termCount v.vocabulary words ix →
    ∃ d, v.idf[ix]? = some d ∧ x = termCount v.vocabulary words ix * d / k
  /-- unit norm if a term with non-zero inverse document frequency occurs -/
  unit : (∃ ix d, 0 < termCount v.vocabulary words ix ∧ v.idf[ix]? = some d ∧ d ≠ 0) →
    (out.map (fun x => x * x)).sum = 1

/-- Two words of the list, at a distance within the window, form the pair: in order, or smaller one first
when order is ignored. -/
def CoOccur (window : Option Nat) (keepOrder : Bool) (toks : List Text) (pair : Text × Text) : Prop :=
  ∃ i j a b, i < j ∧ (∀ w, window = some w → j - i ≤ w) ∧ toks[i]? = some a ∧ toks[j]? = some b ∧
    pair = if keepOrder then (a, b) else if a < b then (a, b) else (b, a)

/-- The tokens taken into account: no stop words if those are filtered, no replacement for unknown words. -/
def RelevantTokens (env : FeatEnv) (v : Cooc) (toks kept : List Text) : Prop :=
  kept = toks.filter fun t => ¬(v.filterStopWords = true ∧ t ∈ env.stopWords) ∧ v.unknownWord ≠ some t

/-- A consistently numbered pair table: distinct pairs, distinct indexes, all below the number of pairs. -/
structure Cooc.Consistent (v : Cooc) : Prop where
  pairs : (v.wordPairs.map Prod.fst).Nodup
  indexes : (v.wordPairs.map Prod.snd).Nodup
  bounded : ∀ e ∈ v.wordPairs, e.2 < v.wordPairs.length

end Snips
