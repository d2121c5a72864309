import Verif.Spec.Binary32
import Verif.Spec.SinglePrecision
import Verif.Spec.Nan

/-! Vocabulary for statements about the classifier in binary32, with infinities, NaN and subnormal numbers. -/

namespace Snips

/-- The results a machine may compute for the sum of the products of the pairs: in any order, with any grouping of the
summands, every product and every sum being rounded to binary32, or a product of numbers being added with one rounding
only. -/
inductive Dotted32 : List (Fl × Fl) → Fl → Prop
  | nil : Dotted32 [] (.fin 0)
  | product (x y : Fl) : Dotted32 [(x, y)] (Fl.mul round32 x y)
  | fused {l : List (Fl × Fl)} {a : ℚ} (x y : ℚ) :
      Dotted32 l (.fin a) → Dotted32 ((.fin x, .fin y) :: l) (Fl.round round32 (a + x * y))
  | sum {l l' : List (Fl × Fl)} {a b : Fl} : Dotted32 l a → Dotted32 l' b → Dotted32 (l ++ l') (Fl.add round32 a b)
  | perm {l l' : List (Fl × Fl)} {a : Fl} : Dotted32 l a → l.Perm l' → Dotted32 l' a

/-- The operations of a machine on binary32 numbers: the four operations and comparison are those of IEEE 754; the square
root of a number is off by at most half a unit in the last of 24 places; the exponential of a number is off by at most four
times as much, or by the least positive number, and is infinite only beyond `2^127`; inner products are sums of rounded
products in any order. -/
structure Machine32 (ops : FloatOps Fl) : Prop where
  zero : ops.zero = .fin 0
  one : ops.one = .fin 1
  add : ∀ x y, ops.add x y = Fl.add round32 x y
  sub : ∀ x y, ops.sub x y = Fl.sub round32 x y
  mul : ∀ x y, ops.mul x y = Fl.mul round32 x y
  div : ∀ x y, ops.div x y = Fl.div round32 x y
  neg : ∀ x, ops.neg x = Fl.neg x
  pos : ∀ x, ops.pos x = Fl.isPos x
  sqrt : ∀ x, Binary32 x → 0 ≤ x →
    ∃ y : ℚ, ops.sqrt (.fin x) = .fin y ∧ |(y : ℝ) - Real.sqrt x| ≤ 1 / 2 ^ 24 * Real.sqrt x
  sqrtInf : ops.sqrt (.inf false) = .inf false
  exp : ∀ x, Binary32 x →
    (∃ y : ℚ, ops.exp (.fin x) = .fin y ∧ 0 ≤ y ∧
      |(y : ℝ) - Real.exp x| ≤ 1 / 2 ^ 22 * Real.exp x + 1 / 2 ^ 149) ∨
    ops.exp (.fin x) = .inf false ∧ 2 ^ 127 ≤ Real.exp x
  dot : ∀ a b, Dotted32 (a.zip b) (ops.dot a b)

/-- The numbers as finite `f32` values. -/
def fins (l : List ℚ) : List Fl := l.map .fin

/-- The same vectorizer, its numbers being `f32` values. -/
def Tfidf.toFl (v : Tfidf ℚ) : Tfidf Fl := ⟨v.fns, v.scope, v.vocabulary, fins v.idf, v.clusterer, v.stemmer⟩

/-- The same featurizer, its numbers being `f32` values. -/
def Featurizer.toFl (f : Featurizer ℚ) : Featurizer Fl := ⟨f.tfidf.toFl, f.cooc⟩

/-- A binary32 number that is 0 or has a magnitude between the two powers of 2. -/
def Between32 (low high : ℤ) (q : ℚ) : Prop :=
  Binary32 q ∧ (q = 0 ∨ (2 : ℚ) ^ low ≤ |q| ∧ |q| ≤ (2 : ℚ) ^ high)

/-- A model with numbers of an ordinary magnitude: the inverse document frequencies are between `2^(-10)` and `2^10`, the
intercepts and coefficients between `2^(-40)` and `2^40`, or 0. -/
structure OrdinaryModel (idf intercept : List ℚ) (coeffs : List (List ℚ)) : Prop where
  idf : ∀ d ∈ idf, Between32 (-10) 10 d
  intercept : ∀ b ∈ intercept, Between32 (-40) 40 b
  coeffs : ∀ row ∈ coeffs, ∀ c ∈ row, Between32 (-40) 40 c

/-- The classifier has two intents or more and holds the numbers of the model as `f32` values. -/
structure FlClassifier.Holds (c : FlClassifier) (f : Featurizer ℚ) (intercept : List ℚ) (coeffs : List (List ℚ)) : Prop where
  intents : 2 ≤ c.intentList.length
  featurizer : c.featurizer = some f.toFl
  logreg : ∃ m, LogReg.new (fins intercept) (coeffs.map fins) = .ok m ∧ c.logreg = some m

/-- The features and the scores of the model in exact arithmetic. -/
structure ExactScores (env : FeatEnv) (o : HashOrd) (w : World) (f : Featurizer ℚ) (intercept : List ℚ) (coeffs : List (List ℚ))
    (input : Text) (features scores : List ℝ) : Prop where
  exactFeatures : (f.toReal.transform realOps env o input).run w = .ok features
  exactScores : ∃ m, LogReg.new (reals intercept) (coeffs.map reals) = .ok m ∧ m.run realOps features = .ok scores

end Snips
