import Verif.Spec.Classifier
import Verif.Proofs.Float32

/-! Vocabulary for statements about the classifier in single precision. -/

namespace Snips

/-- The results a machine may compute for the sum of the products of the pairs: in any order, with any grouping of the
summands, every product and every sum being rounded, or a product being added with one rounding only. -/
inductive Dotted : List (ℚ × ℚ) → ℚ → Prop
  | nil : Dotted [] 0
  | product (x y : ℚ) : Dotted [(x, y)] (rounding24.rnd (x * y))
  | fused {l : List (ℚ × ℚ)} {a : ℚ} (x y : ℚ) : Dotted l a → Dotted ((x, y) :: l) (rounding24.rnd (a + x * y))
  | sum {l l' : List (ℚ × ℚ)} {a b : ℚ} : Dotted l a → Dotted l' b → Dotted (l ++ l') (rounding24.rnd (a + b))
  | perm {l l' : List (ℚ × ℚ)} {a : ℚ} : Dotted l a → l.Perm l' → Dotted l' a

/-- Single precision without limits of the exponent: the four operations give the number of 24 binary digits nearest to
the exact result, and so does, up to the choice of a neighbour, the square root; the exponential is off by at most four
times as much; inner products are sums of rounded products in any order. -/
structure MachineOps (ops : FloatOps ℚ) : Prop where
  zero : ops.zero = 0
  one : ops.one = 1
  add : ∀ x y, ops.add x y = rounding24.rnd (x + y)
  sub : ∀ x y, ops.sub x y = rounding24.rnd (x - y)
  mul : ∀ x y, ops.mul x y = rounding24.rnd (x * y)
  div : ∀ x y, ops.div x y = rounding24.rnd (x / y)
  neg : ∀ x, ops.neg x = -x
  exp : ∀ x, |(ops.exp x : ℝ) - Real.exp x| ≤ 1 / 2 ^ 22 * Real.exp x
  sqrt : ∀ x, 0 ≤ x → |(ops.sqrt x : ℝ) - Real.sqrt x| ≤ 1 / 2 ^ 24 * Real.sqrt x
  pos : ∀ x, ops.pos x = true ↔ 0 < x
  dot : ∀ a b, Dotted (a.zip b) (ops.dot a b)

/-- The numbers as real numbers. -/
def reals (l : List ℚ) : List ℝ := l.map fun q : ℚ => (q : ℝ)

/-- The same vectorizer, its numbers being taken for real numbers. -/
def Tfidf.toReal (v : Tfidf ℚ) : Tfidf ℝ := ⟨v.fns, v.scope, v.vocabulary, reals v.idf, v.clusterer, v.stemmer⟩

/-- The same featurizer, its numbers being taken for real numbers. -/
def Featurizer.toReal (f : Featurizer ℚ) : Featurizer ℝ := ⟨f.tfidf.toReal, f.cooc⟩

/-- The sum of the absolute values of the summands of the linear score of class `j`. -/
def LinearMass (intercept : List ℝ) (coeffs : List (List ℝ)) (features : List ℝ) (j : Nat) (mass : ℝ) : Prop :=
  ∃ (b : ℝ) (ws : List ℝ), intercept[j]? = some b ∧ ws.length = features.length ∧
    (∀ i < features.length, ((coeffs[j]?).bind fun row => row[i]?) = ws[i]?) ∧
    mass = |b| + (List.zipWith (fun x w => |x * w|) features ws).sum

/-- Number of features that are not zero. -/
noncomputable def activeFeatures (features : List ℝ) : Nat := open Classical in features.countP (fun x => x ≠ 0)

/-- Relative error of a sum of `n` active features times weights. -/
noncomputable def linearMargin (n : Nat) : ℝ := (1 + 1 / 2 ^ 23) ^ (2 * n + 6) - 1

/-- The texts the vectorizer counts are fewer than `2^24`. -/
def FewWords {F : Type} (env : FeatEnv) (w : World) (v : Tfidf F) (utterance : Text) : Prop :=
  ∀ bs cs words, TfidfEntities w v utterance bs cs → TfidfWords env v utterance bs cs words → words.length < 2 ^ 24

/-- `e` bounds the error of the `j`-th score: an absolute error of the logistic function, and a quarter of the error of
the linear score the score is computed from (a model with one row has two scores, both computed from that row). -/
def ScoreError (intercept : List ℝ) (coeffs : List (List ℝ)) (features : List ℝ) (j : Nat) (e : ℝ) : Prop :=
  ∃ mass, LinearMass intercept coeffs features (if intercept.length = 1 then 0 else j) mass ∧
    e = 1 / 2 ^ 20 + linearMargin (activeFeatures features) * mass / 4

end Snips
