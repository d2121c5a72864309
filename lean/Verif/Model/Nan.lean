import Verif.Model.Classifier
import Verif.Model.Json

/-! # The classifier with infinities and NaN

The rest of the model takes scores to be finite numbers.  Here the same code (src/intent_classifier/logreg.rs,
src/intent_classifier/log_reg_intent_classifier.rs) works on `f32` values that may be infinite or not a number. -/

namespace Snips

/-- `f32` values: not a number, an infinity with its sign, or a finite number.  Simplification: one zero, which divides
as the positive zero. -/
inductive Fl where
  | nan
  | inf (negative : Bool)
  | fin (q : ℚ)
deriving DecidableEq

/-- Rounding to `f32`: to a nearby number, the largest of which is `top`. -/
structure FlRound where
  rnd : ℚ → ℚ
  top : ℚ
  mono : ∀ {x y : ℚ}, x ≤ y → rnd x ≤ rnd y
  zero : rnd 0 = 0
  one : rnd 1 = 1
  rndTop : rnd top = top
  rndBottom : rnd (-top) = -top
  one_le : 1 ≤ top

namespace Fl

/-- The `f32` for a number: infinite if it is too large. -/
def round (r : FlRound) (q : ℚ) : Fl :=
  if r.top < r.rnd q then inf false else if r.rnd q < -r.top then inf true else fin (r.rnd q)

/-- `-x` (IEEE 754). -/
def neg : Fl → Fl
  | nan => nan
  | inf s => inf (!s)
  | fin q => fin (-q)

/-- `x + y` (IEEE 754). -/
def add (r : FlRound) : Fl → Fl → Fl
  | nan, _ => nan
  | _, nan => nan
  | inf s, inf t => if s = t then inf s else nan
  | inf s, fin _ => inf s
  | fin _, inf t => inf t
  | fin a, fin b => round r (a + b)

/-- `x - y` (IEEE 754). -/
def sub (r : FlRound) (x y : Fl) : Fl := add r x (neg y)

/-- `x * y` (IEEE 754). -/
def mul (r : FlRound) : Fl → Fl → Fl
  | nan, _ => nan
  | _, nan => nan
  | inf s, inf t => inf (s != t)
  | inf s, fin b => if b = 0 then nan else inf (s != decide (b < 0))
  | fin a, inf t => if a = 0 then nan else inf (decide (a < 0) != t)
  | fin a, fin b => round r (a * b)

/-- `x / y` (IEEE 754). -/
def div (r : FlRound) : Fl → Fl → Fl
  | nan, _ => nan
  | _, nan => nan
  | inf _, inf _ => nan
  | inf s, fin b => inf (s != decide (b < 0))
  | fin _, inf _ => fin 0
  | fin a, fin b => if b = 0 then (if a = 0 then nan else inf (decide (a < 0))) else round r (a / b)

/-- `x.exp()`, for an approximation `e` of the exponential function (external). -/
def exp (r : FlRound) (e : ℚ → ℚ) : Fl → Fl
  | nan => nan
  | inf true => fin 0
  | inf false => inf false
  | fin q => round r (e q)

/-- `x.sqrt()`, for an approximation `s` of the square root (external). -/
def sqrt (r : FlRound) (s : ℚ → ℚ) : Fl → Fl
  | nan => nan
  | inf true => nan
  | inf false => inf false
  | fin q => if q < 0 then nan else round r (s q)

/-- `x > 0.` -/
def isPos : Fl → Bool
  | nan => false
  | inf s => !s
  | fin q => decide (0 < q)

/-- `x.partial_cmp(&y)` (IEEE 754). -/
def partialCmp : Fl → Fl → Option Ordering
  | nan, _ => none
  | _, nan => none
  | inf true, inf true => some .eq
  | inf false, inf false => some .eq
  | inf true, _ => some .lt
  | inf false, _ => some .gt
  | fin _, inf true => some .gt
  | fin _, inf false => some .lt
  | fin a, fin b => some (if a < b then .lt else if a = b then .eq else .gt)

/-- The operations the classifier uses; the inner product is a parameter (`ndarray` chooses the order of summation). -/
def ops (r : FlRound) (e s : ℚ → ℚ) (dot : List Fl → List Fl → Fl) : FloatOps Fl :=
  ⟨fin 0, fin 1, add r, sub r, mul r, div r, neg, exp r e, sqrt r s, isPos, dot⟩

/-- The inner product with the terms added one after the other. -/
def seqDot (r : FlRound) (a b : List Fl) : Fl := (List.zipWith (mul r) a b).foldl (add r) (fin 0)

/-- `f32::deserialize` (serde_json, external): a number too large for `f32` becomes infinite.
Simplification: numbers too large for `f64` as well, which are errors, are not set apart. -/
def ofJson (r : FlRound) : Json → Outcome Fl
  | .int n => .ok (round r n)
  | .float q => .ok (round r q)
  | _ => jsonError

end Fl

/-- `LogRegIntentClassifier` (src/intent_classifier/log_reg_intent_classifier.rs:21-25) with any `f32` values. -/
structure FlClassifier where
  intentList : List (Option Text)
  featurizer : Option (Featurizer Fl)
  logreg : Option (LogReg Fl)

/-- Insertion into a list sorted by decreasing score, behind the larger elements and before the equal ones, the scores
being compared by `b.partial_cmp(&a).unwrap()`, which panics (log_reg_intent_classifier.rs:152). -/
def insertByScore (x : Option Text × Fl) : List (Option Text × Fl) → Outcome (List (Option Text × Fl))
  | [] => .ok [x]
  | y :: l =>
    match Fl.partialCmp y.2 x.2 with
    | none => .panic
    | some .gt =>
      match insertByScore x l with
      | .ok l' => .ok (y :: l')
      | .err e => .err e
      | .panic => .panic
    | some _ => .ok (x :: y :: l)

/-- `sorted_by(|a, b| b.partial_cmp(&a).unwrap())` (log_reg_intent_classifier.rs:152).  Simplification: an insertion
sort instead of a merge sort; both are stable and compare every element of a list of two or more. -/
def sortByScore : List (Option Text × Fl) → Outcome (List (Option Text × Fl))
  | [] => .ok []
  | x :: l =>
    match sortByScore l with
    | .ok l' => insertByScore x l'
    | .err e => .err e
    | .panic => .panic

/-- The closure of `filter` (src/intent_classifier/log_reg_intent_classifier.rs:142-151). -/
def keptName (whitelist : Option (List Text)) (name : Option Text) : Bool :=
  match name with
  | some intent =>
    match whitelist with
    | some l => l.contains intent
    | none => true
  | none => true

/-- `get_intents_with_whitelist` (src/intent_classifier/log_reg_intent_classifier.rs:101-154). -/
def FlClassifier.getIntentsWithWhitelist (ops : FloatOps Fl) (env : FeatEnv) (o : HashOrd) (c : FlClassifier)
    (input : Text) (whitelist : Option (List Text)) : Prog (List (Option Text × Fl)) :=
  if c.intentList.length ≤ 1 then .ret [((c.intentList.head?).join, .fin 1)]
  else if input = [] then blank c
  else
    match c.featurizer, c.logreg with
    | some featurizer, some logreg =>
      (featurizer.transform ops env o input).bind fun features =>
        (Prog.ofOutcome (logreg.run ops features)).bind fun scores =>
          Prog.ofOutcome (sortByScore ((c.intentList.zip scores).filter fun ns => keptName whitelist ns.1))
    | _, _ => blank c
where
  /-- Answer without features (src/intent_classifier/log_reg_intent_classifier.rs:113-123). -/
  blank (c : FlClassifier) : Prog (List (Option Text × Fl)) :=
    Prog.ofOutcome (sortByScore (c.intentList.map fun n => (n, .fin (if n = none then 1 else 0))))

/-- `get_intent` (src/intent_classifier/log_reg_intent_classifier.rs:76-93). -/
def FlClassifier.getIntent (ops : FloatOps Fl) (env : FeatEnv) (o : HashOrd) (c : FlClassifier) (input : Text)
    (whitelist : Option (List Text)) : Prog (Option Text × Fl) :=
  (c.getIntentsWithWhitelist ops env o input whitelist).bind fun rs =>
    .ret (match rs with
      | [] => (none, .fin 1)
      | r :: _ => r)

end Snips
