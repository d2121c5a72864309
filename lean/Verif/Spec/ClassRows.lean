import Verif.Spec.Parsers
import Verif.Spec.Rule

/-! A classifier given class by class. -/

namespace Snips

/-- What the model file says about one class: its intent (or none), its intercept and its coefficients. -/
structure ClassRow where
  name : Option Text
  intercept : ℚ
  weights : List ℚ

/-- The classifier whose model file lists these classes, in this order, each with one coefficient per feature. -/
structure Classifier.HasRows (c : Classifier) (f : Featurizer ℚ) (nbFeatures : Nat) (rows : List ClassRow) : Prop where
  names : c.intentList = rows.map ClassRow.name
  featurizer : c.featurizer = some f
  logreg : ∃ m, LogReg.new (rows.map ClassRow.intercept) (rows.map ClassRow.weights) = .ok m ∧ c.logreg = some m
  sizes : ∀ r ∈ rows, r.weights.length = nbFeatures
  /-- at least two classes, each with coefficients of its own -/
  two : 2 ≤ rows.length

end Snips
