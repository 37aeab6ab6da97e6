import Mathlib.Data.Real.Basic
import Mathlib.Algebra.BigOperators.Group.List.Basic

/-!
# Vocabulary for the losses of the surrogates
-/

namespace Verif.Spec

/-- The arithmetic mean. -/
noncomputable def mean (y : List ℝ) : ℝ := y.sum / (y.length : ℝ)

/-- The variance: the mean squared deviation from the mean. -/
noncomputable def variance (y : List ℝ) : ℝ := mean (y.map (fun a => (a - mean y) ^ 2))

/-- Not worse, on the targets `y`, than the model that always predicts their mean, and not better than perfect: the values the two losses can then take. -/
structure AtLeastMean (y p : List ℝ) : Prop where
  /-- The sum of the squared errors. -/
  errors : (List.zipWith (fun a b => (a - b) ^ 2) y p).sum ≤ (y.map (fun a => (a - mean y) ^ 2)).sum
  /-- One prediction for every target. -/
  length : p.length = y.length

end Verif.Spec
