import Mathlib.Analysis.SpecialFunctions.Log.Basic

/-!
# Vocabulary for the scores of trained models
-/

namespace Verif.Spec

/-- The corrected Akaike information criterion of a least squares model with `k` parameters, `N` samples and residual sum of squares `rss`:
`AIC = 2 k + N ln (rss / N)`, plus the correction `2 k (k + 1) / (N - k - 1)` for small samples. -/
noncomputable def correctedAkaike (k N : Nat) (rss : ℝ) : ℝ := (2 * k + N * Real.log (rss / N)) + (2 * k * (k + 1)) / (N - k - 1)

/-- The residual sum of squares. -/
def residuals (predictions targets : List ℝ) : ℝ := ((predictions.zip targets).map (fun p => (p.1 - p.2) ^ 2)).sum

/-- The number of non-zero entries of a matrix or vector. -/
noncomputable def nonzeros {ι : Type} [Fintype ι] (w : ι → ℝ) : Nat := by
  classical exact (Finset.univ.filter (fun i => w i ≠ 0)).card

end Verif.Spec
