import Mathlib.Data.Real.Basic
import Mathlib.Algebra.BigOperators.Group.List.Basic

/-!
# Vocabulary for least squares
-/

namespace Verif.Spec

/-- The sum of squared differences. -/
def sqErr (a b : List ℝ) : ℝ := (a.zipWith (fun x y => (x - y) ^ 2) b).sum

/-- The product of a row of a matrix with a vector of weights, both lists. -/
def dotList (row w : List ℝ) : ℝ := (row.zipWith (· * ·) w).sum

/-- `solve A y`, for any matrix `A` (a non-empty list of rows of `k` entries) with as many rows as `y` has entries, is a vector of `k` weights `w` with least
`‖A w - y‖²`: what the documentation of `np.linalg.lstsq` promises. -/
def SolvesLeastSquares (solve : List (List ℝ) → List ℝ → List ℝ) : Prop :=
  ∀ (k : Nat) (A : List (List ℝ)) (y : List ℝ), A ≠ [] → A.length = y.length → (∀ row ∈ A, row.length = k) →
    (solve A y).length = k ∧ ∀ w : List ℝ, w.length = k → sqErr (A.map (fun row => dotList row (solve A y))) y ≤ sqErr (A.map (fun row => dotList row w)) y

end Verif.Spec
