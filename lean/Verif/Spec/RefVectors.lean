import Mathlib.Analysis.Real.Sqrt
import Mathlib.Algebra.BigOperators.Fin

/-! # Vocabulary for the reference vector properties (nothing here mentions the model) -/

open scoped BigOperators

namespace Verif.Spec

variable {m : Nat}

/-- `v = (k₁/r, …, k_m/r)` for naturals `k` that sum to `r`. -/
def OnSimplexLattice (r : Nat) (v : Fin m → ℝ) : Prop :=
  ∃ k : Fin m → Nat, ∑ i, k i = r ∧ ∀ i, v i = (k i : ℝ) / r

/-- Euclidean length. -/
noncomputable def len (v : Fin m → ℝ) : ℝ := Real.sqrt (∑ i, v i * v i)

/-- Inner product. -/
def inner (v w : Fin m → ℝ) : ℝ := ∑ i, v i * w i

/-- `u` is the unit vector in the direction of `w`; the zero vector has no direction and stays zero. -/
def IsDirection (w u : Fin m → ℝ) : Prop :=
  (w = 0 ∧ u = 0) ∨ (len u = 1 ∧ ∃ c > 0, ∀ i, w i = c * u i)

/-- The coordinate axis `i`. -/
def IsAxis (i : Fin m) (v : Fin m → ℝ) : Prop := v i = 1 ∧ ∀ j, j ≠ i → v j = 0

/-- `b` is the greatest value of column `j`. -/
def IsColMax (rows : List (Fin m → ℝ)) (j : Fin m) (b : ℝ) : Prop :=
  (∃ r ∈ rows, r j = b) ∧ ∀ r ∈ rows, r j ≤ b

/-- `b` is the least value of column `j`. -/
def IsColMin (rows : List (Fin m → ℝ)) (j : Fin m) (b : ℝ) : Prop :=
  (∃ r ∈ rows, r j = b) ∧ ∀ r ∈ rows, b ≤ r j

/-- The two matrices have the same column ranges. -/
def SameRanges (f g : List (Fin m → ℝ)) : Prop :=
  ∀ j, ∀ a b a' b', IsColMin f j a → IsColMax f j b → IsColMin g j a' → IsColMax g j b' → b - a = b' - a'

/-- Distance of two points. -/
noncomputable def dist2 (v w : Fin m → ℝ) : ℝ := len (fun i => v i - w i)

/-- `z` divided by its L1 norm. -/
noncomputable def l1Normalised (z : Fin m → ℝ) : Fin m → ℝ := fun i => z i / ∑ j, |z j|

end Verif.Spec
