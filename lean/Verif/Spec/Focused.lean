import Verif.Model.Focused
import Verif.Spec.RefVectors
import Mathlib.Analysis.SpecialFunctions.Trigonometric.Inverse

/-!
# Vocabulary for focused reference vectors
-/

namespace Verif.Spec

variable {m : Nat}

/-- The angle between two unit vectors. -/
noncomputable def angleOf (u w : Fin m → ℝ) : ℝ := Real.arccos (inner u w)

/-- Five degrees. -/
noncomputable def fiveDegrees : ℝ := 5 * Real.pi / 180

/-- `E` are the coordinate axes in order. -/
def IsAxes (E : List (Fin m → ℝ)) : Prop := E.length = m ∧ ∀ i : Fin m, ∃ e, E[i.val]? = some e ∧ IsAxis i e

/-- The rows are those of `F`, all finite, followed by the coordinate axes. -/
def WithEdges (rows : List (Option (Fin m → ℝ))) (F : List (Fin m → ℝ)) : Prop := ∃ E, IsAxes E ∧ rows = (F ++ E).map some

/-- `n` rows of NaN, followed by the coordinate axes. -/
def NaNWithEdges (rows : List (Option (Fin m → ℝ))) (n : Nat) : Prop :=
  ∃ E : List (Fin m → ℝ), IsAxes E ∧ rows = List.replicate n none ++ E.map some

/-- A cone: a unit vector and unit vectors five degrees away from it. -/
def IsCone (c : Fin m → ℝ) (ring : List (Fin m → ℝ)) : Prop := len c = 1 ∧ ∀ v ∈ ring, len v = 1 ∧ angleOf c v = fiveDegrees

/-- `R` preserves lengths and angles. -/
def Rigid (R : (Fin m → ℝ) → (Fin m → ℝ)) : Prop := ∀ x y, inner (R x) (R y) = inner x y

/-- Row by row, `planar` is the vector divided by its sum; a vector whose entries sum to zero has no planar form (NaN). -/
def PlanarForm (values planar : List (Option (Fin m → ℝ))) : Prop :=
  ∀ (i : Nat) (v : Fin m → ℝ), values[i]? = some (some v) →
    (∑ j, v j = 0 → planar[i]? = some none) ∧
    (∑ j, v j ≠ 0 → ∃ w, planar[i]? = some (some w) ∧ ∑ j, w j = 1 ∧ ∀ j, w j = v j / ∑ l, v l)

end Verif.Spec
