import Verif.Model.Indicator
import Verif.Spec.IndicatorRun
import Verif.Spec.Invariance

/-!
# Specification for C93, second part: scalarisations and indicators of other EAs
-/

namespace Verif.Spec
open Verif

variable {X C V S S' Q : Type} {m : Nat}

/-- A scalarisation (fitness, weights, ideal point) that only looks at how far the fitness is from the ideal point, and is in the unit of
the fitness: with another unit and another origin for both, its values are in the new unit. -/
def UnitFree (sf : Vec m → Vec m → Vec m → Option ℝ) : Prop :=
  ∀ (lam : ℝ) (c f w z f' z' : Vec m), 0 < lam → Rescaled lam c f f' → Rescaled lam c z z' → sf f' w z' = (sf f w z).map (fun v => lam * v)

/-- The Tchebycheff scalarisation: the largest weighted distance from the ideal point. -/
noncomputable def tchebycheff (f w z : Vec m) : ℝ := (List.ofFn (fun i => w i * |f i - z i|)).foldr max 0

/-- The penalty boundary intersection: distance along the weight vector plus `theta` times the distance from it. -/
noncomputable def pbi (theta : ℝ) (f w z : Vec m) : ℝ :=
  let d1 := |∑ i, (f i - z i) * w i| / Real.sqrt (∑ i, w i ^ 2)
  d1 + theta * Real.sqrt (∑ i, (f i - z i - d1 * w i / Real.sqrt (∑ i, w i ^ 2)) ^ 2)

/-- The achievement function with weights one: the largest amount by which the row is behind the reference point. -/
noncomputable def achievement (ref row : Fin (m + 1) → ℝ) : ℝ :=
  (Finset.univ : Finset (Fin (m + 1))).sup' Finset.univ_nonempty (fun i => row i - ref i)

/-- The least achievement value of the rows (zero if there are none). -/
noncomputable def leastAchievement (ref : Fin (m + 1) → ℝ) (rows : List (Fin (m + 1) → ℝ)) : ℝ :=
  (rows.map (achievement ref)).min?.getD 0

/-- The preference-based indicator of PBEA: the additive epsilon indicator divided by how far the second row is behind the reference point,
compared with the least achievement value `least`, plus `delta`. -/
noncomputable def preferenceIndicator (a b : Fin (m + 1) → ℝ) (least : ℝ) (ref : Fin (m + 1) → ℝ) (delta : ℝ) : ℝ :=
  additiveEps a b / (achievement ref b + delta - least)

end Verif.Spec
