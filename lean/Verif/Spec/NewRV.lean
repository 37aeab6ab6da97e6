import Verif.Spec.Focused

/-!
# Vocabulary for the interactions of `newRV`
-/

namespace Verif.Spec

variable {m : Nat}

/-- How far the unit vector `v` is from the line of the unit vector `r`: the sine of the angle between them. -/
noncomputable def offLine (r v : Fin m → ℝ) : ℝ := Real.sqrt (1 - inner v r ^ 2)

/-- The factor by which the part of a vector orthogonal to the preferred direction shrinks; `S` is the distance of the farthest vector. -/
noncomputable def shrink (S d : ℝ) : ℝ :=
  open Classical in if d = 0 then 0 else 1 / (1 + 5 * (1 / d ^ 2 - 1 / S ^ 2))

/-- `v'` is the unit vector, on the side of `r`, that `v` becomes when its part orthogonal to `r` shrinks by the factor above: a
nonnegative combination of `v` and `r`. -/
def Pulled (r : Fin m → ℝ) (S : ℝ) (v v' : Fin m → ℝ) : Prop :=
  len v' = 1 ∧ 0 ≤ inner v' r ∧ ∃ b ≥ 0, ∀ i, v' i = shrink S (offLine r v) * v i + b * r i

/-- `S` is the greatest distance of a vector of `V` from the line of `r`. -/
def IsFarthest (r : Fin m → ℝ) (V : List (Fin m → ℝ)) (S : ℝ) : Prop := (∃ v ∈ V, offLine r v = S) ∧ ∀ v ∈ V, offLine r v ≤ S

/-- No entry is negative. -/
def NonNeg (v : Fin m → ℝ) : Prop := ∀ i, 0 ≤ v i

/-- `w` is `v` with the signs of some entries, but not of entry `l`, changed. -/
def Flipped (l : Fin m) (v w : Fin m → ℝ) : Prop := w l = v l ∧ ∀ i, w i = v i ∨ w i = - v i

end Verif.Spec
