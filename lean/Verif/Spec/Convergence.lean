import Mathlib.Data.Real.Basic

/-! # Specification for C104: approximating everything attainable (nothing here mentions the model) -/

namespace Verif.Spec

/-- For every decision vector `x` between the bounds there is one among `front` that is in no objective more than `ε` worse (larger) than `x`.  In
particular for every Pareto-optimal `x`. -/
def Approximates {n m : Nat} (φ : (Fin n → ℝ) → Fin m → ℝ) (lo hi : Fin n → ℝ) (ε : ℝ) (front : List (Fin m → ℝ)) : Prop :=
  ∀ x : Fin n → ℝ, (∀ i, lo i ≤ x i ∧ x i ≤ hi i) → ∃ a ∈ front, ∀ i, a i ≤ φ x i + ε

end Verif.Spec
