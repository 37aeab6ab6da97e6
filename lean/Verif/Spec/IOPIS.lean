import Mathlib.Data.Real.Basic

/-! # Best value per objective (nothing here mentions the model) -/

namespace Verif.Spec

/-- `b` is the best of the values `l`: the greatest when maximising, the least when minimising; one of them. -/
def IsBest (maximise : Bool) (l : List ℝ) (b : ℝ) : Prop :=
  b ∈ l ∧ ∀ x ∈ l, if maximise then x ≤ b else b ≤ x

/-- Multipliers of a problem: -1 exactly for the maximised objectives, 1 for the others. -/
def Multipliers {m : Nat} (maximise : Fin m → Bool) (mult : Fin m → ℝ) : Prop :=
  ∀ i, mult i = if maximise i then -1 else 1

end Verif.Spec
