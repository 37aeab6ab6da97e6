import Mathlib.MeasureTheory.Measure.Lebesgue.Basic

/-! # Chances of draws (nothing here mentions the model) -/

open MeasureTheory

namespace Verif.Spec

/-- A draw that is uniform on [0, 1) (`np.random.rand`) lies in `A` with probability `p`. -/
def Chance (A : Set ℝ) (p : ℝ) : Prop := volume (A ∩ Set.Ico 0 1) = ENNReal.ofReal p

/-- `n` numbers between 0 (included) and 1 (excluded). -/
def UnitDraws (n : Nat) : Set (Fin n → ℝ) := Set.pi Set.univ (fun _ => Set.Ico 0 1)

/-- `n` pairs of draws, both uniform on [0, 1), all independent, satisfy `A` with probability at least `p`. -/
def ChanceAtLeast {n : Nat} (A : Set ((Fin n → ℝ) × (Fin n → ℝ))) (p : ℝ) : Prop :=
  ENNReal.ofReal p ≤ volume (A ∩ UnitDraws n ×ˢ UnitDraws n)

end Verif.Spec
