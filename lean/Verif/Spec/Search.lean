import Verif.Spec.Distribution
import Mathlib.MeasureTheory.Integral.Lebesgue.Basic
import Mathlib.MeasureTheory.Constructions.BorelSpace.Basic

/-! # Specification for C100: the chance that a search keeps missing a region (nothing here mentions the model) -/

open MeasureTheory

namespace Verif.Spec

/-- The mean value of `f` over `n` independent draws that are uniform on [0, 1).  It is the upper integral, which is defined for every `f` and is the
integral when `f` is measurable (`average_measurable`). -/
noncomputable def average {n : Nat} (f : (Fin n → ℝ) → ENNReal) : ENNReal :=
  ⨅ (g : (Fin n → ℝ) → ENNReal) (_ : Measurable g) (_ : ∀ w ∈ UnitDraws n, f w ≤ g w), ∫⁻ w in UnitDraws n, g w

open Classical in
/-- A system in state `s` makes rounds; each round first draws three times `n` numbers (`round a b c s` is the state after it).  The probability that
`missed` holds after each of the next `G` rounds. -/
noncomputable def chanceOfMissing {σ : Type} {n : Nat} (round : (Fin n → ℝ) → (Fin n → ℝ) → (Fin n → ℝ) → σ → σ) (missed : σ → Prop) : Nat → σ → ENNReal
  | 0, _ => 1
  | G + 1, s => average fun a => average fun b => average fun c =>
      if missed (round a b c s) then chanceOfMissing round missed G (round a b c s) else 0

/-- A vector of numbers, each between the two given ones. -/
def Inside {n : Nat} (s t : Fin n → ℝ) (x : Fin n → Option ℝ) : Prop := ∀ i, ∃ v, x i = some v ∧ s i ≤ v ∧ v ≤ t i

end Verif.Spec
