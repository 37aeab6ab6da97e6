import Verif.Spec.Indicator
import Mathlib.Algebra.BigOperators.Fin

/-!
# Vocabulary for indicators and dominance (nothing here mentions the model)
-/

namespace Verif.Spec

/-- Pareto dominance (minimisation). -/
def ParetoDom {m : Nat} (a b : Fin m → ℝ) : Prop := (∀ i, a i ≤ b i) ∧ ∃ i, a i < b i

/-- The additive epsilon indicator, never below zero: the largest amount by which `b` is behind `a` in an objective, zero if it is nowhere
behind. -/
noncomputable def additiveEps {m : Nat} (a b : Fin m → ℝ) : ℝ := (List.ofFn (fun i => b i - a i)).foldr max 0

/-- An indicator respects `dom`: if `a` dominates `b`, then `a` is at least as far ahead of everybody, and further ahead of `b` than `b` of
`a`. -/
def RespectsDominance {F : Type} (dom : F → F → Prop) (I : F → F → ℝ) : Prop :=
  ∀ a b, dom a b → (∀ c, I b c ≤ I a c) ∧ I b a < I a b

end Verif.Spec
