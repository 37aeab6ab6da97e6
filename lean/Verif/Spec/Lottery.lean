import Mathlib.Data.Fintype.Pi
import Mathlib.Data.Fintype.CardEmbedding
import Mathlib.Data.Real.Basic
import Mathlib.Data.Finset.Card

/-! Specification vocabulary for C103: random experiments with finitely many, equally likely outcomes. -/

namespace Verif.Spec

open Classical in
/-- The probability of `A` when all outcomes in the type `Ω` are equally likely. -/
noncomputable def odds {Ω : Type} [Fintype Ω] (A : Ω → Prop) : ℝ :=
  ((Finset.univ.filter A).card : ℝ) / (Fintype.card Ω : ℝ)

/-- The expected value of `X` when all outcomes in the type `Ω` are equally likely. -/
noncomputable def expected {Ω : Type} [Fintype Ω] (X : Ω → Nat) : ℝ :=
  ((∑ ω, X ω : Nat) : ℝ) / (Fintype.card Ω : ℝ)

/-- `k` different numbers below `m`, one after the other. -/
abbrev Lots (m k : Nat) : Type := Fin k ↪ Fin m

/-- The lots, written as a list of natural numbers. -/
def Lots.list {m k : Nat} (d : Lots m k) : List Nat := List.ofFn fun j => (d j : Nat)

/-- The number of the first `m` individuals with property `P`. -/
noncomputable def howMany {m : Nat} (P : Fin m → Prop) : Nat := by
  classical exact (Finset.univ.filter P).card

/-- `N (N - 1) ... (N - k + 1)`, the number of ways to draw `k` different things out of `N`, one after the other. -/
def ways : Nat → Nat → Nat
  | _, 0 => 1
  | 0, _ + 1 => 0
  | N + 1, k + 1 => (N + 1) * ways N k

end Verif.Spec
