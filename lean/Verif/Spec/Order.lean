import Mathlib.Data.List.Perm.Subperm
import Verif.Spec.Indicator

/-! # Contenders and ties (nothing here mentions the model) -/

namespace Verif.Spec

variable {ρ : Type}

/-- A row (whatever a row holds) is within its constraints. -/
def withinBounds (con : ρ → List ℝ) (r : ρ) : Prop := ∀ v ∈ con r, v ≤ 0

/-- The sum of the positive constraint values of a row. -/
noncomputable def violationOf (con : ρ → List ℝ) (r : ρ) : ℝ := ((con r).map (fun v => max 0 v)).sum

/-- Row `r` competes for vector `i` with success so far: it is nearest to that vector, and it is feasible, or no row nearest to
that vector is and none violates less. -/
def Contender (near : ρ → Nat → Prop) (con : Option (ρ → List ℝ)) (rows : List ρ) (i : Nat) (r : ρ) : Prop :=
  r ∈ rows ∧ near r i ∧ ∀ c, con = some c → withinBounds c r ∨
    ((∀ s ∈ rows, near s i → ¬ withinBounds c s) ∧ ∀ s ∈ rows, near s i → violationOf c r ≤ violationOf c s)

/-- Whatever some members of the population, taken together, are: if two of them share the smallest fitness among them, they are the
same row. -/
def WorstNeverTied {α F : Type} (t : F → F → ℝ) (f : α → F) (rs : List α) : Prop :=
  ∀ rest : List α, List.Subperm rest rs → ∀ (i j : Nat) (v : ℝ), (allFitness t (rest.map f))[i]? = some v →
    (allFitness t (rest.map f))[j]? = some v → (∀ (k : Nat) (x : ℝ), (allFitness t (rest.map f))[k]? = some x → v ≤ x) →
    rest[i]? = rest[j]?

end Verif.Spec
