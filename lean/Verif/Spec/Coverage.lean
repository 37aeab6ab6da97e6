import Verif.Spec.NSGA3
import Verif.Spec.Population
import Verif.Model.APD

/-!
# What a record is worth, and how many of a population are non-dominated
-/

namespace Verif.Spec
open _root_.Spec (Rec)

/-- The fitness selection believes in: as evaluated (`mean`), minus or plus the uncertainty (`optimistic`, `robust`). -/
def believed {X O C : Type} {m : Nat} (ty : SelType) (r : Rec X O (Fin m → ℝ) C (Fin m → ℝ)) : Fin m → ℝ :=
  match ty, r.u with
  | .optimistic, some u => fun i => r.f i - u i
  | .robust, some u => fun i => r.f i + u i
  | _, _ => r.f

open Classical in
/-- How many of the rows no row of the list dominates (equal rows count separately). -/
noncomputable def nonDominatedCount {m : Nat} (fits : List (Fin m → ℝ)) : Nat := fits.countP (fun a => decide (∀ b ∈ fits, ¬ RowDominates b a))

/-- Every row of the second list is equalled or beaten in all components by one row of the first. -/
def WeaklyCovers {m : Nat} (ms fits : List (Fin m → ℝ)) : Prop := ∀ b ∈ fits, ∃ a ∈ ms, ∀ i, a i ≤ b i

end Verif.Spec
