import Verif.Props.APD

/-!
# What an APD selection without constraints should return
-/

namespace Verif.Spec
open Verif Verif.Props

/-- `sel` holds, for every reference vector nearest to somebody, exactly one individual nearest to it, and nobody else: the first one of least
angle penalised distance.  `t` are the translated fitness rows. -/
def OnePerVector {m : Nat} (values : List (Fin m → ℝ)) (gammas : List ℝ) (pen : ℝ) (t : List (Fin m → ℝ)) (sel : List Nat) : Prop :=
  sel.Nodup ∧
  (∀ (j : Nat) (f : Fin m → ℝ) (i : Nat), t[j]? = some f → NearestVector values f i →
    ∃ k ∈ sel, ∃ g, t[k]? = some g ∧ NearestVector values g i) ∧
  ∀ j ∈ sel, ∃ (f : Fin m → ℝ) (i : Nat) (v : Fin m → ℝ), t[j]? = some f ∧ NearestVector values f i ∧ values[i]? = some v ∧
    ∀ (k : Nat) (g : Fin m → ℝ), t[k]? = some g → NearestVector values g i → k ≠ j →
      angleDistance pen (gammas.getD i 0) f v ≤ angleDistance pen (gammas.getD i 0) g v ∧
      (k < j → angleDistance pen (gammas.getD i 0) f v < angleDistance pen (gammas.getD i 0) g v) ∧ k ∉ sel

end Verif.Spec
