import Mathlib.Analysis.Real.Sqrt

/-! # Vocabulary for variation operators and designs (nothing here mentions the model) -/

namespace Verif.Spec

/-- The id crossed with the one at the even position `p`: the next one, or the first one if there is none. -/
def partner (ids : List Nat) (p : Nat) : Option Nat := if p + 1 < ids.length then ids[p + 1]? else ids[0]?

/-- Every component that is a number lies in its box. -/
def InBox {n : Nat} (lo hi : Fin n → ℝ) (x : Fin n → Option ℝ) : Prop := ∀ i v, x i = some v → lo i ≤ v ∧ v ≤ hi i

/-- No component is NaN. -/
def AllNumbers {n : Nat} (x : Fin n → Option ℝ) : Prop := ∀ i, ∃ v, x i = some v

/-- `v` is in slice `k` of the interval from `a` to `b` cut into `count` equal slices. -/
def InSlice (a b : ℝ) (count k : Nat) (v : ℝ) : Prop :=
  a + (b - a) * (k / count) ≤ v ∧ v < a + (b - a) * ((k + 1) / count)

/-- A latin hypercube sample of the box: in every variable exactly one row per slice. -/
def IsLatin {n : Nat} (lo hi : Fin n → ℝ) (rows : List (Fin n → ℝ)) : Prop :=
  ∀ (i : Fin n) (k : Nat), k < rows.length →
    ∃ (j : Nat) (r : Fin n → ℝ), rows[j]? = some r ∧ InSlice (lo i) (hi i) rows.length k (r i) ∧
      ∀ (j' : Nat) (r' : Fin n → ℝ), rows[j']? = some r' → InSlice (lo i) (hi i) rows.length k (r' i) → j' = j

end Verif.Spec
