import Mathlib.Algebra.Order.Ring.Defs
import Mathlib.Data.Real.Basic

/-! # Indicator fitness (nothing here mentions the model) -/

namespace Verif.Spec

/-- The indicator fitness of `a` among `others`: minus the sum of its losses.  Larger is better. -/
def indFitness {F : Type} (t : F → F → ℝ) (a : F) (others : List F) : ℝ := -(others.map (t a)).sum

/-- The fitness of every member of `l` among the other members, computed from scratch. -/
def allFitness {F : Type} (t : F → F → ℝ) (l : List F) : List ℝ := l.mapIdx (fun i a => indFitness t a (l.eraseIdx i))

/-- `w` is the first member of `l` with the smallest fitness. -/
def IsWorst {F : Type} (t : F → F → ℝ) (l : List F) (w : Nat) : Prop :=
  ∃ v, (allFitness t l)[w]? = some v ∧ (∀ (j : Nat) (x : ℝ), (allFitness t l)[j]? = some x → v ≤ x) ∧
    (∀ (j : Nat) (x : ℝ), j < w → (allFitness t l)[j]? = some x → v < x)

/-- `rs'` arises from `rs` by removing, `k` times, the member that is then the worst (by the key `f`). -/
inductive RemovesWorst {α F : Type} (t : F → F → ℝ) (f : α → F) : Nat → List α → List α → Prop
  | zero (rs) : RemovesWorst t f 0 rs rs
  | succ {k rs rs' w} : w < rs.length → IsWorst t (rs.map f) w → RemovesWorst t f k (rs.eraseIdx w) rs' →
      RemovesWorst t f (k + 1) rs rs'

end Verif.Spec
