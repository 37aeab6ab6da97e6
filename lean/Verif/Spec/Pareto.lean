import Mathlib.Order.Defs.LinearOrder

/-!
# Specification: Pareto dominance (minimisation)

`Dominates a b`: `a` is nowhere worse and somewhere better than `b`.
-/

namespace Spec

/-- Pareto dominance of equally long rows. -/
def Dominates {K : Type} [LinearOrder K] (a b : List K) : Prop :=
  a.length = b.length ∧ (∀ (i : Nat) (x y : K), a[i]? = some x → b[i]? = some y → x ≤ y) ∧
    ∃ (i : Nat) (x y : K), a[i]? = some x ∧ b[i]? = some y ∧ x < y

/-- `x` is not dominated (w.r.t. `dom`) by any member of `l`. -/
def notDominatedIn {R : Type} (dom : R → R → Bool) (l : List R) (x : R) : Bool :=
  l.all (fun e => !dom e x)

/-- No member of `l` dominates another. -/
def MutuallyNonDominated {R : Type} (dom : R → R → Bool) (l : List R) : Prop :=
  ∀ a ∈ l, ∀ b ∈ l, dom a b = false

/-- `dom` is a strict partial order. -/
structure IsDominance {R : Type} (dom : R → R → Bool) : Prop where
  irrefl : ∀ a, dom a a = false
  trans : ∀ a b c, dom a b = true → dom b c = true → dom a c = true

/-- Is the objective minimised or maximised? -/
inductive Sense | min | max
deriving DecidableEq

/-- `a` is at least as good as `b` for one objective. -/
def Sense.atLeastAsGood {K : Type} [LE K] : Sense → K → K → Prop
  | .min, a, b => a ≤ b
  | .max, a, b => b ≤ a

/-- `a` is better than `b` for one objective. -/
def Sense.better {K : Type} [LT K] : Sense → K → K → Prop
  | .min, a, b => a < b
  | .max, a, b => b < a

/-- Pareto dominance of objective vectors with mixed minimisation and maximisation. -/
def ObjDominates {K : Type} [LinearOrder K] (senses : List Sense) (a b : List K) : Prop :=
  (∀ (i : Nat) (s : Sense) (x y : K), senses[i]? = some s → a[i]? = some x → b[i]? = some y → s.atLeastAsGood x y) ∧
    ∃ (i : Nat) (s : Sense) (x y : K), senses[i]? = some s ∧ a[i]? = some x ∧ b[i]? = some y ∧ s.better x y

/-- What is assumed of `desdeo_tools.utilities.non_dominated`: on a matrix (rows of one width) it flags
exactly the rows no row of the matrix dominates. -/
def IsNonDominatedFn {K : Type} [LinearOrder K] (nd : List (List K) → List Bool) : Prop :=
  ∀ (m : Nat) (rows : List (List K)), (∀ r ∈ rows, r.length = m) →
    (nd rows).length = rows.length ∧
    ∀ (i : Nat) (r : List K), rows[i]? = some r → ((nd rows)[i]? = some true ↔ ∀ e ∈ rows, ¬ Dominates e r)

end Spec
