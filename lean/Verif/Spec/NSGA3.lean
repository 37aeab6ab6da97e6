import Verif.Spec.RefVectors

/-!
# Specification vocabulary for NSGA-III
-/

namespace Verif.Spec

/-- Non-dominated sorting of the individuals `0, …, n-1`: every individual is in exactly one front; whoever
dominates a member of front `i` is in an earlier front; every member of front `i + 1` is dominated by a member of
front `i`. -/
structure IsFrontSort (dom : Nat → Nat → Prop) (n : Nat) (fronts : List (List Nat)) : Prop where
  all : fronts.flatten.Perm (List.range n)
  earlier : ∀ (i : Nat) (f : List Nat) (x y : Nat), fronts[i]? = some f → x ∈ f → y < n → dom y x →
    ∃ (k : Nat) (g : List Nat), k < i ∧ fronts[k]? = some g ∧ y ∈ g
  witness : ∀ (i : Nat) (f g : List Nat) (x : Nat), fronts[i]? = some f → fronts[i + 1]? = some g → x ∈ g →
    ∃ y ∈ f, dom y x

/-- Individuals of the list `l` that are in niche `c`. -/
def occupants (niche : List Nat) (l : List Nat) (c : Nat) : Nat := (l.filter (fun j => niche[j]? == some c)).length

/-- Choosing `j` after `before` is fair: `j` is a new member of the front, its niche has the fewest occupants
(initial count plus those chosen before) among the niches of the members still available, and if it has none, `j`
has the least distance among the available members of its niche. -/
structure FairStep {K : Type} [LinearOrder K] (niche : List Nat) (dist : List K) (initial : Nat → Nat) (before : List Nat)
    (j : Nat) : Prop where
  fresh : j < niche.length ∧ j ∉ before
  least : ∀ (k c d : Nat), k ∉ before → niche[j]? = some c → niche[k]? = some d →
    initial c + occupants niche before c ≤ initial d + occupants niche before d
  closest : ∀ (k c : Nat) (x y : K), k ∉ before → niche[j]? = some c → niche[k]? = some c →
    initial c + occupants niche before c = 0 → dist[j]? = some x → dist[k]? = some y → x ≤ y

/-- Pareto dominance of fitness rows. -/
def RowDominates {m : Nat} (a b : Fin m → ℝ) : Prop := (∀ i, a i ≤ b i) ∧ ∃ i, a i < b i

/-- Individual `y` dominates individual `x`. -/
def IndDominates {m : Nat} (fitness : List (Fin m → ℝ)) (y x : Nat) : Prop :=
  ∃ a b, fitness[y]? = some a ∧ fitness[x]? = some b ∧ RowDominates a b

end Verif.Spec
