import Verif.Spec.BioGP
import Verif.Spec.BioGPPredict
import Mathlib.Data.Set.Card

/-!
# Specification vocabulary for trained BioGP models

The small mutation can turn a function node into a terminal and leaves its children in place.  Such children are dead: they are never evaluated.
-/

namespace Verif.Spec

section
variable {G T : Type}

/-- Like an expression, except that a terminal may have (dead) children; these are of the same kind. -/
def LooseExpr (c : GPCfg G T) (t : Node G T) : Prop :=
  ∀ (p : List Nat) (s : Node G T), t.at? p = some s →
    match s.value with
    | .fn g => g ∈ c.fns ∧ s.roots.length = c.arity g
    | .term x => x ∈ c.terms
    | .linear => False

/-- A linear node over exactly `max_subtrees` of these. -/
structure LooseInd (c : GPCfg G T) (t : Node G T) : Prop where
  root : t.value = .linear
  count : t.roots.length = c.maxSubtrees
  exprs : ∀ s ∈ t.roots, LooseExpr c s

mutual
/-- The tree without dead nodes. -/
def trim : Node G T → Node G T
  | .mk v rs =>
    match v with
    | .term x => .mk (.term x) []
    | .fn g => .mk (.fn g) (trimL rs)
    | .linear => .mk .linear (trimL rs)
def trimL : List (Node G T) → List (Node G T)
  | [] => []
  | t :: ts => trim t :: trimL ts
end

/-- `h` is the depth of the tree. -/
def HasDepth (t : Node G T) (h : Nat) : Prop := DepthLE t h ∧ ∃ p s, t.at? p = some s ∧ p.length = h

/-- The number of function nodes. -/
noncomputable def fnCount (t : Node G T) : Nat := Set.ncard {p : List Nat | ∃ s g, t.at? p = some s ∧ s.value = .fn g}

end

/-- The root of the mean squared difference. -/
noncomputable def rmsError (y p : List ℝ) : ℝ := Real.sqrt (((List.range y.length).map (fun j => (y.getD j 0 - p.getD j 0) ^ 2)).sum / (y.length : ℝ))

end Verif.Spec
