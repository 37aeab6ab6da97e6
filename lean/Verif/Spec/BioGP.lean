import Verif.Model.BioGP

/-!
# Specification vocabulary for expression trees
-/

namespace Verif.Spec
variable {G T : Type}

/-- An expression: below and at its top, every function node has as many children as the function has arguments, terminals have none;
functions and terminals come from the given sets. -/
def IsExpr (c : GPCfg G T) (t : Node G T) : Prop :=
  ∀ (p : List Nat) (s : Node G T), t.at? p = some s →
    match s.value with
    | .fn g => g ∈ c.fns ∧ s.roots.length = c.arity g
    | .term x => x ∈ c.terms ∧ s.roots = []
    | .linear => False

/-- No position is deeper than `h`. -/
def DepthLE (t : Node G T) (h : Nat) : Prop := ∀ (p : List Nat) (s : Node G T), t.at? p = some s → p.length ≤ h

/-- An individual: a linear node over exactly `max_subtrees` expressions. -/
structure IsInd (c : GPCfg G T) (t : Node G T) : Prop where
  root : t.value = .linear
  count : t.roots.length = c.maxSubtrees
  exprs : ∀ s ∈ t.roots, IsExpr c s

end Verif.Spec
