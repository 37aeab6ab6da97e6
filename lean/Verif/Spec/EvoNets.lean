import Verif.Model.EvoNets

/-!
# Specification vocabulary for the neural network surrogates
-/

namespace Verif.Spec

/-- Populations bred from `P0`: at each step any offspring `breed` allows may be produced, and any of the old and new individuals are
kept (whatever the evolutionary algorithm decides). -/
inductive Bred {A : Type} (breed : List A → List A → Prop) (P0 : List A) : List A → Prop
  | start : Bred breed P0 P0
  | next {P O Q : List A} : Bred breed P0 P → breed P O → (∀ x ∈ Q, x ∈ P ∨ x ∈ O) → Bred breed P0 Q

variable {K : Type}

/-- The architecture of a network: for each subnet the dimensions of its layers. -/
def shape (n : DNet K) : List (List (Nat × Nat)) := n.map (fun s => s.map (fun l => (l.rows, l.cols)))

/-- Layers that fit together for `n` inputs: a bias row and one row per input, as many inputs as the layer before has nodes. -/
def Chain : Nat → List (Layer K) → Prop
  | _, [] => True
  | n, l :: ls => l.rows = n + 1 ∧ l.w.length = l.rows * l.cols ∧ Chain l.cols ls

/-- A network for the given subsets of the inputs. -/
def FitsSubsets (subsets : List (List Nat)) (n : DNet K) : Prop :=
  n.length ≤ subsets.length ∧ ∀ (i : Nat) (sub : List Nat) (ls : List (Layer K)), subsets[i]? = some sub → n[i]? = some ls → Chain sub.length ls

end Verif.Spec
