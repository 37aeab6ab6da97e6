import Verif.Model.EA
import Mathlib.Data.Set.Finite.Basic

/-!
# Specification for C98: a run sees the problem only at the points it evaluates
-/

namespace Verif.Spec
open Verif

variable {X O F C U V S Q : Type}

/-- The decision vector has been evaluated. -/
def Evaluated (s : EA X O F C U V S Q) (x : X) : Prop := ∃ e ∈ s.log, x ∈ e.1

/-- Two problems that give the same on batches without vectors of `D`. -/
def AgreeOff (D : X → Prop) (ev ev' : Nat → Bool → Batch X → Except Err (Results O F C U)) : Prop :=
  ∀ clk surr b, (∀ x ∈ b.rows, ¬ D x) → ev' clk surr b = ev clk surr b

/-- A problem without constraints that evaluates each vector by itself. -/
def pointwise (obj : X → O) (fit : X → F) : Nat → Bool → Batch X → Except Err (Results O F C U) :=
  fun _ _ b => .ok ⟨b.rows.map obj, b.rows.map fit, none, none⟩

end Verif.Spec
