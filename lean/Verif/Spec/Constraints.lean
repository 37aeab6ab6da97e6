import Verif.Model.EA
import Mathlib.Data.Real.Basic

/-!
# Specification for C96: who reads the constraints
-/

namespace Verif.Spec
open Verif

variable {X O F C U V S Q : Type}

/-- Two evaluations of the same decision vectors that differ at most in the constraint values: the same exception, or the same objectives,
fitness and uncertainties, and constraint rows (as many in both) related by `rel`. -/
def SameButConstraints (rel : C → C → Prop) : Except Err (Results O F C U) → Except Err (Results O F C U) → Prop
  | .error e, .error e' => e' = e
  | .ok r, .ok r' =>
    r'.objectives = r.objectives ∧ r'.fitness = r.fitness ∧ r'.uncertainity = r.uncertainity ∧
      match r.constraints, r'.constraints with
      | none, none => True
      | some l, some l' => List.Forall₂ rel l l'
      | _, _ => False
  | _, _ => False

/-- How far a row of constraint values is violated in total; a value is violated when positive. -/
noncomputable def rowViolation (row : List ℝ) : ℝ := (row.map (fun v => max 0 v)).sum

/-- The two EA objects are the same in everything except the constraint values of the individuals. -/
structure SameSearch (s s' : EA X O F C U V S Q) : Prop where
  individuals : s'.pop.individuals = s.pop.individuals
  objectives : s'.pop.objectives = s.pop.objectives
  fitness : s'.pop.fitness = s.pop.fitness
  uncertainty : s'.pop.uncertainity = s.pop.uncertainity
  vectors : s'.vec = s.vec
  operator : s'.sel = s.sel
  iteration : s'.iter = s.iter
  generation : s'.gen = s.gen
  generationInIteration : s'.genIter = s.genIter
  evaluations : s'.fe = s.fe
  request : s'.reqId = s.reqId
  interaction : s'.itype = s.itype
  archive : s'.archive = s.archive
  nonDominated : s'.nd = s.nd

end Verif.Spec
