import Verif.Model.IndicatorRun
import Verif.Model.MoeadRun

/-!
# Specification for C99: handing the population of one EA object to a new one
-/

namespace Verif.Spec
open Verif

variable {X O F C U V S Q P R : Type} {m : Nat}

/-- A new object made in the same process goes on with the same random numbers: what its components draw at its own step `k` is what is drawn
at step `c + k` of the process. -/
def since (c : Nat) (ops : Ops X O F C U V S Q R) : Ops X O F C U V S Q R :=
  { ops with respond := fun k => ops.respond (c + k), mate := fun k => ops.mate (c + k), evaluate := fun k => ops.evaluate (c + k),
             select := fun k => ops.select (c + k), newId := fun k => ops.newId (c + k) }

/-- The same for an indicator EA. -/
def sinceInd (c : Nat) (io : IndOps X O F C U P R) : IndOps X O F C U P R :=
  { io with draw := fun k => io.draw (c + k), mate := fun k => io.mate (c + k), evaluate := fun k => io.evaluate (c + k),
            newId := fun k => io.newId (c + k) }

/-- The same for the components only MOEA/D has (`ideal` is the attribute of the problem, which the two objects share). -/
def sinceMoead (c : Nat) (mo : MoeadOps m ℝ X O F C U) : MoeadOps m ℝ X O F C U :=
  { mo with pick := fun k => mo.pick (c + k), mate := fun k => mo.mate (c + k), ideal := fun k => mo.ideal (c + k) }

/-- `whole` has produced what `first` and then `second` have produced: `second` ends with its population, and its generations, its
evaluations and the batches evaluated are those of the two together. -/
structure InTwoParts (first second whole : EA X O F C U V S Q) : Prop where
  population : second.pop = whole.pop
  generation : whole.gen = first.gen + second.gen
  evaluations : whole.fe = first.fe + second.fe
  trueEvaluations : whole.trueEvals = first.trueEvals + second.trueEvals
  evaluated : whole.log = first.log ++ second.log

end Verif.Spec
