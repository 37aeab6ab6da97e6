import Verif.Model.EA

/-!
# Specification for C97: what the bookkeeping options and the grouping into iterations leave alone
-/

namespace Verif.Spec
open Verif

variable {X O F C U V S Q : Type}

/-- One row of objectives and one of fitness for each decision vector. -/
def RowPerRow (rows : List X) (r : Results O F C U) : Prop := r.objectives.length = rows.length ∧ r.fitness.length = rows.length

/-- The two EA objects are the same in everything but the two archives and the flags that turn these on. -/
structure SameProgress (s s' : EA X O F C U V S Q) : Prop where
  population : s'.pop = s.pop
  vectors : s'.vec = s.vec
  operator : s'.sel = s.sel
  problem : s'.prob = s.prob
  iteration : s'.iter = s.iter
  generation : s'.gen = s.gen
  generationInIteration : s'.genIter = s.genIter
  evaluations : s'.fe = s.fe
  request : s'.reqId = s.reqId
  interaction : s'.itype = s.itype
  trueEvaluations : s'.trueEvals = s.trueEvals
  evaluated : s'.log = s.log

/-- What a run has produced, whatever its iterations were: the population, the state of the selection operator, generations and
evaluations counted, the saved non-dominated solutions, everything that was evaluated. -/
structure SameOutcome (s s' : EA X O F C U V S Q) : Prop where
  population : s'.pop = s.pop
  operator : s'.sel = s.sel
  generation : s'.gen = s.gen
  evaluations : s'.fe = s.fe
  nonDominated : s'.nd = s.nd
  trueEvaluations : s'.trueEvals = s.trueEvals
  evaluated : s'.log = s.log

end Verif.Spec
