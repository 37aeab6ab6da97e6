import Verif.Model.EA

/-!
# Specification for C107: going on after an evaluation that raised
-/

namespace Verif.Spec
open Verif

variable {X O F C U V S Q R : Type}

/-- The same outside world with its answers in another order: what it would do at moment `k` is what the first does at moment `f k`. -/
def renumber (f : Nat → Nat) (ops : Ops X O F C U V S Q R) : Ops X O F C U V S Q R :=
  { ops with
    respond := fun k => ops.respond (f k)
    mate := fun k => ops.mate (f k)
    evaluate := fun k => ops.evaluate (f k)
    select := fun k => ops.select (f k)
    newId := fun k => ops.newId (f k) }

/-- The two objects agree in everything that generations make, except for the reference vectors: population, selection operator, number of
generations and of evaluations, saved non-dominated solutions, the batches evaluated with their results. -/
structure SameWork (s s' : EA X O F C U V S Q) : Prop where
  population : s'.pop = s.pop
  operator : s'.sel = s.sel
  generation : s'.gen = s.gen
  evaluations : s'.fe = s.fe
  nonDominated : s'.nd = s.nd
  evaluated : s'.log = s.log

/-- `t` is `s` at a later moment, after `lost` more vectors were given to the problem's own evaluation without a result. -/
def OnlyTimePassed (lost : Nat) (s t : EA X O F C U V S Q) : Prop :=
  ∃ k, s.clock < k ∧ t = { s with clock := k, trueEvals := s.trueEvals + lost }

/-- The object without the counter of iterations, the setting `n_gen_per_iter` and the moment. -/
structure SameButIteration (s t : EA X O F C U V S Q) : Prop extends SameWork s t where
  vectors : t.vec = s.vec
  problem : t.prob = s.prob
  generationInIteration : t.genIter = s.genIter
  archive : t.archive = s.archive
  request : t.reqId = s.reqId
  interaction : t.itype = s.itype

end Verif.Spec
