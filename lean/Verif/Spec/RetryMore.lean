import Verif.Model.Indicator
import Verif.Spec.Retry

/-!
# Specification for C108: evaluations that raise, in the other EAs
-/

namespace Verif.Spec
open Verif

variable {X O F C U P R : Type}

/-- The same outside world of an indicator EA with its answers in another order: what it would do at moment `k` is what the first does at moment
`f k`. -/
def renumberInd (f : Nat → Nat) (io : IndOps X O F C U P R) : IndOps X O F C U P R :=
  { io with draw := fun k => io.draw (f k), mate := fun k => io.mate (f k), evaluate := fun k => io.evaluate (f k), newId := fun k => io.newId (f k) }

end Verif.Spec
