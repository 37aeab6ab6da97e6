import Mathlib.Order.Defs.LinearOrder
import Verif.Model.Numpy

/-!
# Dominance: `desdeo_tools.utilities` (reference implementations) and
`desdeo_emo/utilities/non_dominated.py`
-/

namespace Verif

/-- Reference implementation of `desdeo_tools.utilities.dominates` (external; used at
`desdeo_emo/utilities/non_dominated.py:4,35,38`): one pass over the components, returning False at the
first component that is worse and remembering whether some component is better.  `acc` is the local
variable `dom`. -/
def dominatesAux {K : Type} [LinearOrder K] (acc : Bool) : List K → List K → Bool
  | x :: xs, y :: ys => if y < x then false else if x < y then dominatesAux true xs ys else dominatesAux acc xs ys
  | _, _ => acc

def dominates {K : Type} [LinearOrder K] (a b : List K) : Bool := dominatesAux false a b

section NonDominated
variable {F : Type} (dom : F → F → Bool)

/-- Inner loop of the reference `non_dominated` for the new row `x` against the rows before it with
their current flags: flags of rows `x` dominates are cleared; the loop stops (break) when a flagged
row dominates `x`.  Returns `x`'s flag and the updated flags. -/
def ndInner (x : F) : List F → List Bool → Bool × List Bool
  | a :: as, m :: ms =>
    if !m then
      let r := ndInner x as ms
      (r.1, m :: r.2)
    else if dom x a then
      let r := ndInner x as ms
      (r.1, false :: r.2)
    else if dom a x then (false, m :: ms)
    else
      let r := ndInner x as ms
      (r.1, m :: r.2)
  | _, ms => (true, ms)

/-- Outer loop: rows processed so far (in order) with their flags, rows to come. -/
def ndOuter (done : List F) (flags : List Bool) : List F → List Bool
  | [] => flags
  | x :: xs =>
    let r := ndInner dom x done flags
    ndOuter (done ++ [x]) (r.2 ++ [r.1]) xs

/-- Reference implementation of `desdeo_tools.utilities.non_dominated` (external; used at
`Population.py:297,300` and `BaseEA.py:94`): boolean index of the non-dominated rows. -/
def nonDominated (data : List F) : List Bool := ndOuter dom [] [] data

/-- Inner loop of `check_domination`, `desdeo_emo/utilities/non_dominated.py:32-39`: `x` is `new[i]`,
the lists are the archive and `non_dominated_in_archive`.  Evicted members are skipped (33-34); a
dominating member rejects `x` and breaks (35-37); a dominated member is evicted (38-39). -/
def checkNew (x : F) : List F → List Bool → Bool × List Bool
  | a :: as, m :: ms =>
    if !m then
      let r := checkNew x as ms
      (r.1, m :: r.2)
    else if dom a x then (false, m :: ms)
    else if dom x a then
      let r := checkNew x as ms
      (r.1, false :: r.2)
    else
      let r := checkNew x as ms
      (r.1, m :: r.2)
  | _, ms => (true, ms)

/-- Outer loop of `check_domination`, `non_dominated.py:31`. -/
def checkAll (archive : List F) : List F → List Bool → List Bool × List Bool
  | [], ms => ([], ms)
  | x :: xs, ms =>
    let r := checkNew dom x archive ms
    let q := checkAll archive xs r.2
    (r.1 :: q.1, q.2)

/-- `check_domination`, `non_dominated.py:9-40`, for a 2-D `new` (its callers make it 2-D,
`BaseEA.py:293-297`; otherwise line 28 raises ValueError). -/
def checkDomination (new archive : List F) : List Bool × List Bool :=
  checkAll dom archive new (List.replicate archive.length true)

end NonDominated

/-! ## The archive of non-dominated solutions, `desdeo_emo/EAs/BaseEA.py` -/

/-- `self.non_dominated`, the dict created at `BaseEA.py:93-101`. -/
structure NDArchive (X O F : Type) where
  individuals : List X
  objectives : List O
  fitness : List F
deriving DecidableEq

variable {X O F : Type}

/-- `BaseEA.start`, `BaseEA.py:92-101` (the `save_non_dominated` part): `nd` is
`desdeo_tools.utilities.non_dominated`. -/
def startArchive (nd : List F → List Bool) (inds : List X) (objs : List O) (fits : List F) :
    Except Err (NDArchive X O F) :=
  let mask := nd fits
  match boolIndex mask inds, boolIndex mask objs, boolIndex mask fits with
  | .ok i, .ok o, .ok f => .ok ⟨i, o, f⟩
  | _, _, _ => .error .indexError

/-- `BaseEA.non_dominated_archive`, `BaseEA.py:287-312`.  `none` is an EA whose `start()` was not called:
the attribute does not exist (AttributeError at line 299). -/
def archiveUpdate (dom : F → F → Bool) (ar : Option (NDArchive X O F)) (inds : List X) (objs : List O)
    (fits : List F) : Except Err (NDArchive X O F) :=
  match ar with
  | none => .error .attributeError
  | some a =>
    let m := checkDomination dom fits a.fitness
    match boolIndex m.2 a.individuals, boolIndex m.1 inds, boolIndex m.2 a.objectives,
        boolIndex m.1 objs, boolIndex m.2 a.fitness, boolIndex m.1 fits with
    | .ok i1, .ok i2, .ok o1, .ok o2, .ok f1, .ok f2 => .ok ⟨i1 ++ i2, o1 ++ o2, f1 ++ f2⟩
    | _, _, _, _, _, _ => .error .indexError

/-- A run with `save_non_dominated`: `start()` on the initial population, then one update per evaluated
batch (`BaseEA.py:425-427`, `MOEAD.py:143-144`).  Batches are given as lists of (individual,
objectives, fitness) rows. -/
def archiveRun (dom : F → F → Bool) (nd : List F → List Bool) (init : List (X × O × F))
    (batches : List (List (X × O × F))) : Except Err (NDArchive X O F) :=
  batches.foldl
    (fun acc b =>
      match acc with
      | .error e => .error e
      | .ok a => archiveUpdate dom (some a) (b.map (fun t => t.1)) (b.map (fun t => t.2.1)) (b.map (fun t => t.2.2)))
    (startArchive nd (init.map (fun t => t.1)) (init.map (fun t => t.2.1)) (init.map (fun t => t.2.2)))

/-! ## `end()` -/

/-- `self.objectives * self.problem._max_multiplier`, one row, `Population.py:300`; the multiplier is 1 for
minimised and -1 for maximised objectives. -/
def scaleRow {K : Type} [Mul K] (mult row : List K) : List K := List.zipWith (fun x s => x * s) row mult

/-- `BaseDecompositionEA.end`, `BaseEA.py:482-495`, and `BaseIndicatorEA.end`, `BaseIndicatorEA.py:93-103`
(without the `keep_archive` dict, modelled in `Model/Loop.lean`): `nd` is
`desdeo_tools.utilities.non_dominated`; the population's constraints are not consulted. -/
def endResult {K : Type} [Mul K] (nd : List (List K) → List Bool) (mult : List K) (inds : List X)
    (objs : List (List K)) : Except Err (List X × List (List K)) :=
  let mask := nd (objs.map (scaleRow mult))
  match boolIndex mask inds, boolIndex mask objs with
  | .ok i, .ok o => .ok (i, o)
  | _, _ => .error .indexError

end Verif
