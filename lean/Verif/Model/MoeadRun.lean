import Verif.Model.MOEAD
import Verif.Model.Runs

/-!
# MOEA/D as a whole: the generation of `Model/MOEAD.lean` inside the loop of `Model/EA.lean`

The vector state of the EA object is the reference vector object together with the neighbourhoods (`MoeadRV`).
-/

namespace Verif

variable {X O F C U V W S Q R : Type} {m : Nat}

/-- The EA object with another view of the selection operator's vectors. -/
def EA.withVec (s : EA X O F C U V S Q) (w : W) : EA X O F C U W S Q :=
  { cfg := s.cfg, clock := s.clock, pop := s.pop, vec := w, sel := s.sel, prob := s.prob, iter := s.iter, gen := s.gen,
    genIter := s.genIter, fe := s.fe, reqId := s.reqId, itype := s.itype, typeSet := s.typeSet, allowRead := s.allowRead,
    archive := s.archive, nd := s.nd, trueEvals := s.trueEvals, log := s.log }

/-- The components a MOEA/D generation uses (`evaluate` and `dominates`); the others are not called by it. -/
def Ops.forGeneration (ops : Ops X O F C U V S Q R) : Ops X O F C U W S Q R :=
  { adapt := fun v _ => v, respond := fun _ _ v _ _ => (.ok (), v), mate := ops.mate, evaluate := ops.evaluate,
    select := fun _ v t _ => (.ok [], v, t), newId := ops.newId, probManage := ops.probManage, probReeval := ops.probReeval,
    dom := ops.dom, nonDom := ops.nonDom }

/-- `MOEA_D._next_gen`, `MOEAD.py:112-146`, on the object: the generation reads `vectors.values_planar` and `neighborhoods`
and changes neither. -/
noncomputable def moeadBody (ops : Ops X O F C U (MoeadRV m) S Q R) (mo : MoeadOps m ℝ X O F C U) (useRepair : Bool) (popSize : Nat)
    (s : EA X O F C U (MoeadRV m) S Q) : EARes Unit X O F C U (MoeadRV m) S Q :=
  let r := moeadNextGen ops.forGeneration mo useRepair popSize (s.withVec s.vec.toVec)
  (r.1, r.2.withVec s.vec)

/-- `MOEAD_select.adapt_RVs`, `MOEAD_select.py:115-124` (an empty population would raise). -/
noncomputable def moeadAdapt (argsort : List ℝ → List Nat) (n : Nat) (v : MoeadRV m) (fitness : List (Vec m)) : MoeadRV m :=
  match moeadVecCall argsort n v (.adapt fitness) with
  | .ok w => w
  | .error _ => v

/-- The inherited `manage_*` methods, `SelectionBase.py:252-301`, as `rvRespond`; the neighbourhoods are not recomputed. -/
noncomputable def moeadRespond (argsort : List ℝ → List Nat) (n : Nat)
    (toCall : Nat → Kind → Pop X O (Vec m) C U → R → Except Err (VecCall m))
    (clock : Nat) (k : Kind) (v : MoeadRV m) (p : Pop X O (Vec m) C U) (r : R) : Except Err Unit × MoeadRV m :=
  match toCall clock k p r with
  | .error e => (.error e, v)
  | .ok c =>
    match moeadVecCall argsort n v c with
    | .error e => (.error e, v)
    | .ok w => (.ok (), w)

/-- `MOEA_D.__init__`, `MOEAD.py:62-109`, from a problem: `n_parents ≠ 2` raises ValueError after the base class has evaluated the
population; the vectors are those of `MOEAD_select.__init__` for the population size. -/
noncomputable def moeadConstruct (ops : Ops X O (Vec m) C U (MoeadRV m) S Q R) (design : Nat → Nat → Except Err (Batch X))
    (argsort : List ℝ → List Nat) (nNeighbors nParents : Nat) (sel0 : S) (prob0 : Q)
    (interact useSurr keepArchive saveND : Bool) (nIter nGen total : Nat) (pty : ProblemType) (nCons : Nat)
    (populationSize latticeResolution : Option Nat) : Except Err (EA X O (Vec m) C U (MoeadRV m) S Q) :=
  match construct ops design (fun _ => (⟨⟨[], [], [], [], 0⟩, []⟩ : MoeadRV m)) (fun _ => sel0) prob0 interact useSurr keepArchive saveND
      nIter nGen total (some (pty, m, nCons)) none populationSize latticeResolution with
  | .error e => .error e
  | .ok s =>
    if nParents ≠ 2 then .error .valueError
    else
      match chooseResolution m none (some (choosePopSize m populationSize latticeResolution)) with
      | .error e => .error e
      | .ok none => .error .valueError
      | .ok (some r) =>
        match RV.create m r with
        | .error e => .error e
        | .ok v => .ok { s with vec := moeadInit argsort nNeighbors v }

/-- `MOEA_D.__init__`, `MOEAD.py:62-109`, from a given population `p` whose `pop_size` is `popSize` (`problem=None`, no `population_size` or
`lattice_resolution`, `BaseEA.py:386-393`): nothing is evaluated; the vectors are those of `MOEAD_select.__init__` for `popSize`. -/
noncomputable def moeadFromPopulation (ops : Ops X O (Vec m) C U (MoeadRV m) S Q R) (design : Nat → Nat → Except Err (Batch X))
    (argsort : List ℝ → List Nat) (nNeighbors nParents : Nat) (sel0 : S) (prob0 : Q)
    (interact useSurr keepArchive saveND : Bool) (nIter nGen total : Nat) (p : Pop X O (Vec m) C U) (popSize : Nat) :
    Except Err (EA X O (Vec m) C U (MoeadRV m) S Q) :=
  match construct ops design (fun _ => (⟨⟨[], [], [], [], 0⟩, []⟩ : MoeadRV m)) (fun _ => sel0) prob0 interact useSurr keepArchive saveND
      nIter nGen total none (some (p, popSize)) none none with
  | .error e => .error e
  | .ok s =>
    if nParents ≠ 2 then .error .valueError
    else
      match chooseResolution m none (some popSize) with
      | .error e => .error e
      | .ok none => .error .valueError
      | .ok (some r) =>
        match RV.create m r with
        | .error e => .error e
        | .ok v => .ok { s with vec := moeadInit argsort nNeighbors v }

end Verif
