import Verif.Model.EA
import Verif.Model.RefVectors

/-!
# Model of `desdeo_emo/EAs/MOEAD.py` and `desdeo_emo/selection/MOEAD_select.py`

The reference-vector state `V` of the EA object is `MoeadVec`: the planar vectors and the neighbourhoods.
Scalarised values are `Option K`; `none` is NaN.
-/

namespace Verif

/-- `vectors.values_planar` and `neighborhoods` of the selection operator, `MOEAD_select.py:36-44`. -/
structure MoeadVec (m : Nat) (K : Type) where
  planar : List (Fin m → K)
  neigh : List (List Nat)

/-- numpy's `a < b` on floats where `none` is NaN: false if either side is NaN. -/
def nanLt {K : Type} [LT K] [DecidableRel (α := K) (· < ·)] : Option K → Option K → Bool
  | some a, some b => decide (a < b)
  | _, _ => false

/-- Zeros of the weight vector replaced by a small value, `MOEAD_select.py:97-100`; the fancy-indexed weights are
a copy, so the reference vectors themselves do not change. -/
def fixZeros {m : Nat} {K : Type} [Zero K] [DecidableEq K] (tiny : K) (w : Fin m → K) : Fin m → K :=
  fun i => if w i = 0 then tiny else w i

/-- Fancy indexing `l[ks]` with non-negative indices: `none` is IndexError. -/
def takeRows {α : Type} (l : List α) : List Nat → Option (List α)
  | [] => some []
  | k :: ks =>
    match l[k]?, takeRows l ks with
    | some a, some as => some (a :: as)
    | _, _ => none

/-- The external and random components of MOEA/D. -/
structure MoeadOps (m : Nat) (K X O F C U : Type) where
  /-- positions drawn by `np.random.choice(members, 2, replace=False)` out of that many, `MOEAD_select.py:110-112` -/
  pick : Nat → Nat → Nat × Nat
  /-- `population.mate(selected_parents)`, `MOEAD.py:124`: the rows of the offspring array -/
  mate : Nat → Pop X O F C U → Nat → Nat → Except Err (List X)
  /-- `population.repair`, `MOEAD.py:129` (the clamp itself is `Verif.repair`) -/
  repair : X → X
  /-- the scalarization function, `MOEAD_select.py:103-105`: fitness, weights, ideal point -/
  sf : F → (Fin m → K) → F → Option K
  /-- `pop.ideal_fitness_val`, `MOEAD_select.py:79` (read from the problem; may be updated by evaluations) -/
  ideal : Nat → F
  /-- the constant 0.0001, `MOEAD_select.py:98-100` -/
  tiny : K

variable {m : Nat} {K X O F C U S Q R : Type}

/-- `choose_parents`, `MOEAD_select.py:108-113`: IndexError for a row that does not exist, ValueError when fewer
than two members are there to draw from. -/
def chooseParents (pick : Nat → Nat × Nat) (neigh : List (List Nat)) (i : Nat) : Except Err (Nat × Nat) :=
  match neigh[i]? with
  | none => .error .indexError
  | some nb =>
    if nb.length < 2 then .error .valueError
    else
      match nb[(pick nb.length).1]?, nb[(pick nb.length).2]? with
      | some a, some b => .ok (a, b)
      | _, _ => .error .valueError

/-- Does the offspring beat the member, `MOEAD_select.py:78-90`, one entry of the mask. -/
def beats [LT K] [DecidableRel (α := K) (· < ·)] [Zero K] [DecidableEq K] (mo : MoeadOps m K X O F C U)
    (ideal off : F) (cur : F) (w : Fin m → K) : Bool :=
  nanLt (mo.sf off (fixZeros mo.tiny w) ideal) (mo.sf cur (fixZeros mo.tiny w) ideal)

/-- `MOEAD_select.do`, `MOEAD_select.py:46-92`.  `np.where(mask)[0]` followed by indexing is the boolean
compression.  The tiled arrays have `n_neighbors` rows and `map` stops at the shortest argument; a neighbourhood
never has more rows than that. -/
def moeadSelect [LT K] [DecidableRel (α := K) (· < ·)] [Zero K] [DecidableEq K] (mo : MoeadOps m K X O F C U)
    (ideal : F) (v : MoeadVec m K) (fitness : List F) (i : Nat) : Except Err (List Nat) :=
  match v.neigh[i]? with
  | none => .error .indexError
  | some nb =>
    match takeRows fitness nb, fitness.getLast?, takeRows v.planar nb with
    | some curs, some off, some ws =>
      .ok (compress (List.zipWith (beats mo ideal off) curs ws) nb)
    | _, _, _ => .error .indexError

/-- `population.replace(selected, offspring, results)` with the first row of the results, `MOEAD.py:139`. -/
def replaceWith (p : Pop X O F C U) (sel : List Nat) (x : X) (res : Results O F C U) :
    Except Err Unit × Pop X O F C U :=
  match res.objectives, res.fitness with
  | o :: _, f :: _ =>
    p.replace (sel.map (fun (k : Nat) => (k : Int))) x o f (res.constraints.bind List.head?)
      (res.uncertainity.bind List.head?)
  | _, _ => (.error .valueError, p)

/-- The archive update of `MOEAD.py:143-144` (also `BaseEA.py:425-427`). -/
def EA.updateND {V : Type} (ops : Ops X O F C U V S Q R) (s : EA X O F C U V S Q) (rows : List X)
    (res : Results O F C U) : EARes Unit X O F C U V S Q :=
  if s.cfg.saveND then
    match archiveUpdate ops.dom s.nd rows res.objectives res.fitness with
    | .error e => (.error e, s)
    | .ok nd => (.ok (), { s with nd := some nd })
  else (.ok (), s)

/-- The rest of the loop body once the offspring has been evaluated: selection, replacement, removal of the
extra individual, archive update, `MOEAD.py:136-144`. -/
def moeadFinish [LT K] [DecidableRel (α := K) (· < ·)] [Zero K] [DecidableEq K]
    (ops : Ops X O F C U (MoeadVec m K) S Q R) (mo : MoeadOps m K X O F C U) (i : Nat) (x : X)
    (res : Results O F C U) (s : EA X O F C U (MoeadVec m K) S Q) : EARes Unit X O F C U (MoeadVec m K) S Q :=
  match moeadSelect mo (mo.ideal s.clock) s.vec s.pop.fitness i with
  | .error e => (.error e, s)
  | .ok sel =>
    match replaceWith s.pop sel x res with
    | (.error e, p) => (.error e, { s with pop := p })
    | (.ok _, p) =>
      match p.delete [-1] with
      | (.error e, p) => (.error e, { s with pop := p })
      | (.ok _, p) => ({ s with pop := p } : EA X O F C U (MoeadVec m K) S Q).updateND ops [x] res

/-- The evaluation of the offspring and the counter, `MOEAD.py:131-134`. -/
def moeadEvaluate {V : Type} (ops : Ops X O F C U V S Q R) (x : X) (s : EA X O F C U V S Q) :
    EARes (Results O F C U) X O F C U V S Q :=
  match s.popAdd ops ⟨s.pop.ndim - 1, [x]⟩ with
  | (.error e, s) => (.error e, s)
  | (.ok res, s) => (.ok res, if s.cfg.useSurr then s else { s with fe := s.fe + 1 })

/-- One round of the `for` loop of `MOEA_D._next_gen`, `MOEAD.py:114-144`. -/
def moeadStep [LT K] [DecidableRel (α := K) (· < ·)] [Zero K] [DecidableEq K]
    (ops : Ops X O F C U (MoeadVec m K) S Q R) (mo : MoeadOps m K X O F C U) (useRepair : Bool) (i : Nat)
    (s : EA X O F C U (MoeadVec m K) S Q) : EARes Unit X O F C U (MoeadVec m K) S Q :=
  match chooseParents (mo.pick s.clock) s.vec.neigh i with
  | .error e => (.error e, s)
  | .ok (a, b) =>
    let s := { s with clock := s.clock + 1 }
    match mo.mate s.clock s.pop a b with
    | .error e => (.error e, s)
    | .ok [] => (.error .indexError, s)
    | .ok (x :: _) =>
      let x := if useRepair then mo.repair x else x
      match moeadEvaluate ops x { s with clock := s.clock + 1 } with
      | (.error e, s) => (.error e, s)
      | (.ok res, s) => moeadFinish ops mo i x res s

/-- The `for` loop over the given subproblems. -/
def moeadSteps [LT K] [DecidableRel (α := K) (· < ·)] [Zero K] [DecidableEq K]
    (ops : Ops X O F C U (MoeadVec m K) S Q R) (mo : MoeadOps m K X O F C U) (useRepair : Bool) :
    List Nat → EA X O F C U (MoeadVec m K) S Q → EARes Unit X O F C U (MoeadVec m K) S Q
  | [], s => (.ok (), s)
  | i :: is, s =>
    match moeadStep ops mo useRepair i s with
    | (.error e, s) => (.error e, s)
    | (.ok _, s) => moeadSteps ops mo useRepair is s

/-- `MOEA_D._next_gen`, `MOEAD.py:112-146`; `popSize` is `population.pop_size`. -/
def moeadNextGen [LT K] [DecidableRel (α := K) (· < ·)] [Zero K] [DecidableEq K]
    (ops : Ops X O F C U (MoeadVec m K) S Q R) (mo : MoeadOps m K X O F C U) (useRepair : Bool) (popSize : Nat)
    (s : EA X O F C U (MoeadVec m K) S Q) : EARes Unit X O F C U (MoeadVec m K) S Q :=
  match moeadSteps ops mo useRepair (List.range popSize) s with
  | (.error e, s) => (.error e, s)
  | (.ok _, s) => (.ok (), { s with gen := s.gen + 1, genIter := s.genIter + 1 })

/-- `distance_matrix` and `argsort(...)[:, :n_neighbors]`, `MOEAD_select.py:37-43,115-124`; `argsort` is an
arbitrary sorting of one row of distances (`quicksort` is not stable). -/
noncomputable def neighborhoods (argsort : List ℝ → List Nat) (n : Nat) (planar : List (Vec m)) : List (List Nat) :=
  planar.map (fun v => (argsort (planar.map (fun w => norm2 (fun i => v i - w i)))).take n)

/-- The reference vector object and the neighbourhoods of the selection operator. -/
structure MoeadRV (m : Nat) where
  rv : RV m
  neigh : List (List Nat)

/-- `MOEAD_select.__init__`, `MOEAD_select.py:25-44`. -/
noncomputable def moeadInit (argsort : List ℝ → List Nat) (n : Nat) (rv : RV m) : MoeadRV m :=
  ⟨rv, neighborhoods argsort n rv.planar⟩

/-- What a call does to the vectors: `adapt_RVs` (`MOEAD_select.py:115-124`) recomputes the neighbourhoods, the four
inherited `manage_*` methods (`SelectionBase.py:252-301`) do not. -/
noncomputable def moeadVecCall (argsort : List ℝ → List Nat) (n : Nat) (s : MoeadRV m) (c : VecCall m) :
    Except Err (MoeadRV m) :=
  match s.rv.call c with
  | .error e => .error e
  | .ok rv =>
    match c with
    | .adapt _ => .ok ⟨rv, neighborhoods argsort n rv.planar⟩
    | _ => .ok ⟨rv, s.neigh⟩

/-- A history of calls; one that raises leaves everything as it was. -/
noncomputable def moeadVecRun (argsort : List ℝ → List Nat) (n : Nat) (s : MoeadRV m) : List (VecCall m) → MoeadRV m
  | [] => s
  | c :: cs =>
    match moeadVecCall argsort n s c with
    | .ok t => moeadVecRun argsort n t cs
    | .error _ => moeadVecRun argsort n s cs

/-- What the generation body reads of it. -/
def MoeadRV.toVec (s : MoeadRV m) : MoeadVec m ℝ := ⟨s.rv.planar, s.neigh⟩

end Verif
