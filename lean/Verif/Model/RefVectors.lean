import Mathlib.Analysis.Real.Sqrt
import Mathlib.Algebra.BigOperators.Fin
import Mathlib.Data.Matrix.Mul
import Mathlib.Analysis.SpecialFunctions.Trigonometric.Inverse
import Verif.Model.EA

/-!
# Model of `desdeo_emo/utilities/ReferenceVectors.py`

A row of an (n, m) array is a function `Fin m → ℝ`; the arithmetic is exact.  Division by zero gives NaN or
inf in numpy and 0 here: theorems whose content would depend on that carry a hypothesis excluding it.
-/

open scoped BigOperators

namespace Verif

/-- A row of a float array with `m` columns. -/
abbrev Vec (m : Nat) := Fin m → ℝ

variable {m : Nat}

/-- `np.linalg.norm(v)`, `ReferenceVectors.py:21-23,246`. -/
noncomputable def norm2 (v : Vec m) : ℝ := Real.sqrt (∑ i, v i ^ 2)

/-- `np.linalg.norm(v, ord=1)`, `ReferenceVectors.py:368`. -/
def norm1 (v : Vec m) : ℝ := ∑ i, |v i|

/-- `np.finfo(float).eps`. -/
noncomputable def eps : ℝ := 1 / 2 ^ 52

/-- The spherical part of `normalize`, one row, `ReferenceVectors.py:246-249`. -/
noncomputable def unitRow (v : Vec m) : Vec m := fun i => v i / (if norm2 v = 0 then eps else norm2 v)

/-- The planar part of `normalize`, one row, `ReferenceVectors.py:247,250`. -/
noncomputable def planarRow (v : Vec m) : Vec m := fun i => v i / ∑ j, v j

/-- The vector arrays of a `ReferenceVectors` object. -/
structure RV (m : Nat) where
  init : List (Vec m)
  initP : List (Vec m)
  values : List (Vec m)
  planar : List (Vec m)
  number : Nat

/-- `ReferenceVectors.normalize`, `ReferenceVectors.py:243-250`. -/
noncomputable def RV.normalize (s : RV m) : RV m :=
  { s with number := s.values.length, values := s.values.map unitRow, planar := s.planar.map planarRow }

/-- Row `i` of `np.eye(m)`. -/
def axis (i : Fin m) : Vec m := fun j => if i = j then 1 else 0

/-- The rows of `np.eye(m)`. -/
def axes (m : Nat) : List (Vec m) := List.ofFn (fun i : Fin m => axis i)

/-- `add_edge_vectors`, `ReferenceVectors.py:472-483`. -/
noncomputable def RV.addEdges (s : RV m) : RV m :=
  ({ s with values := s.values ++ axes m, planar := s.planar ++ axes m,
            number := (s.values ++ axes m).length } : RV m).normalize

/-! ## Creation -/

/-- `itertools.combinations(l, k)` in its order. -/
def combos {α : Type} : Nat → List α → List (List α)
  | 0, _ => [[]]
  | _ + 1, [] => []
  | k + 1, x :: xs => (combos k xs).map (x :: ·) ++ combos (k + 1) xs

/-- `range(a, b)`. -/
def pyRange (a b : Nat) : List Nat := List.range' a (b - a)

/-- One row of `temp = temp1 - temp2 - 1`, `ReferenceVectors.py:199-202`: entry `i` of the combination
minus `i` minus 1. -/
def shiftRow (i : Nat) : List Nat → List Int
  | [] => []
  | c :: cs => ((c : Int) - i - 1) :: shiftRow (i + 1) cs

/-- One row of `weight`, `ReferenceVectors.py:206-209`: the first entry of `temp`, the differences of
neighbouring entries, and the resolution minus the last one. -/
def weightRow (r : Int) : List Int → List Int
  | [] => []
  | [t] => [t, r - t]
  | t :: t' :: ts => t :: go t (t' :: ts)
where
  go : Int → List Int → List Int
  | prev, [] => [r - prev]
  | prev, t :: ts => (t - prev) :: go t ts

/-- The integer array `weight`, `ReferenceVectors.py:197-209`. -/
def weights (m r : Nat) : List (List Int) :=
  (combos (m - 1) (pyRange 1 (m + r))).map (fun c => weightRow r (shiftRow 0 c))

/-- Row of `weight / self.lattice_resolution`, `ReferenceVectors.py:210`. -/
noncomputable def latticeRow (m : Nat) (r : Nat) (w : List Int) : Vec m := fun i => (w.getD i 0 : ℝ) / r

/-- `_create("Uniform")` and lines 174-176 of the constructor, `ReferenceVectors.py:180-213`.  With one
objective the column `temp[:, 0]` does not exist. -/
noncomputable def RV.create (m r : Nat) : Except Err (RV m) :=
  if m < 2 then .error .indexError
  else
    let v := (weights m r).map (latticeRow m r)
    let s := ({ init := [], initP := [], values := v, planar := v, number := comb (r + m - 1) (m - 1) } : RV m).normalize
    .ok { s with init := s.values, initP := s.planar }

/-- The resolution search, `ReferenceVectors.py:157-167`, with `fuel` rounds; `none`: still searching. -/
def searchResolution (m n : Nat) : Nat → Nat → Option Nat
  | 0, _ => none
  | fuel + 1, t =>
    if comb (t + 1 + m - 1) (m - 1) > n then some (t + 1 - 1) else searchResolution m n fuel (t + 1)

/-- The resolution used by the constructor, `ReferenceVectors.py:152-167`: the given one, or the result
of the search (`n + 1` rounds suffice for two or more objectives; `none`: it never ends). -/
def chooseResolution (m : Nat) (resolution number : Option Nat) : Except Err (Option Nat) :=
  match resolution with
  | some r => .ok (some r)
  | none =>
    match number with
    | none => .error .valueError
    | some n => .ok (searchResolution m n (n + 1) 0)

/-! ## Adaptation -/

/-- `np.amax(fitness, axis=0)`; numpy raises ValueError for no rows. -/
noncomputable def colMax : List (Vec m) → Except Err (Vec m)
  | [] => .error .valueError
  | r :: rs => .ok (rs.foldl (fun a b i => max (a i) (b i)) r)

/-- `np.amin(fitness, axis=0)`. -/
noncomputable def colMin : List (Vec m) → Except Err (Vec m)
  | [] => .error .valueError
  | r :: rs => .ok (rs.foldl (fun a b i => min (a i) (b i)) r)

/-- `adapt`, `ReferenceVectors.py:262-273`. -/
noncomputable def RV.adapt (s : RV m) (fitness : List (Vec m)) : Except Err (RV m) :=
  match colMax fitness, colMin fitness with
  | .ok hi, .ok lo => .ok ({ s with values := s.init.map (fun v i => v i * (hi i - lo i)) } : RV m).normalize
  | .error e, _ => .error e
  | _, .error e => .error e

/-- `t * v + (1 - t) * z`, `ReferenceVectors.py:300-306,311-320`. -/
def blend (t : ℝ) (z v : Vec m) : Vec m := fun i => t * v i + (1 - t) * z i

/-- `interactive_adapt_1`, `ReferenceVectors.py:275-325`; no row in `z` (and some solutions) makes
`np.concatenate` raise ValueError. -/
noncomputable def RV.adapt1 (s : RV m) (z : List (Vec m)) (nSolutions : Nat) (t : ℝ) : Except Err (RV m) :=
  if z.length = nSolutions then .ok ({ s with values := s.init, planar := s.initP } : RV m).normalize
  else
    match z with
    | [] => .error .valueError
    | [z1] => .ok ({ s with values := s.init.map (blend t z1), planar := s.initP.map (blend t z1) } : RV m).normalize
    | zs => .ok ({ s with values := zs.flatMap (fun zi => s.init.map (blend t zi)),
                          planar := zs.flatMap (fun zi => s.initP.map (blend t zi)) } : RV m).normalize

/-- `interactive_adapt_2`, `ReferenceVectors.py:327-391`. -/
noncomputable def RV.adapt2 (s : RV m) (z : List (Vec m)) (nSolutions : Nat) (dist : ℝ) : Except Err (RV m) := by
  classical exact
  if z.length = nSolutions then .ok ({ s with values := s.init, planar := s.initP } : RV m).normalize
  else
    let vc := z.map (fun v i => v i / norm1 v)
    let mask := s.planar.map (fun value => vc.all (fun c => decide (norm2 (fun i => c i - value i) ≥ dist)))
    if s.values.length ≠ mask.length then .error .indexError
    else .ok { s with values := compress mask s.values, planar := compress mask s.planar }

/-- `iteractive_adapt_3`, `ReferenceVectors.py:393-416`. -/
noncomputable def RV.adapt3 (s : RV m) (ref : Vec m) (t : ℝ) : RV m :=
  ({ s with values := s.init.map (blend t ref), planar := s.initP.map (blend t ref) } : RV m).normalize

/-- `interactive_adapt_4`, `ReferenceVectors.py:418-445`; `w` is the latin hypercube sample drawn for
`self.number_of_vectors` rows. -/
noncomputable def RV.adapt4 (s : RV m) (lo hi : Vec m) (lhs : Nat → List (Vec m)) : RV m :=
  let w := (lhs s.number).map (fun u i => u i * (hi i - lo i) + lo i)
  ({ s with values := w, planar := w } : RV m).normalize

/-- The vector part of the four `manage_*` methods and of `adapt_RVs`, `SelectionBase.py:102-104,252-301`:
what one accepted preference does.  `z` are the rows `pop.objectives[response]`, `n` the number of solutions;
`refPoint`: the minimised reference point minus the ideal, before normalisation. -/
inductive VecCall (m : Nat)
  | adapt (fitness : List (Vec m))
  | refPoint (diff : Vec m)
  | preferred (z : List (Vec m)) (n : Nat)
  | nonPreferred (z : List (Vec m)) (n : Nat)
  | ranges (lo hi : Vec m) (lhs : Nat → List (Vec m))

/-- `SelectionBase.py:102-104,252-301`. -/
noncomputable def RV.call (s : RV m) : VecCall m → Except Err (RV m)
  | .adapt f => s.adapt f
  | .refPoint d => .ok (s.adapt3 (fun i => d i / norm2 d) (1 / 5)).addEdges
  | .preferred z n => (s.adapt1 z n (1 / 5)).map RV.addEdges
  | .nonPreferred z n => (s.adapt2 z n (1 / 5)).map RV.addEdges
  | .ranges lo hi lhs => .ok (s.adapt4 lo hi lhs).addEdges

/-- A history of calls; one that raises leaves the vectors as they were. -/
noncomputable def RV.run (s : RV m) : List (VecCall m) → RV m
  | [] => s
  | c :: cs =>
    match s.call c with
    | .ok t => t.run cs
    | .error _ => s.run cs

/-! ## Angles and rotation -/

/-- `neighbouring_angles`, `ReferenceVectors.py:252-260`: for every vector the arccos of the second
largest cosine to the vectors (clipped at 1); fewer than two vectors: IndexError. -/
noncomputable def neighbouringAngles (values : List (Vec m)) : Except Err (List ℝ) :=
  if values.length < 2 then .error .indexError
  else .ok (values.map (fun v =>
    let cs := (values.map (fun w => ∑ i, v i * w i)).mergeSort (fun a b => decide (a ≥ b))
    Real.arccos (min (cs.getD 1 0) 1)))

/-- The module function `normalize` on one vector, `ReferenceVectors.py:20-23`. -/
noncomputable def unitVec (v : Vec m) : Vec m := fun i => v i / norm2 v

/-- `householder`, `ReferenceVectors.py:66-73`. -/
noncomputable def householder (v : Vec m) : Matrix (Fin m) (Fin m) ℝ :=
  1 - Matrix.of (fun i j => 2 * (v i * v j) / ∑ k, v k * v k)

/-- The matrix built by `rotate`, `ReferenceVectors.py:54-61`. -/
noncomputable def rotationMatrix (a b : Vec m) : Matrix (Fin m) (Fin m) ℝ :=
  let a := unitVec a
  let b := unitVec b
  let mid := unitVec (fun i => a i + b i)
  let q1 := householder (fun i => a i - mid i)
  let q2 := householder (fun i => mid i - b i)
  q2 * q1

/-- `rotate`, `ReferenceVectors.py:49-63` (rows of `np.matmul(other_vectors, R.T)`). -/
noncomputable def rotate (a b : Vec m) (others : List (Vec m)) : List (Vec m) :=
  others.map (fun x => (rotationMatrix a b).mulVec x)

/-- `rotate_toward`, `ReferenceVectors.py:76-112`; `np.linalg.solve` on the 2 by 2 system by Cramer's rule
(it raises LinAlgError on a singular matrix, which needs `cos phi = ±1`). -/
noncomputable def rotateToward (initial final : Vec m) (others : List (Vec m)) (degrees : ℝ) :
    Except Err (List (Vec m) × Bool) :=
  let f := unitVec final
  let a := unitVec initial
  let cphi := ∑ i, a i * f i
  let theta := degrees * Real.pi / 180
  let phi := Real.arccos cphi
  open Classical in
  if phi < theta then .ok (rotate a f others, true)
  else
    let b0 := Real.cos (phi - theta)
    let b1 := Real.cos theta
    let det := cphi * cphi - 1
    if det = 0 then .error .linAlgError
    else
      let x0 := (b0 * cphi - b1) / det
      let x1 := (cphi * b1 - b0) / det
      .ok (rotate a (fun i => x0 * a i + x1 * f i) others, false)

end Verif
