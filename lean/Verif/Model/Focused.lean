import Verif.Model.RefVectors

/-!
# Model of the focused reference vectors, `desdeo_emo/utilities/ReferenceVectors.py`

`creation_type="Focused"` and `"Sparse_Focused"`, `shear`, `slow_interactive_adapt`.  A row that numpy would fill with NaN (or
infinity) after a division by zero is `none` here, so that the cases in which a divisor vanishes are visible.
-/

namespace Verif

variable {m : Nat}

/-- `creation_type`, `ReferenceVectors.py:180-241`. -/
inductive CreationType | uniform | focused | sparseFocused | other
deriving DecidableEq, Repr

/-- No divisor of `rotate(a, b, ·)` is zero, `ReferenceVectors.py:54-61` (the two normalisations, the middle vector, the two
reflectors). -/
def Rotatable (a b : Vec m) : Prop :=
  norm2 a ≠ 0 ∧ norm2 b ≠ 0 ∧ norm2 (fun i => unitVec a i + unitVec b i) ≠ 0 ∧
  ∑ k, (unitVec a k - unitVec (fun i => unitVec a i + unitVec b i) k) * (unitVec a k - unitVec (fun i => unitVec a i + unitVec b i) k) ≠ 0 ∧
  ∑ k, (unitVec (fun i => unitVec a i + unitVec b i) k - unitVec b k) * (unitVec (fun i => unitVec a i + unitVec b i) k - unitVec b k) ≠ 0

/-- `rotate`, `ReferenceVectors.py:49-63`: a zero divisor makes the whole matrix NaN, hence every row; a NaN row stays one. -/
noncomputable def rotateN (a b : Vec m) (V : List (Option (Vec m))) : List (Option (Vec m)) :=
  open Classical in
  if Rotatable a b then V.map (Option.map (fun x => (rotationMatrix a b).mulVec x)) else V.map (fun _ => none)

/-- `rotate_toward`, `ReferenceVectors.py:76-112`.  With a NaN or zero start or a zero target the angle is NaN, the comparison is false, and
`np.linalg.solve` of a NaN matrix gives NaN without raising. -/
noncomputable def rotateTowardN (initial : Option (Vec m)) (final : Vec m) (V : List (Option (Vec m))) (degrees : ℝ) :
    Except Err (List (Option (Vec m)) × Bool) :=
  match initial with
  | none => .ok (V.map (fun _ => none), false)
  | some ini =>
    open Classical in
    if norm2 ini = 0 ∨ norm2 final = 0 then .ok (V.map (fun _ => none), false)
    else
      let f := unitVec final
      let a := unitVec ini
      let cphi := ∑ i, a i * f i
      let theta := degrees * Real.pi / 180
      let phi := Real.arccos cphi
      if phi < theta then .ok (rotateN a f V, true)
      else
        let b0 := Real.cos (phi - theta)
        let b1 := Real.cos theta
        let det := cphi * cphi - 1
        if det = 0 then .error .linAlgError
        else
          let x0 := (b0 * cphi - b1) / det
          let x1 := (cphi * b1 - b0) / det
          .ok (rotateN a (fun i => x0 * a i + x1 * f i) V, false)

/-- `shear` on one row, `ReferenceVectors.py:42-46`; the last entry is the `z` axis. -/
noncomputable def shearRow {k : Nat} (degrees : ℝ) (v : Vec (k + 1)) : Vec (k + 1) :=
  unitVec (fun i => if i = Fin.last k then v i + norm2 v * (1 / Real.tan (degrees * Real.pi / 180)) else v i)

/-- `list(product(*[[0, 1, -1]] * k))`, `ReferenceVectors.py:215-217`. -/
def signs : Nat → List (List ℝ)
  | 0 => [[]]
  | k + 1 => [0, 1, -1].flatMap (fun a => (signs k).map (fun r => a :: r))

/-- A row of the array made of the list, `ReferenceVectors.py:217`. -/
def toVec (k : Nat) (l : List ℝ) : Vec k := fun i => l.getD i 0

/-- `np.hstack((row, 0))`, `ReferenceVectors.py:220`, `ReferenceVectors.py:233`. -/
def snocZero {k : Nat} (v : Vec k) : Vec (k + 1) := Fin.snoc v 0

/-- The rows before `shear`, `ReferenceVectors.py:215-220` and `ReferenceVectors.py:230-233`. -/
noncomputable def flatRows (k : Nat) : CreationType → List (Vec (k + 1))
  | .focused => (((signs k).tail).map (toVec k)).map (fun v => snocZero (unitVec v))
  | .sparseFocused => (axes k ++ (axes k).map (fun v i => - v i)).map (fun v => snocZero (unitVec v))
  | _ => []

/-- The rows before `rotate`, `ReferenceVectors.py:221-223` and `ReferenceVectors.py:234-236`. -/
noncomputable def coneRows (k : Nat) (t : CreationType) : List (Vec (k + 1)) :=
  axis (Fin.last k) :: (flatRows k t).map (shearRow 5)

/-- The arrays of a focused `ReferenceVectors` object, `ReferenceVectors.py:149-176`. -/
structure FRV (m : Nat) where
  kind : CreationType
  init : List (Option (Vec m))
  initP : List (Option (Vec m))
  values : List (Option (Vec m))
  planar : List (Option (Vec m))
  number : Nat

/-- The planar part of `normalize` on one row, `ReferenceVectors.py:247-250`; a zero sum gives NaN or infinity. -/
noncomputable def planarRowN (v : Vec m) : Option (Vec m) :=
  open Classical in if ∑ j, v j = 0 then none else some (planarRow v)

/-- `ReferenceVectors.normalize`, `ReferenceVectors.py:243-250`. -/
noncomputable def FRV.normalize (s : FRV m) : FRV m :=
  { s with number := s.values.length, values := s.values.map (Option.map unitRow), planar := s.planar.map (fun r => r.bind planarRowN) }

/-- `add_edge_vectors`, `ReferenceVectors.py:472-483`. -/
noncomputable def FRV.addEdges (s : FRV m) : FRV m :=
  ({ s with values := s.values ++ (axes m).map some, planar := s.planar ++ (axes m).map some } : FRV m).normalize

/-- The constructor for the focused creation types, `ReferenceVectors.py:149-178` with `ReferenceVectors.py:214-241`: the resolution is
demanded (ValueError) although it is not used; an unknown creation type leaves a list without `transpose` (AttributeError).  `k + 1`
objectives.  The uniform type is modelled by `RV.create`. -/
noncomputable def FRV.construct (k : Nat) (resolution number : Option Nat) (t : CreationType) (ref : Option (Vec (k + 1))) :
    Except Err (FRV (k + 1)) :=
  match chooseResolution (k + 1) resolution number with
  | .error e => .error e
  | .ok _ =>
    match t with
    | .focused | .sparseFocused =>
      let p := ref.getD (fun _ => 1)
      let v := rotateN (axis (Fin.last k)) p ((coneRows k t).map some)
      let s : FRV (k + 1) := (({ kind := t, init := [], initP := [], values := v, planar := v, number := v.length } : FRV (k + 1)).normalize).addEdges
      .ok { s with init := s.values, initP := s.planar }
    | _ => .error .attributeError

/-- `slow_interactive_adapt`, `ReferenceVectors.py:447-470`: the result (`None` if the first vector equals the reference point) and the
object afterwards. -/
noncomputable def FRV.slowAdapt (s : FRV m) (p : Vec m) : Except Err (Option Bool) × FRV m :=
  if s.kind ≠ .focused ∧ s.kind ≠ .sparseFocused then (.error .assertionError, s)
  else
    match s.values with
    | [] => (.error .indexError, s)
    | first :: _ =>
      open Classical in
      if first = some p then (.ok none, s)
      else
        match rotateTowardN first p (s.values.take (s.values.length - m)) 5 with
        | .error e => (.error e, s)
        | .ok (v, reached) =>
          (.ok (some reached), (({ s with values := v, planar := v } : FRV m).addEdges).normalize)

/-- A history of calls of `slow_interactive_adapt` (`ReferenceVectors.py:447-470`), exceptions caught by the caller. -/
noncomputable def FRV.slowCalls (s : FRV m) (ps : List (Vec m)) : FRV m := ps.foldl (fun s p => (s.slowAdapt p).2) s

end Verif
