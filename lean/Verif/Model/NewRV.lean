import Verif.Model.Focused
import Mathlib.Algebra.BigOperators.Fin

/-!
# Model of `desdeo_emo/utilities/newRV.py`

`newRV` is a `ReferenceVectors` object with two further kinds of interaction.  A row with a NaN in it is `none`: every array below that
still has finite entries next to a NaN is multiplied by a rotation matrix afterwards, which spreads the NaN over the row.  `k + 1` is
the number of objectives.  `rotate`, `normalize` and `householder` (`newRV.py:65-94`) are the functions of the same names of
`ReferenceVectors.py`, modelled by `rotateN`.  The comparisons `newvals == []` and `delete_rows == []` are those of numpy before
version 1.25 (false on an array with entries; later versions raise).
-/

open scoped BigOperators

namespace Verif

variable {k : Nat}

/-- The factor by which `dist_based_translation` multiplies a row at distance `d`, `newRV.py:102-105`; `1 / 0` is infinite in numpy, so a
row at distance zero gets the factor `1 / (1 + inf) = 0`. -/
noncomputable def pullFactor (mx d : ℝ) : ℝ :=
  open Classical in if d = 0 then 0 else 1 / (1 + 5 * (1 / (d * d) - 1 / (mx * mx)))

/-- `dist_based_translation`, `newRV.py:97-105`: `np.amax` of nothing raises ValueError; a NaN distance makes the greatest distance NaN, and
a greatest distance of zero makes `inf - inf`; both turn every row into NaN. -/
noncomputable def distTranslate (W : List (Option (Vec k))) : Except Err (List (Option (Vec k))) :=
  open Classical in
  if W = [] then .error .valueError
  else if none ∈ W then .ok (W.map (fun _ => none))
  else
    let mx := ((W.filterMap id).map norm2).foldl max 0
    if mx = 0 then .ok (W.map (fun _ => none))
    else .ok (W.map (Option.map (fun w i => w i * pullFactor mx (norm2 w))))

/-- `project_to_hyperplane` on a row, `newRV.py:17-19`. -/
def projectRow (v : Vec (k + 1)) : Vec (k + 1) := Fin.snoc (Fin.init v) 1

/-- `translate_to_hypersphere` on a row, `newRV.py:21-25`: the square root of a negative number is NaN. -/
noncomputable def sphereRow (v : Vec (k + 1)) : Option (Vec (k + 1)) :=
  open Classical in
  if 0 ≤ 1 - ∑ i, Fin.init v i ^ 2 then some (Fin.snoc (Fin.init v) (Real.sqrt (1 - ∑ i, Fin.init v i ^ 2))) else none

/-- `interact_v2`, `newRV.py:27-34` with `newRV.py:11-15`: the outcome and the object afterwards.  The target `[0, 0, 1]` has three entries: with
another number of objectives `rotate` raises ValueError, and with three it is the last axis. -/
noncomputable def FRV.interactV2 (s : FRV (k + 1)) (p : Vec (k + 1)) : Except Err Unit × FRV (k + 1) :=
  if k + 1 ≠ 3 then (.error .valueError, s)
  else
    let rotated := rotateN p (axis (Fin.last k)) s.values
    let flat := rotated.map (Option.map projectRow)
    match distTranslate (flat.map (Option.map Fin.init)) with
    | .error e => (.error e, { s with values := flat })
    | .ok W =>
      let pulled : List (Option (Vec (k + 1))) := W.map (Option.map (fun w => Fin.snoc w 1))
      let sphere := pulled.map (fun r => r.bind sphereRow)
      (.ok (), { s with values := rotateN (axis (Fin.last k)) p sphere })

/-- `list(product([-1, 1], repeat=n))`, `newRV.py:40`. -/
def pmOnes : Nat → List (List ℝ)
  | 0 => [[]]
  | n + 1 => [-1, 1].flatMap (fun a => (pmOnes n).map (fun r => a :: r))

/-- `combinations`, `newRV.py:40-41`: the last column is overwritten with `1`, so every row occurs twice. -/
noncomputable def signRows (k : Nat) : List (Vec (k + 1)) :=
  (pmOnes (k + 1)).map (fun l => Fin.snoc (toVec k l) 1)

/-- `newvals` before the translation, `newRV.py:42-47`. -/
noncomputable def mirrored (I : List (Option (Vec (k + 1)))) : List (Option (Vec (k + 1))) :=
  (signRows k).flatMap (fun c => I.map (Option.map (fun v i => v i * c i)))

/-- The rows that `interact_v3` keeps: no entry is negative, `newRV.py:54-62`; comparisons with NaN are false. -/
noncomputable def keptRow (r : Option (Vec (k + 1))) : Bool :=
  open Classical in
  match r with
  | none => true
  | some v => decide (¬ ∃ i, v i < 0)

/-- `interact_v3`, `newRV.py:36-62`: the outcome and the object afterwards. -/
noncomputable def FRV.interactV3 (s : FRV (k + 1)) (p : Vec (k + 1)) : Except Err Unit × FRV (k + 1) :=
  match distTranslate ((mirrored s.init).map (Option.map Fin.init)) with
  | .error e => (.error e, { s with values := s.values.map (fun _ => some (fun _ => 0)) })
  | .ok W =>
    let ones : List (Option (Vec (k + 1))) := W.map (Option.map (fun w => Fin.snoc w 1))
    let sphere := ones.map (fun r => r.bind sphereRow)
    if k + 1 ≠ 3 then (.error .valueError, { s with values := sphere })
    else (.ok (), { s with values := (rotateN (axis (Fin.last k)) p sphere).filter keptRow })

/-- A history of calls of `interact_v2` (`newRV.py:27-34`), exceptions caught by the caller. -/
noncomputable def FRV.v2Calls (s : FRV (k + 1)) (ps : List (Vec (k + 1))) : FRV (k + 1) := ps.foldl (fun s p => (s.interactV2 p).2) s

/-- A freshly created uniform object (`newRV.py:8-9` inherits the constructor, `ReferenceVectors.py:149-213`), in the representation with NaN. -/
def RV.asFRV {m : Nat} (s : RV m) : FRV m :=
  { kind := .uniform, init := s.init.map some, initP := s.initP.map some, values := s.values.map some, planar := s.planar.map some, number := s.number }

end Verif
