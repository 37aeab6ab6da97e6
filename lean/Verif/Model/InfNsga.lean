import Verif.Model.InfSelect
import Verif.Model.NaNNsga

/-!
# `NSGAIII_select.do` when a fitness value may be infinite or NaN

The floats are those of `Model/InfSelect.lean`.  `np.argmin` of the distances returns the first NaN if there is one, which is the first
least entry when NaN is put below everything: the distances are `WithBot EReal` with NaN as `⊥`.
-/

open scoped BigOperators

namespace Verif

variable {m : Nat}

/-- `a <= b` on floats. -/
noncomputable def xLe : XF → XF → Bool
  | some a, some b => decide (a ≤ b)
  | _, _ => false

/-- One entry of `__F` with small values substituted, `NSGAIII_select.py:139-141`: `__F < 1e-3` is false for NaN. -/
noncomputable def xFloor : XF → XF
  | some d => some (if d < ((1 / 10 ^ 3 : ℝ) : EReal) then 0 else d)
  | none => none

/-- `np.max` of a row. -/
noncomputable def rowMaxX (f : XVec m) : XF :=
  match List.ofFn f with
  | [] => some 0
  | x :: xs => xs.foldl xMax2 x

/-- Entry `(k, row)` of `F_asf`, `NSGAIII_select.py:131-145`. -/
noncomputable def asfX (ideal : XVec m) (k : Fin m) (f : XVec m) : XF :=
  rowMaxX (fun i => xMul (xFloor (xSub (f i) (ideal i))) (some ((if k = i then 1 else 10 ^ 6 : ℝ) : EReal)))

/-- `_F`: the old extreme points (if any) and the front, `NSGAIII_select.py:134-137`. -/
def extremePoolX (front : List (XVec m)) : Option (List (XVec m)) → List (XVec m)
  | none => front
  | some e => e ++ front

/-- One row of `_F[I, :]`, `NSGAIII_select.py:139-147`. -/
noncomputable def extremeRowX (pool : List (XVec m)) (ideal : XVec m) (k : Fin m) : Except Err (XVec m) :=
  match argminN (pool.map (asfX ideal k)) with
  | .error e => .error e
  | .ok j =>
    match pool[j]? with
    | none => .error .indexError
    | some r => .ok r

/-- `get_extreme_points_c`, `NSGAIII_select.py:128-148`. -/
noncomputable def extremePointsX (front : List (XVec m)) (ideal : XVec m) (old : Option (List (XVec m))) : Except Err (List (XVec m)) :=
  (List.finRange m).mapM (extremeRowX (extremePoolX front old) ideal)

/-- `np.allclose(np.dot(M, plane), b)` with `b` all ones, `NSGAIII_select.py:170`: false for NaN and infinite entries. -/
def planeCloseX (extreme : List (XVec m)) (ideal plane : XVec m) : Prop :=
  ∀ e ∈ extreme, ∃ d : ℝ, xSum (fun i => xMul (xSub (e i) (ideal i)) (plane i)) = some (d : EReal) ∧ |d - 1| ≤ 1 / 10 ^ 8 + 1 / 10 ^ 5

open Classical in
/-- `get_nadir_point`, `NSGAIII_select.py:150-181`; `solve` as in `nadirPoint`, on floats. -/
noncomputable def nadirPointX (solve : List (XVec m) → Option (XVec m)) (extreme : List (XVec m)) (ideal worst wof wop : XVec m) : XVec m :=
  let cand : Option (XVec m) :=
    match solve (extreme.map (fun e i => xSub (e i) (ideal i))) with
    | none => none
    | some plane =>
      let nad : XVec m := fun i => xAdd (ideal i) (xDiv (some 1) (plane i))
      if planeCloseX extreme ideal plane ∧ (∀ i, ¬ xLe (xDiv (some 1) (plane i)) (some ((1 / 10 ^ 6 : ℝ) : EReal))) ∧
          ∀ i, ¬ nanLt (worst i) (nad i) then some nad
      else none
  let nad := match cand with
    | some n => n
    | none => wof
  fun i => if xLe (xSub (nad i) (ideal i)) (some ((1 / 10 ^ 6 : ℝ) : EReal)) then wop i else nad i

/-- State of the operator, as `Nsga`. -/
structure NsgaX (m : Nat) where
  ideal : XVec m
  worst : Option (XVec m)
  extreme : Option (List (XVec m))

/-- `np.amax(np.vstack((self.worst_fitness, fitness)), axis=0)`, `NSGAIII_select.py:60`; without earlier calls it is a row of `-inf`. -/
noncomputable def newWorstX (worst : Option (XVec m)) (wp : XVec m) : XVec m :=
  match worst with
  | none => wp
  | some w => fun i => xMax2 (w i) (wp i)

/-- The points computed in `do`, `NSGAIII_select.py:56-72`, as `nsgaPoints`. -/
noncomputable def nsgaPointsX (solve : List (XVec m) → Option (XVec m)) (st : NsgaX m) (fitness : List (XVec m)) (f0 : List Nat) :
    Except Err (XVec m) × NsgaX m :=
  match colMinX fitness, colMaxX fitness with
  | .ok fmin, .ok fmax =>
    let worst := newWorstX st.worst fmax
    let st := { st with ideal := fun i => xMin2 (st.ideal i) (fmin i), worst := some worst }
    let front := f0.map (fun j => fitness.getD j (fun _ => none))
    match colMaxX front with
    | .error e => (.error e, st)
    | .ok wfront =>
      match extremePointsX front st.ideal st.extreme with
      | .error e => (.error e, st)
      | .ok ext => (.ok (nadirPointX solve ext st.ideal worst fmax wfront), { st with extreme := some ext })
  | .error e, _ => (.error e, st)
  | _, .error e => (.error e, st)

/-- `calc_perpendicular_distance`, one entry, `NSGAIII_select.py:244-255`. -/
noncomputable def perpDistX (v u : XVec m) : WithBot EReal :=
  match xNorm (fun i => xSub (xDiv (xMul (xDiv (xSum (fun k => xMul (v k) (u k))) (xNorm u)) (u i)) (xNorm u)) (v i)) with
  | some d => (d : WithBot EReal)
  | none => ⊥

/-- Normalisation in `associate_to_niches`, one row, `NSGAIII_select.py:224-230`; `denom == 0` is false for NaN. -/
noncomputable def nicheNormalX (ideal nadir f : XVec m) : XVec m := fun i =>
  xDiv (xSub (f i) (ideal i)) (if xSub (nadir i) (ideal i) = some 0 then some ((1 / 10 ^ 12 : ℝ) : EReal) else xSub (nadir i) (ideal i))

/-- `associate_to_niches`, `NSGAIII_select.py:221-237`. -/
noncomputable def associateX (refDirs : List (XVec m)) (ideal nadir : XVec m) : List (XVec m) → Except Err (List (Nat × WithBot EReal))
  | [] => .ok []
  | f :: fs =>
    let row := refDirs.map (perpDistX (nicheNormalX ideal nadir f))
    match argminL row, associateX refDirs ideal nadir fs with
    | .ok a, .ok as => .ok ((a, row.getD a ⊥) :: as)
    | .error e, _ => .error e
    | _, .error e => .error e

/-- Choice from the last front, `NSGAIII_select.py:83-119`, as `lastFrontChoice`. -/
noncomputable def lastFrontChoiceX (rnd : NicheRand) (refDirs : List (XVec m)) (ideal nadir : XVec m) (n : Nat) (fitness : List (XVec m))
    (fronts : List (List Nat)) : Except Err (List Nat) :=
  let selection := fronts.flatten
  let last := fronts.getLastD []
  let before := fronts.dropLast.flatten
  match associateX refDirs ideal nadir (selection.map (fun j => fitness.getD j (fun _ => none))) with
  | .error e => .error e
  | .ok nd =>
    let count := nicheCount refDirs.length ((nd.take before.length).map (fun p => p.1))
    let lastNd := nd.drop before.length
    match niching rnd (lastNd.map (fun p => p.1)) (lastNd.map (fun p => p.2)) (n - before.length) 0 (List.replicate last.length true) count with
    | .error e => .error e
    | .ok (js, _) => .ok (before ++ js.filterMap (fun j => last[j]?))

/-- `NSGAIII_select.do`, `NSGAIII_select.py:36-126`, as `nsgaDo`. -/
noncomputable def nsgaDoX (sort : List (XVec m) → List (List Nat)) (solve : List (XVec m) → Option (XVec m)) (rnd : NicheRand)
    (refDirs : List (XVec m)) (nSurvive : Option Nat) (st : NsgaX m) (fitness : List (XVec m)) : Except Err (List Nat) × NsgaX m :=
  match sort fitness with
  | [] => (.error .indexError, st)
  | f0 :: rest =>
    match nsgaPointsX solve st fitness f0 with
    | (.error e, st) => (.error e, st)
    | (.ok nadir, st) =>
      match nSurvive with
      | none => (.error .attributeError, st)
      | some n =>
        match acceptedFronts n (f0 :: rest) with
        | none => (.ok [], st)
        | some fs =>
          if fs.flatten.length > n then (lastFrontChoiceX rnd refDirs st.ideal nadir n fitness fs, st)
          else (.ok fs.flatten, st)

end Verif
