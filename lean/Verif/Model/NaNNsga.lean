import Verif.Model.NSGA3
import Verif.Model.NaNIndicator

/-!
# `NSGAIII_select.do` when a fitness value may be NaN

`Model/NSGA3.lean` takes fitness rows of numbers.  Here an entry may be `none`, numpy's NaN, with the rules of `Model/NaNSelect.lean`; also
`np.amax` passes NaN on, comparisons with NaN are false, `np.allclose` with a NaN is False.  The niching loop is the same code
(`niching`): its `np.argmin` of distances returns the first NaN if there is one, which is the first least entry when NaN is put
below all numbers, so the distances are `WithBot ℝ` with NaN as `⊥`.
-/

open scoped BigOperators

namespace Verif

variable {m : Nat}

/-- `np.amax` of two entries: NaN if one of them is. -/
noncomputable def nanMax2 : Option ℝ → Option ℝ → Option ℝ
  | some a, some b => some (max a b)
  | _, _ => none

/-- `np.amax(fitness, axis=0)`, `NSGAIII_select.py:60-62`. -/
noncomputable def colMaxN : List (NVec m) → Except Err (NVec m)
  | [] => .error .valueError
  | r :: rs => .ok (rs.foldl (fun a b i => nanMax2 (a i) (b i)) r)

/-- `a <= b` on floats. -/
noncomputable def nanLe : Option ℝ → Option ℝ → Bool
  | some a, some b => decide (a ≤ b)
  | _, _ => false

/-- One entry of a quotient, `NSGAIII_select.py:230`. -/
noncomputable def nanDiv : Option ℝ → Option ℝ → Option ℝ
  | some a, some b => some (a / b)
  | _, _ => none

/-- Entry `(k, row)` of `F_asf`, `NSGAIII_select.py:131-145`: `__F < 1e-3` is false for NaN, and a NaN in the row makes its maximum NaN. -/
noncomputable def asfN (ideal : NVec m) (k : Fin m) (f : NVec m) : Option ℝ :=
  match numbers (fun i => nanSub (f i) (ideal i)) with
  | none => none
  | some d => some (rowMax (fun i => (if d i < 1 / 10 ^ 3 then 0 else d i) * (if k = i then 1 else 10 ^ 6)))

/-- `_F`: the old extreme points (if any) and the front, `NSGAIII_select.py:134-137`. -/
def extremePoolN (front : List (NVec m)) : Option (List (NVec m)) → List (NVec m)
  | none => front
  | some e => e ++ front

/-- One row of `_F[I, :]`, `NSGAIII_select.py:139-147`. -/
noncomputable def extremeRowN (pool : List (NVec m)) (ideal : NVec m) (k : Fin m) : Except Err (NVec m) :=
  match argminN (pool.map (asfN ideal k)) with
  | .error e => .error e
  | .ok j =>
    match pool[j]? with
    | none => .error .indexError
    | some r => .ok r

/-- `get_extreme_points_c`, `NSGAIII_select.py:128-148`. -/
noncomputable def extremePointsN (front : List (NVec m)) (ideal : NVec m) (old : Option (List (NVec m))) : Except Err (List (NVec m)) :=
  (List.finRange m).mapM (extremeRowN (extremePoolN front old) ideal)

/-- One entry of `np.dot(M, plane)`, `NSGAIII_select.py:170`. -/
noncomputable def nanDot (a b : NVec m) : Option ℝ :=
  match numbers a, numbers b with
  | some a, some b => some (∑ i, a i * b i)
  | _, _ => none

/-- `np.allclose(np.dot(M, plane), b)` with `b` all ones, `NSGAIII_select.py:170`. -/
def planeCloseN (extreme : List (NVec m)) (ideal plane : NVec m) : Prop :=
  ∀ e ∈ extreme, ∃ d, nanDot (fun i => nanSub (e i) (ideal i)) plane = some d ∧ |d - 1| ≤ 1 / 10 ^ 8 + 1 / 10 ^ 5

open Classical in
/-- `get_nadir_point`, `NSGAIII_select.py:150-181`; `solve` as in `nadirPoint`, on floats. -/
noncomputable def nadirPointN (solve : List (NVec m) → Option (NVec m)) (extreme : List (NVec m)) (ideal worst wof wop : NVec m) : NVec m :=
  let cand : Option (NVec m) :=
    match solve (extreme.map (fun e i => nanSub (e i) (ideal i))) with
    | none => none
    | some plane =>
      let nad : NVec m := fun i => nanAdd (ideal i) (nanDiv (some 1) (plane i))
      if planeCloseN extreme ideal plane ∧ (∀ i, ¬ nanLe (nanDiv (some 1) (plane i)) (some (1 / 10 ^ 6))) ∧ ∀ i, ¬ nanLt (worst i) (nad i) then some nad
      else none
  let nad := match cand with
    | some n => n
    | none => wof
  fun i => if nanLe (nanSub (nad i) (ideal i)) (some (1 / 10 ^ 6)) then wop i else nad i

/-- State of the operator, as `Nsga`. -/
structure NsgaN (m : Nat) where
  ideal : NVec m
  worst : Option (NVec m)
  extreme : Option (List (NVec m))

/-- `np.amax(np.vstack((self.worst_fitness, fitness)), axis=0)`, `NSGAIII_select.py:60`. -/
noncomputable def newWorstN (worst : Option (NVec m)) (wp : NVec m) : NVec m :=
  match worst with
  | none => wp
  | some w => fun i => nanMax2 (w i) (wp i)

/-- The points computed in `do`, `NSGAIII_select.py:56-72`, as `nsgaPoints`. -/
noncomputable def nsgaPointsN (solve : List (NVec m) → Option (NVec m)) (st : NsgaN m) (fitness : List (NVec m)) (f0 : List Nat) :
    Except Err (NVec m) × NsgaN m :=
  match colMinN fitness, colMaxN fitness with
  | .ok fmin, .ok fmax =>
    let worst := newWorstN st.worst fmax
    let st := { st with ideal := fun i => nanMin2 (st.ideal i) (fmin i), worst := some worst }
    let front := f0.map (fun j => fitness.getD j (fun _ => none))
    match colMaxN front with
    | .error e => (.error e, st)
    | .ok wfront =>
      match extremePointsN front st.ideal st.extreme with
      | .error e => (.error e, st)
      | .ok ext => (.ok (nadirPointN solve ext st.ideal worst fmax wfront), { st with extreme := some ext })
  | .error e, _ => (.error e, st)
  | _, .error e => (.error e, st)

/-- `calc_perpendicular_distance`, one entry, `NSGAIII_select.py:244-255`: NaN if there is a NaN in either row. -/
noncomputable def perpDistN (v u : NVec m) : WithBot ℝ :=
  match numbers v, numbers u with
  | some v, some u => ((perpDist v u : ℝ) : WithBot ℝ)
  | _, _ => ⊥

/-- Normalisation in `associate_to_niches`, one row, `NSGAIII_select.py:224-230`; `denom == 0` is false for NaN. -/
noncomputable def nicheNormalN (ideal nadir f : NVec m) : NVec m := fun i =>
  nanDiv (nanSub (f i) (ideal i)) (if nanSub (nadir i) (ideal i) = some 0 then some (1 / 10 ^ 12) else nanSub (nadir i) (ideal i))

/-- `associate_to_niches`, `NSGAIII_select.py:221-237`. -/
noncomputable def associateN (refDirs : List (NVec m)) (ideal nadir : NVec m) : List (NVec m) → Except Err (List (Nat × WithBot ℝ))
  | [] => .ok []
  | f :: fs =>
    let row := refDirs.map (perpDistN (nicheNormalN ideal nadir f))
    match argminL row, associateN refDirs ideal nadir fs with
    | .ok a, .ok as => .ok ((a, row.getD a ⊥) :: as)
    | .error e, _ => .error e
    | _, .error e => .error e

/-- Choice from the last front, `NSGAIII_select.py:83-119`, as `lastFrontChoice`. -/
noncomputable def lastFrontChoiceN (rnd : NicheRand) (refDirs : List (NVec m)) (ideal nadir : NVec m) (n : Nat) (fitness : List (NVec m))
    (fronts : List (List Nat)) : Except Err (List Nat) :=
  let selection := fronts.flatten
  let last := fronts.getLastD []
  let before := fronts.dropLast.flatten
  match associateN refDirs ideal nadir (selection.map (fun j => fitness.getD j (fun _ => none))) with
  | .error e => .error e
  | .ok nd =>
    let count := nicheCount refDirs.length ((nd.take before.length).map (fun p => p.1))
    let lastNd := nd.drop before.length
    match niching rnd (lastNd.map (fun p => p.1)) (lastNd.map (fun p => p.2)) (n - before.length) 0 (List.replicate last.length true) count with
    | .error e => .error e
    | .ok (js, _) => .ok (before ++ js.filterMap (fun j => last[j]?))

/-- `NSGAIII_select.do`, `NSGAIII_select.py:36-126`, as `nsgaDo`. -/
noncomputable def nsgaDoN (sort : List (NVec m) → List (List Nat)) (solve : List (NVec m) → Option (NVec m)) (rnd : NicheRand)
    (refDirs : List (NVec m)) (nSurvive : Option Nat) (st : NsgaN m) (fitness : List (NVec m)) : Except Err (List Nat) × NsgaN m :=
  match sort fitness with
  | [] => (.error .indexError, st)
  | f0 :: rest =>
    match nsgaPointsN solve st fitness f0 with
    | (.error e, st) => (.error e, st)
    | (.ok nadir, st) =>
      match nSurvive with
      | none => (.error .attributeError, st)
      | some n =>
        match acceptedFronts n (f0 :: rest) with
        | none => (.ok [], st)
        | some fs =>
          if fs.flatten.length > n then (lastFrontChoiceN rnd refDirs st.ideal nadir n fitness fs, st)
          else (.ok fs.flatten, st)

/-- Reference implementation of `desdeo_tools.utilities.dominates` (external) on floats, as `dominates` (`Model/Dominance.lean`): both
comparisons are false when an entry is NaN, so such a component is passed over.  Used at `utilities/non_dominated.py:35,38`. -/
noncomputable def dominatesN : Bool → List (Option ℝ) → List (Option ℝ) → Bool
  | acc, x :: xs, y :: ys => if nanLt y x then false else if nanLt x y then dominatesN true xs ys else dominatesN acc xs ys
  | acc, _, _ => acc

end Verif
