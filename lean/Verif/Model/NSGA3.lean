import Verif.Model.APD

/-!
# Model of `desdeo_emo/selection/NSGAIII_select.py`

`fast_non_dominated_sort` (desdeo_tools) and `np.linalg.solve` are arguments; so are the random choices.
-/

open scoped BigOperators

namespace Verif

/-- `np.argmin` of one row (first least entry; ValueError on no entries): `argmaxL` for the opposite order. -/
def argminL {K : Type} [LinearOrder K] (l : List K) : Except Err Nat := argmaxL (K := Kᵒᵈ) l

/-- Insert into an ascending list without repetition. -/
def insertUnique (a : Nat) : List Nat → List Nat
  | [] => [a]
  | b :: bs => if a < b then a :: b :: bs else if a = b then b :: bs else b :: insertUnique a bs

/-- `np.unique`: the distinct values, ascending. -/
def npUnique (l : List Nat) : List Nat := l.foldr insertUnique []

/-- Least element of a list of counts (`.min()`; ValueError on no entries). -/
def minNat : List Nat → Except Err Nat
  | [] => .error .valueError
  | x :: xs => .ok (xs.foldl min x)

/-- Random choices of `niching` (`NSGAIII_select.py:198,206`): `pick t` is a number whose remainder modulo
`n` is the result of `np.random.randint(0, n)` in round `t`; `shuffle t` is what `np.random.shuffle` does to an
array in round `t`. -/
structure NicheRand where
  pick : Nat → Nat
  shuffle : Nat → List Nat → List Nat

section Niching
variable {K : Type} [LinearOrder K]

/-- One round of the loop in `niching`, `NSGAIII_select.py:191-217`: the individual chosen and its niche.
`niche`, `dist`: niche and distance of each member of the last front; `mask`: members still available;
`count`: individuals already in each niche. -/
def nicheRound (rnd : NicheRand) (t : Nat) (niche : List Nat) (dist : List K) (mask : List Bool) (count : List Nat) :
    Except Err (Nat × Nat) :=
  let cand := npUnique (compress mask niche)
  match minNat (cand.map (fun k => count.getD k 0)) with
  | .error e => .error e
  | .ok mn =>
    let best := cand.filter (fun k => count.getD k 0 == mn)
    match best[rnd.pick t % best.length]? with
    | none => .error .valueError
    | some next =>
      let inds := rnd.shuffle t (whereIdx (List.zipWith (fun a b => a == next && b) niche mask))
      if count.getD next 0 = 0 then
        match argminL (inds.filterMap (fun j => dist[j]?)) with
        | .error e => .error e
        | .ok p =>
          match inds[p]? with
          | none => .error .indexError
          | some j => .ok (j, next)
      else
        match inds[0]? with
        | none => .error .indexError
        | some j => .ok (j, next)

/-- `niching`, `NSGAIII_select.py:183-219`, with `n` survivors still to find (`n_remaining -
len(survivors)`): the survivors of the remaining rounds and the final niche counts. -/
def niching (rnd : NicheRand) (niche : List Nat) (dist : List K) :
    Nat → Nat → List Bool → List Nat → Except Err (List Nat × List Nat)
  | 0, _, _, count => .ok ([], count)
  | n + 1, t, mask, count =>
    match nicheRound rnd t niche dist mask count with
    | .error e => .error e
    | .ok (j, next) =>
      match niching rnd niche dist n (t + 1) (mask.set j false) (count.set next (count.getD next 0 + 1)) with
      | .error e => .error e
      | .ok (js, c) => .ok (j :: js, c)

end Niching

/-- `calc_niche_count`, `NSGAIII_select.py:238-242`. -/
def nicheCount (n : Nat) (niche : List Nat) : List Nat := (List.range n).map (fun k => niche.count k)

/-- The loop that collects whole fronts, `NSGAIII_select.py:74-82`: the fronts up to the first with which at
least `n` individuals are collected; none if there is no such front. -/
def acceptedFronts (n : Nat) (fronts : List (List Nat)) : Option (List (List Nat)) :=
  ((List.range fronts.length).find? (fun i => decide (n ≤ ((fronts.take (i + 1)).flatten).length))).map
    (fun i => fronts.take (i + 1))

variable {m : Nat}

/-- `calc_perpendicular_distance`, one entry, `NSGAIII_select.py:244-255`. -/
noncomputable def perpDist (v u : Vec m) : ℝ :=
  norm2 (fun i => (∑ k, v k * u k) / norm2 u * u i / norm2 u - v i)

/-- Normalisation in `associate_to_niches`, one row, `NSGAIII_select.py:224-230` (utopian epsilon is 0). -/
noncomputable def nicheNormal (ideal nadir f : Vec m) : Vec m := fun i =>
  (f i - ideal i) / (if nadir i - ideal i = 0 then 1 / 10 ^ 12 else nadir i - ideal i)

/-- `associate_to_niches`, `NSGAIII_select.py:221-237`: niche and distance of every row. -/
noncomputable def associate (refDirs : List (Vec m)) (ideal nadir : Vec m) : List (Vec m) → Except Err (List (Nat × ℝ))
  | [] => .ok []
  | f :: fs =>
    let row := refDirs.map (perpDist (nicheNormal ideal nadir f))
    match argminL row, associate refDirs ideal nadir fs with
    | .ok a, .ok as => .ok ((a, row.getD a 0) :: as)
    | .error e, _ => .error e
    | _, .error e => .error e

/-- Greatest entry of a row (rows have at least one entry; with none numpy raises, which is not modelled). -/
noncomputable def rowMax (v : Vec m) : ℝ :=
  match List.ofFn v with
  | [] => 0
  | x :: xs => xs.foldl max x

/-- Entry `(k, row)` of `F_asf`, `NSGAIII_select.py:131-145`. -/
noncomputable def asf (ideal : Vec m) (k : Fin m) (f : Vec m) : ℝ :=
  rowMax (fun i => (if f i - ideal i < 1 / 10 ^ 3 then 0 else f i - ideal i) * (if k = i then 1 else 10 ^ 6))

/-- `_F`: the old extreme points (if any) and the front, `NSGAIII_select.py:134-137`. -/
def extremePool (front : List (Vec m)) : Option (List (Vec m)) → List (Vec m)
  | none => front
  | some e => e ++ front

/-- One row of `_F[I, :]`, `NSGAIII_select.py:139-147`. -/
noncomputable def extremeRow (pool : List (Vec m)) (ideal : Vec m) (k : Fin m) : Except Err (Vec m) :=
  match argminL (pool.map (asf ideal k)) with
  | .error e => .error e
  | .ok j =>
    match pool[j]? with
    | none => .error .indexError
    | some r => .ok r

/-- `get_extreme_points_c`, `NSGAIII_select.py:128-148`. -/
noncomputable def extremePoints (front : List (Vec m)) (ideal : Vec m) (old : Option (List (Vec m))) :
    Except Err (List (Vec m)) :=
  (List.finRange m).mapM (extremeRow (extremePool front old) ideal)

/-- `np.allclose(np.dot(M, plane), b)` with `b` all ones, `NSGAIII_select.py:170`. -/
noncomputable def planeClose (extreme : List (Vec m)) (ideal plane : Vec m) : Prop :=
  ∀ e ∈ extreme, |(∑ i, (e i - ideal i) * plane i) - 1| ≤ 1 / 10 ^ 8 + 1 / 10 ^ 5

open Classical in
/-- `get_nadir_point`, `NSGAIII_select.py:150-181`; `solve` is `np.linalg.solve(M, ones)` (none:
LinAlgError).  `wof`, `wop` are the parameters named `worst_of_front`, `worst_of_population`. -/
noncomputable def nadirPoint (solve : List (Vec m) → Option (Vec m)) (extreme : List (Vec m)) (ideal worst wof wop : Vec m) :
    Vec m :=
  let cand : Option (Vec m) :=
    match solve (extreme.map (fun e i => e i - ideal i)) with
    | none => none
    | some plane =>
      let nad : Vec m := fun i => ideal i + 1 / plane i
      if planeClose extreme ideal plane ∧ (∀ i, ¬ 1 / plane i ≤ 1 / 10 ^ 6) ∧ ∀ i, nad i ≤ worst i then some nad else none
  let nad := match cand with
    | some n => n
    | none => wof
  fun i => if nad i - ideal i ≤ 1 / 10 ^ 6 then wop i else nad i

/-- State of the operator; `worst = none` is the initial row of `-inf` (`NSGAIII_select.py:27`). -/
structure Nsga (m : Nat) where
  ideal : Vec m
  worst : Option (Vec m)
  extreme : Option (List (Vec m))

/-- `np.amax(np.vstack((self.worst_fitness, fitness)), axis=0)`, `NSGAIII_select.py:60`; `wp` is the column
maximum of `fitness`. -/
noncomputable def newWorst (worst : Option (Vec m)) (wp : Vec m) : Vec m :=
  match worst with
  | none => wp
  | some w => fun i => max (w i) (wp i)

/-- The two extremes updated in `do`, `NSGAIII_select.py:56-60`. -/
noncomputable def nsgaExtremes (st : Nsga m) (fmin fmax : Vec m) : Nsga m :=
  { st with ideal := fun i => min (st.ideal i) (fmin i), worst := some (newWorst st.worst fmax) }

/-- Choice from the last front, `NSGAIII_select.py:83-119`. -/
noncomputable def lastFrontChoice (rnd : NicheRand) (refDirs : List (Vec m)) (ideal nadir : Vec m) (n : Nat)
    (fitness : List (Vec m)) (fronts : List (List Nat)) : Except Err (List Nat) :=
  let selection := fronts.flatten
  let last := fronts.getLastD []
  let before := fronts.dropLast.flatten
  match associate refDirs ideal nadir (selection.map (fun j => fitness.getD j 0)) with
  | .error e => .error e
  | .ok nd =>
    let count := nicheCount refDirs.length ((nd.take before.length).map (fun p => p.1))
    let lastNd := nd.drop before.length
    match niching rnd (lastNd.map (fun p => p.1)) (lastNd.map (fun p => p.2)) (n - before.length) 0
        (List.replicate last.length true) count with
    | .error e => .error e
    | .ok (js, _) => .ok (before ++ js.filterMap (fun j => last[j]?))

/-- The points computed in `do`, `NSGAIII_select.py:56-72`: the nadir point and the state left behind; `f0` is the first
front.  Line 66-72 passes `worst_of_population` for the parameter `worst_of_front` of `get_nadir_point` and vice
versa. -/
noncomputable def nsgaPoints (solve : List (Vec m) → Option (Vec m)) (st : Nsga m) (fitness : List (Vec m)) (f0 : List Nat) :
    Except Err (Vec m) × Nsga m :=
  match colMin fitness, colMax fitness with
  | .ok fmin, .ok fmax =>
    let worst := newWorst st.worst fmax
    let st := nsgaExtremes st fmin fmax
    let front := f0.map (fun j => fitness.getD j 0)
    match colMax front with
    | .error e => (.error e, st)
    | .ok wfront =>
      match extremePoints front st.ideal st.extreme with
      | .error e => (.error e, st)
      | .ok ext => (.ok (nadirPoint solve ext st.ideal worst fmax wfront), { st with extreme := some ext })
  | .error e, _ => (.error e, st)
  | _, .error e => (.error e, st)

/-- `NSGAIII_select.do`, `NSGAIII_select.py:36-126`.  `sort` is `fast_non_dominated_sort` followed by
`np.where` (line 53-54).  `nSurvive = none`: the attribute does not exist because the constructor was given
`n_survive` (`NSGAIII_select.py:29-30`). -/
noncomputable def nsgaDo (sort : List (Vec m) → List (List Nat)) (solve : List (Vec m) → Option (Vec m)) (rnd : NicheRand)
    (refDirs : List (Vec m)) (nSurvive : Option Nat) (st : Nsga m) (fitness : List (Vec m)) :
    Except Err (List Nat) × Nsga m :=
  match sort fitness with
  | [] => (.error .indexError, st)
  | f0 :: rest =>
    match nsgaPoints solve st fitness f0 with
    | (.error e, st) => (.error e, st)
    | (.ok nadir, st) =>
      match nSurvive with
      | none => (.error .attributeError, st)
      | some n =>
        match acceptedFronts n (f0 :: rest) with
        | none => (.ok [], st)
        | some fs =>
          if fs.flatten.length > n then (lastFrontChoice rnd refDirs st.ideal nadir n fitness fs, st)
          else (.ok fs.flatten, st)

/-- The attribute `n_survive` after `__init__`, `NSGAIII_select.py:29-30`: only set when the argument is None. -/
def nSurviveAttr (arg : Option Nat) (popSize : Nat) : Option Nat :=
  match arg with
  | none => some popSize
  | some _ => none

/-- Reference implementation of `desdeo_tools.utilities.fast_non_dominated_sort` (external): peel off the
non-dominated among the remaining indices (`rem`), again and again; `fuel` bounds the number of fronts. -/
def peelFronts (dom : Nat → Nat → Bool) : Nat → List Nat → List (List Nat)
  | 0, _ => []
  | fuel + 1, rem =>
    match rem with
    | [] => []
    | r :: rs =>
      (r :: rs).filter (fun x => (r :: rs).all (fun y => !dom y x)) ::
        peelFronts dom fuel ((r :: rs).filter (fun x => (r :: rs).any (fun y => dom y x)))

end Verif
