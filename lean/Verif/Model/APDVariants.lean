import Verif.Model.NSGA3

/-!
# Model of `desdeo_emo/selection/APD_Select.py`, `oAPD.py`, `robust_APD.py` and `IOPIS_APD.py`

The APD operators that no working EA uses but that can be called directly.  They share their loop, which has no constraint check.
-/

open scoped BigOperators

namespace Verif

section Core
variable {K : Type} [LinearOrder K]

/-- The loop over the reference vectors, `APD_Select.py:82-107` (the same in `oAPD.py:88-113`, `robust_APD.py:88-113`,
`IOPIS_APD.py:87-112`). -/
def plainLoop (apd : Nat → Nat → Option K) (assigned : List Nat) (nVectors : Nat) : List Nat :=
  (List.range nVectors).filterMap (fun i => apdPick (apd i) (subPopulation assigned i))

end Core

variable {m n : Nat} {R : Type}

/-- What the four `do` methods share, `APD_Select.py:54-108` (`oAPD.py:60-114`, `robust_APD.py:60-114`, `IOPIS_APD.py:59-113`): fitness
translated by `base`, assigned to vectors, and the loop.  An empty population fails in line 57 (`translated_fitness[0, :]`). -/
noncomputable def plainSelect (values : List (Vec m)) (gammas : List ℝ) (pen : ℝ) (base : Vec m) (fitness : List (Vec m)) :
    Except Err (List Nat) :=
  if fitness = [] then .error .indexError
  else
    let tf := fitness.map (fun f i => f i - base i)
    match assignAll values tf with
    | .error e => .error e
    | .ok assigned =>
      .ok (plainLoop (fun i j => some (apdValue pen (gammas.getD i 0) (tf.getD j 0) (values.getD i 0))) assigned values.length)

/-- `APD_Select.do`, `APD_Select.py:32-108`; `popIdeal` is `pop.ideal_fitness_val`. -/
noncomputable def plainApdDo (values : List (Vec m)) (gammas : List ℝ) (pen : ℝ) (popIdeal : Option (Vec m)) (fitness : List (Vec m)) :
    Except Err (List Nat) :=
  match popIdeal with
  | some base => plainSelect values gammas pen base fitness
  | none =>
    match colMin fitness with
    | .error e => .error e
    | .ok fmin => plainSelect values gammas pen fmin fitness

/-- `Optimistic_APD_Select.do`, `oAPD.py:33-114` (`ty = .optimistic`), and `robust_APD_Select.do`, `robust_APD.py:33-114` (`ty = .robust`):
the result and `self.optimistic_ideal` left behind. -/
noncomputable def uncertainApdDo (ty : SelType) (values : List (Vec m)) (gammas : List ℝ) (pen : ℝ) (ideal : Option (Vec m))
    (fitness : List (Vec m)) (uncertainity : Option (List (Vec m))) : Except Err (List Nat) × Option (Vec m) :=
  match calcFitness ty fitness uncertainity with
  | .error e => (.error e, ideal)
  | .ok fit =>
    match colMin fit with
    | .error e => (.error e, ideal)
    | .ok fmin =>
      let ideal' : Vec m := match ideal with
        | none => fmin
        | some i => fun c => min (i c) (fmin c)
      (plainSelect values gammas pen ideal' fit, some ideal')

/-- `np.asarray([scalar(pop.fitness, reference_point) for scalar in self.scalarization_methods]).T`, `IOPIS_APD.py:52-57` and
`IOPIS_NSGAIII.py:45-50`.  `scalars` are the scalarisation methods, each taking the fitness matrix and the reference point to one value per
individual (lists of other lengths are not modelled). -/
def scalarise (scalars : Fin m → List (Vec n) → R → List ℝ) (fitness : List (Vec n)) (ref : R) : List (Vec m) :=
  (List.range fitness.length).map (fun j i => (scalars i fitness ref).getD j 0)

/-- `IOPIS_APD_Select.do`, `IOPIS_APD.py:33-113`. -/
noncomputable def iopisApdDo (scalars : Fin m → List (Vec n) → R → List ℝ) (values : List (Vec m)) (gammas : List ℝ) (pen : ℝ)
    (fitness : List (Vec n)) (ref : R) : Except Err (List Nat) :=
  let fit := scalarise scalars fitness ref
  match colMin fit with
  | .error e => .error e
  | .ok fmin => plainSelect values gammas pen fmin fit

/-- `_partial_penalty_factor`, `APD_Select.py:110-125` (the same in the other three files): the clipping comes after the product.  A negative
base with a fractional exponent is a complex number, which `<` rejects; 0 to a negative power raises ZeroDivisionError. -/
noncomputable def clippedPenalty (t alpha : ℝ) (m : Nat) : Except Err ℝ :=
  open Classical in
  if t < 0 ∧ ¬ ∃ z : ℤ, alpha = z then .error .typeError
  else if t = 0 ∧ alpha < 0 then .error .zeroDivisionError
  else
    let p := t ^ alpha * m
    let p := if p < 0 then 0 else p
    .ok (if p > 1 then 1 else p)

/-- `IOPIS_APD_Select.__init__`, `IOPIS_APD.py:22-31`: the `alpha` that is used. -/
def iopisAlpha (_alpha : ℝ) : ℝ := 2

/-- `IOPIS_APD_Select._partial_penalty_factor`, `IOPIS_APD.py:115-130`, of an operator constructed with `alpha` and `k` scalarisation methods. -/
noncomputable def iopisPenalty (t alpha : ℝ) (k : Nat) : Except Err ℝ := clippedPenalty t (iopisAlpha alpha) k

/-- State of `IOPIS_NSGAIII_select`; `none` stands for the initial rows of `inf` and `-inf`, `IOPIS_NSGAIII.py:18-25`. -/
structure IopisNsga (m : Nat) where
  ideal : Option (Vec m)
  worst : Option (Vec m)
  extreme : Option (List (Vec m))

/-- `IOPIS_NSGAIII_select.__init__`, `IOPIS_NSGAIII.py:11-25`. -/
def IopisNsga.init : IopisNsga m := ⟨none, none, none⟩

/-- `IOPIS_NSGAIII_select.do`, `IOPIS_NSGAIII.py:27-126`: the body of `NSGAIII_select.do` (same statements) on the scalarised fitness.  The minimum
with a row of `inf` is the other row.  An empty population fails in line 54-55. -/
noncomputable def iopisNsgaDo (scalars : Fin m → List (Vec n) → R → List ℝ) (sort : List (Vec m) → List (List Nat))
    (solve : List (Vec m) → Option (Vec m)) (rnd : NicheRand) (refDirs : List (Vec m)) (nSurvive : Option Nat) (st : IopisNsga m)
    (fitness : List (Vec n)) (ref : R) : Except Err (List Nat) × IopisNsga m :=
  let fit := scalarise scalars fitness ref
  match colMin fit with
  | .error _ => (.error .indexError, st)
  | .ok fmin =>
    let r := nsgaDo sort solve rnd refDirs nSurvive ⟨st.ideal.getD fmin, st.worst, st.extreme⟩ fit
    (r.1, ⟨some r.2.ideal, r.2.worst, r.2.extreme⟩)

end Verif
