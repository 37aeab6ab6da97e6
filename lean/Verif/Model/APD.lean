import Mathlib.Analysis.SpecialFunctions.Pow.Real
import Verif.Model.RefVectors

/-!
# Model of `desdeo_emo/selection/APD_Select_constraints.py` and `desdeo_emo/EAs/RVEA.py`
-/

open scoped BigOperators

namespace Verif

section Core
variable {K : Type} [LinearOrder K]

/-- Loop of `argmaxL`: best position and value so far. -/
def argmaxGo (bi : Nat) (b : K) (i : Nat) : List K → Nat
  | [] => bi
  | x :: xs => if b < x then argmaxGo i x (i + 1) xs else argmaxGo bi b (i + 1) xs

/-- `np.argmax` of one row (first greatest entry; ValueError on no entries). -/
def argmaxL : List K → Except Err Nat
  | [] => .error .valueError
  | x :: xs => .ok (argmaxGo 0 x 1 xs)

/-- `np.nanmin`; `none` is NaN, and the result is NaN when everything is. -/
def nanmin : List (Option K) → Option K
  | [] => none
  | none :: xs => nanmin xs
  | some x :: xs =>
    match nanmin xs with
    | none => some x
    | some y => some (min x y)

/-- Individuals assigned to vector `i`, `APD_Select_constraints.py:94-96`. -/
def subPopulation (assigned : List Nat) (i : Nat) : List Nat := whereIdx (assigned.map (fun a => a == i))

/-- Constraint check, `APD_Select_constraints.py:99-114`; `cons` are the rows of `pop.constraint` (None when
there are no constraints), one per individual (property C01). -/
def constraintFilter [Zero K] [Add K] (cons : Option (List (List K))) (sub : List Nat) : List Nat :=
  match cons with
  | none => sub
  | some c =>
    if sub.length > 1 then
      let viol := fun j => (c.getD j []).map (fun v => max 0 v)
      let feasible := fun j => (viol j).all (fun v => decide (v = 0))
      if sub.all (fun j => !feasible j) then
        let total := fun j => (viol j).sum
        sub.filter (fun j => decide (nanmin (sub.map (fun j => some (total j))) = some (total j)))
      else sub.filter feasible
    else sub

/-- Choice within a sub population of two or more, `APD_Select_constraints.py:137-140`. -/
def apdPick (apd : Nat → Option K) (sub : List Nat) : Option Nat :=
  match nanmin (sub.map apd) with
  | none => none
  | some mn => (sub.filter (fun j => decide (apd j = some mn))).head?

/-- One pass of the loop over the reference vectors, `APD_Select_constraints.py:93-144`. -/
def apdOne [Zero K] [Add K] (cons : Option (List (List K))) (apd : Nat → Nat → Option K) (assigned : List Nat) (i : Nat) :
    Option Nat :=
  match constraintFilter cons (subPopulation assigned i) with
  | [] => none
  | [j] => some j
  | j :: k :: rest => apdPick (apd i) (j :: k :: rest)

/-- The loop over the reference vectors, `APD_Select_constraints.py:87-145`; `apd i j` is the angle penalised
distance of individual `j` to vector `i` (`none`: NaN). -/
def apdLoop [Zero K] [Add K] (cons : Option (List (List K))) (apd : Nat → Nat → Option K) (assigned : List Nat)
    (nVectors : Nat) : List Nat :=
  (List.range nVectors).filterMap (apdOne cons apd assigned)

end Core

variable {m : Nat}

/-- `selection_type`, `SelectionBase.py:54-56,84-90`. -/
inductive SelType | mean | optimistic | robust | other
deriving DecidableEq, Repr

/-- `_calculate_fitness`, `SelectionBase.py:84-90`.  An unknown type gives None, which numpy then rejects;
so does a missing uncertainty. -/
def calcFitness (ty : SelType) (fitness : List (Vec m)) (uncertainty : Option (List (Vec m))) : Except Err (List (Vec m)) :=
  match ty with
  | .mean => .ok fitness
  | .other => .error .typeError
  | .optimistic =>
    match uncertainty with
    | none => .error .typeError
    | some u => .ok (List.zipWith (fun a b i => a i - b i) fitness u)
  | .robust =>
    match uncertainty with
    | none => .error .typeError
    | some u => .ok (List.zipWith (fun a b i => a i + b i) fitness u)

/-- One entry of the clipped cosine matrix, `APD_Select_constraints.py:73-83`. -/
noncomputable def cosineOf (f v : Vec m) : ℝ :=
  let c := ∑ i, unitRow f i * v i
  let c := if c > 1 then 1 else c
  if c < 0 then 0 else c

/-- Column-wise `np.amin(np.vstack((ideal, fmin, pop.ideal_fitness_val)), axis=0)`,
`APD_Select_constraints.py:61-63`. -/
noncomputable def newIdeal (ideal fmin popIdeal : Vec m) : Vec m := fun i => min (min (ideal i) (fmin i)) (popIdeal i)

/-- The value of `np.argmax(cosine, axis=1)` for all rows. -/
noncomputable def assignAll (values : List (Vec m)) : List (Vec m) → Except Err (List Nat)
  | [] => .ok []
  | f :: fs =>
    match argmaxL (values.map (cosineOf f)), assignAll values fs with
    | .ok a, .ok as => .ok (a :: as)
    | .error e, _ => .error e
    | _, .error e => .error e

/-- Angle penalised distance of translated fitness `f` to vector `v` with neighbouring angle `gamma`,
`APD_Select_constraints.py:126-136` with line 92. -/
noncomputable def apdValue (pen gamma : ℝ) (f v : Vec m) : ℝ :=
  norm2 f * (1 + pen * (Real.arccos (cosineOf f v) / (if gamma = 0 then eps else gamma)))

/-- `APD_Select.do`, `APD_Select_constraints.py:43-145`: the selected indices and the ideal point left
behind.  `gammas` is `neighbouring_angles_current`, `pen` the result of `_partial_penalty_factor`. -/
noncomputable def apdDo (values : List (Vec m)) (gammas : List ℝ) (pen : ℝ) (ideal popIdeal : Vec m)
    (fitness : List (Vec m)) (cons : Option (List (List ℝ))) : Except Err (List Nat × Vec m) :=
  match colMin fitness with
  | .error e => .error e
  | .ok fmin =>
    let ideal' := newIdeal ideal fmin popIdeal
    let tf := fitness.map (fun f i => f i - ideal' i)
    match assignAll values tf with
    | .error e => .error e
    | .ok assigned =>
      .ok (apdLoop cons
        (fun i j => some (apdValue pen (gammas.getD i 0) (tf.getD j 0) (values.getD i 0))) assigned values.length, ideal')

/-! ## Penalty -/

/-- `_partial_penalty_factor`, `APD_Select_constraints.py:147-163`. -/
noncomputable def partialPenalty (t alpha : ℝ) (m : Nat) : ℝ :=
  let p := if t < 0 then 0 else t
  let p := if p > 1 then 1 else p
  p ^ alpha * m

/-- The four time penalty functions, `RVEA.py:179-193`. -/
inductive TimePenalty | constant (x : ℝ) | original | functionCount | interactive

/-- `time_penalty_component` as given to the constructor: None, a float, a str, or another type. -/
inductive PenaltyArg | none | float (x : ℝ) | str (s : String) | other

/-- The choice in `RVEA.__init__`, `RVEA.py:130-168`.  `eaError(msg)` only builds an exception object and the
test in line 139 is never true; a name never assigned raises UnboundLocalError in line 168. -/
noncomputable def choosePenalty (arg : PenaltyArg) (interact : Bool) (total : Nat) : Except Err TimePenalty :=
  match arg with
  | .none => if interact then .ok .interactive else if total > 0 then .ok .functionCount else .ok .original
  | .float x => .ok (.constant x)
  | .str s =>
    if s = "original" then .ok .original
    else if s = "function_count" then .ok .functionCount
    else if s = "interactive" then .ok .interactive
    else .error .unboundLocalError
  | .other => .error .unboundLocalError

/-- Float division `a / b` of counters. -/
noncomputable def counterDiv (a b : Nat) : Except Err ℝ := if b = 0 then .error .zeroDivisionError else .ok ((a : ℝ) / b)

/-- `_time_penalty_*`, `RVEA.py:179-193`, with `total_gen_count = n_gen_per_iter * n_iterations`
(`BaseEA.py:42`). -/
noncomputable def timeOf {X O F C U V S Q : Type} (k : TimePenalty) (s : EA X O F C U V S Q) : Except Err ℝ :=
  match k with
  | .constant x => .ok x
  | .original => counterDiv s.gen (s.cfg.nGen * s.cfg.nIter)
  | .interactive => counterDiv s.genIter s.cfg.nGen
  | .functionCount => counterDiv s.fe s.cfg.total

end Verif
