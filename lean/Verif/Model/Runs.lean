import Verif.Model.NSGA3
import Verif.Model.Recombination

/-!
# RVEA and NSGA-III as wholes: the components of `EA.nextGen` filled in

`Model/EA.lean` leaves variation, selection and the reference vectors open; here they are the functions of `Model/RefVectors.lean`,
`Model/APD.lean` and `Model/NSGA3.lean`.  Fitness rows and uncertainty rows are vectors of `m` numbers, a constraint row is a list.
-/

namespace Verif

variable {X O R : Type} {m : Nat}

/-- `adapt_RVs`, `SelectionBase.py:102-104`.  An empty population would raise ValueError (`np.amax`); `c62_run`, `c63_run` show that
this does not happen. -/
noncomputable def rvAdapt (v : RV m) (fitness : List (Vec m)) : RV m :=
  match v.adapt fitness with
  | .ok w => w
  | .error _ => v

/-- The four `manage_*` methods after their class test, `SelectionBase.py:252-301`.  `toCall` turns the response into the arguments of
the vector operation (indexing `pop.objectives`, subtracting the ideal); it may raise. -/
noncomputable def rvRespond (toCall : Nat → Kind → Pop X O (Vec m) (List ℝ) (Vec m) → R → Except Err (VecCall m))
    (clock : Nat) (k : Kind) (v : RV m) (p : Pop X O (Vec m) (List ℝ) (Vec m)) (r : R) : Except Err Unit × RV m :=
  match toCall clock k p r with
  | .error e => (.error e, v)
  | .ok c =>
    match v.call c with
    | .error e => (.error e, v)
    | .ok w => (.ok (), w)

/-- `APD_Select.do` on the population, `APD_Select_constraints.py:43-145`: the state of the operator is its ideal point.  `pen` is the
partial penalty factor at that moment (C31), `popIdeal` is `pop.ideal_fitness_val`.  `neighbouring_angles_current` belongs to the current
vectors: it is recomputed after every change of them (`ReferenceVectors.py:177`, `SelectionBase.py:104,266,280,294,301`). -/
noncomputable def rveaSelect (ty : SelType) (pen : Nat → ℝ) (popIdeal : Nat → Vec m) (clock : Nat) (v : RV m) (ideal : Vec m)
    (p : Pop X O (Vec m) (List ℝ) (Vec m)) : Except Err (List Int) × RV m × Vec m :=
  match calcFitness ty p.fitness p.uncertainity, neighbouringAngles v.values with
  | .ok fit, .ok g =>
    match apdDo v.values g (pen clock) ideal (popIdeal clock) fit p.constraint with
    | .error e => (.error e, v, ideal)
    | .ok (sel, ideal') => (.ok (sel.map (fun (j : Nat) => (j : Int))), v, ideal')
  | .error e, _ => (.error e, v, ideal)
  | _, .error e => (.error e, v, ideal)

/-- `NSGAIII_select.do` on the population, `NSGAIII_select.py:36-126`. -/
noncomputable def nsgaSelect (ty : SelType) (sort : List (Vec m) → List (List Nat)) (solve : List (Vec m) → Option (Vec m))
    (rnd : Nat → NicheRand) (nSurvive : Option Nat) (clock : Nat) (v : RV m) (st : Nsga m)
    (p : Pop X O (Vec m) (List ℝ) (Vec m)) : Except Err (List Int) × RV m × Nsga m :=
  match calcFitness ty p.fitness p.uncertainity with
  | .error e => (.error e, v, st)
  | .ok fit =>
    match nsgaDo sort solve (rnd clock) v.planar nSurvive st fit with
    | (.error e, st) => (.error e, v, st)
    | (.ok sel, st) => (.ok (sel.map (fun (j : Nat) => (j : Int))), v, st)

end Verif
