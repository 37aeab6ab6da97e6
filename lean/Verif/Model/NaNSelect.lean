import Verif.Model.Runs

/-!
# `APD_Select.do` when a fitness value may be NaN

`Model/APD.lean` and `Model/Runs.lean` take fitness rows of numbers.  Here an entry may be `none`, numpy's NaN: `np.amin`,
subtraction, `np.linalg.norm`, `np.dot` and `np.arccos` all pass NaN on, `np.argmax` of a row with a NaN returns the place of the first
one, comparisons with NaN are false, `np.nanmin` leaves NaN out.  Constraint values are numbers, as before, and so is the penalty factor
(it comes from counters).  Infinities: `Model/InfSelect`.
-/

namespace Verif

variable {X O V : Type} {m : Nat}

/-- A row of floats, NaN being `none`. -/
abbrev NVec (m : Nat) := Fin m → Option ℝ

/-- `np.amin` of two entries: NaN if one of them is. -/
noncomputable def nanMin2 : Option ℝ → Option ℝ → Option ℝ
  | some a, some b => some (min a b)
  | _, _ => none

/-- `fmin = np.amin(fitness, axis=0)`, `APD_Select_constraints.py:60`. -/
noncomputable def colMinN : List (NVec m) → Except Err (NVec m)
  | [] => .error .valueError
  | r :: rs => .ok (rs.foldl (fun a b i => nanMin2 (a i) (b i)) r)

/-- `self.ideal = np.amin(np.vstack((self.ideal, fmin, pop.ideal_fitness_val)), axis=0)`, `APD_Select_constraints.py:61-63`. -/
noncomputable def newIdealN (ideal fmin popIdeal : NVec m) : NVec m := fun i => nanMin2 (nanMin2 (ideal i) (fmin i)) (popIdeal i)

/-- One entry of `fitness - self.ideal`, `APD_Select_constraints.py:64`. -/
noncomputable def nanSub : Option ℝ → Option ℝ → Option ℝ
  | some a, some b => some (a - b)
  | _, _ => none

/-- One entry of `fitness + uncertainity`, `SelectionBase.py:89-90`. -/
noncomputable def nanAdd : Option ℝ → Option ℝ → Option ℝ
  | some a, some b => some (a + b)
  | _, _ => none

/-- The entries of a row, if all of them are numbers. -/
def numbers (f : NVec m) : Option (Vec m) := if ∀ i, f i ≠ none then some (fun i => (f i).getD 0) else none

/-- One entry of the clipped cosine matrix, `APD_Select_constraints.py:65-83`: a NaN anywhere in the row makes its norm NaN, hence
the whole normalised row; a NaN in the vector makes the product NaN; `NaN > 1` and `NaN < 0` are false. -/
noncomputable def cosineN (f v : NVec m) : Option ℝ :=
  match numbers f, numbers v with
  | some f, some v => some (cosineOf f v)
  | _, _ => none

/-- `np.argmax` of one row, `APD_Select_constraints.py:87`: the first NaN if there is one. -/
def argmaxN {K : Type} [LinearOrder K] (row : List (Option K)) : Except Err Nat :=
  match row.findIdx? Option.isNone with
  | some i => .ok i
  | none => argmaxL (row.filterMap id)

/-- `np.argmax(cosine, axis=1)`, `APD_Select_constraints.py:87`. -/
noncomputable def assignAllN (values : List (NVec m)) : List (NVec m) → Except Err (List Nat)
  | [] => .ok []
  | f :: fs =>
    match argmaxN (values.map (cosineN f)), assignAllN values fs with
    | .ok a, .ok as => .ok (a :: as)
    | .error e, _ => .error e
    | _, .error e => .error e

/-- One entry of `apd`, `APD_Select_constraints.py:126-136` with line 92: NaN unless the angle, the neighbouring angle and the
length are numbers. -/
noncomputable def apdValueN (pen : ℝ) (gamma : Option ℝ) (f v : NVec m) : Option ℝ :=
  match gamma, numbers f, numbers v with
  | some g, some f, some v => some (apdValue pen g f v)
  | _, _, _ => none

/-- `APD_Select.do`, `APD_Select_constraints.py:43-145`; the loop over the vectors is `apdLoop` (`Model/APD.lean`), which already had
to pass over sub populations whose `apd` is NaN throughout (lines 138-139). -/
noncomputable def apdDoN (values : List (NVec m)) (gammas : List (Option ℝ)) (pen : ℝ) (ideal popIdeal : NVec m)
    (fitness : List (NVec m)) (cons : Option (List (List ℝ))) : Except Err (List Nat × NVec m) :=
  match colMinN fitness with
  | .error e => .error e
  | .ok fmin =>
    let ideal' := newIdealN ideal fmin popIdeal
    let tf : List (NVec m) := fitness.map (fun f i => nanSub (f i) (ideal' i))
    match assignAllN values tf with
    | .error e => .error e
    | .ok assigned =>
      .ok (apdLoop cons
        (fun i j => apdValueN pen (gammas.getD i none) (tf.getD j (fun _ => none)) (values.getD i (fun _ => none)))
        assigned values.length, ideal')

/-- `_calculate_fitness`, `SelectionBase.py:84-90`. -/
noncomputable def calcFitnessN (ty : SelType) (fitness : List (NVec m)) (uncertainty : Option (List (NVec m))) :
    Except Err (List (NVec m)) :=
  match ty with
  | .mean => .ok fitness
  | .other => .error .typeError
  | .optimistic =>
    match uncertainty with
    | none => .error .typeError
    | some u => .ok (List.zipWith (fun a b i => nanSub (a i) (b i)) fitness u)
  | .robust =>
    match uncertainty with
    | none => .error .typeError
    | some u => .ok (List.zipWith (fun a b i => nanAdd (a i) (b i)) fitness u)

/-- `APD_Select.do` on the population, `APD_Select_constraints.py:43-145`; the state of the operator is its ideal point.  `vals v`,
`gam v` are `vectors.values` and `vectors.neighbouring_angles_current` of the vectors `v`, which `adapt` may have filled with NaN
(`ReferenceVectors.py:262-273`); `popIdeal` is `pop.ideal_fitness_val` at that moment. -/
noncomputable def rveaSelectN (ty : SelType) (pen : Nat → ℝ) (popIdeal : Nat → NVec m) (vals : V → List (NVec m))
    (gam : V → List (Option ℝ)) (clock : Nat) (v : V) (ideal : NVec m) (p : Pop X O (NVec m) (List ℝ) (NVec m)) :
    Except Err (List Int) × V × NVec m :=
  match calcFitnessN ty p.fitness p.uncertainity with
  | .error e => (.error e, v, ideal)
  | .ok fit =>
    match apdDoN (vals v) (gam v) (pen clock) ideal (popIdeal clock) fit p.constraint with
    | .error e => (.error e, v, ideal)
    | .ok (sel, ideal') => (.ok (sel.map (fun (j : Nat) => (j : Int))), v, ideal')

end Verif
