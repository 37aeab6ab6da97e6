import Mathlib.Data.EReal.Inv
import Verif.Model.NaNSelect

/-!
# RVEA when a fitness value may be infinite or NaN

Here a float is NaN (`none`), infinite, or a number, computed with as IEEE 754 prescribes except that numbers are not rounded and do not
overflow and zero has no sign: `inf - inf`, `0 * inf`, `inf / inf` and `0 / 0` are NaN, NaN is passed on by arithmetic, `np.amin` and `np.amax`,
and comparisons with NaN are false.  Constraint values and the initial reference vectors are numbers, as before, and so is the penalty
factor (it comes from counters).
-/

namespace Verif

variable {X O : Type} {m : Nat}

/-- A float: `none` is NaN, `⊤` and `⊥` are the infinities. -/
abbrev XF := Option EReal

/-- A row of floats. -/
abbrev XVec (m : Nat) := Fin m → XF

/-- `a + b`. -/
noncomputable def xAdd : XF → XF → XF
  | some a, some b => if (a = ⊤ ∧ b = ⊥) ∨ (a = ⊥ ∧ b = ⊤) then none else some (a + b)
  | _, _ => none

/-- `a - b`. -/
noncomputable def xSub : XF → XF → XF
  | some a, some b => if (a = ⊤ ∧ b = ⊤) ∨ (a = ⊥ ∧ b = ⊥) then none else some (a - b)
  | _, _ => none

/-- `a * b`. -/
noncomputable def xMul : XF → XF → XF
  | some a, some b => if (a = 0 ∧ (b = ⊤ ∨ b = ⊥)) ∨ ((a = ⊤ ∨ a = ⊥) ∧ b = 0) then none else some (a * b)
  | _, _ => none

/-- `a / b`. -/
noncomputable def xDiv : XF → XF → XF
  | some a, some b =>
    if b = 0 then (if a = 0 then none else if 0 < a then some ⊤ else some ⊥)
    else if (a = ⊤ ∨ a = ⊥) ∧ (b = ⊤ ∨ b = ⊥) then none
    else some (a / b)
  | _, _ => none

/-- `np.sqrt(a)`: NaN for negative numbers. -/
noncomputable def xSqrt : XF → XF
  | some a => if a = ⊤ then some ⊤ else if 0 ≤ a then some ((Real.sqrt a.toReal : ℝ) : EReal) else none
  | none => none

/-- `np.sum` of a row. -/
noncomputable def xSum (f : XVec m) : XF := (List.ofFn f).foldl xAdd (some 0)

/-- `np.linalg.norm` of a row, `APD_Select_constraints.py:65`, `ReferenceVectors.py:246`; also `np.sqrt(np.sum(np.power(..., 2)))`,
`APD_Select_constraints.py:130-132`. -/
noncomputable def xNorm (f : XVec m) : XF := xSqrt (xSum (fun i => xMul (f i) (f i)))

/-- A row divided by its norm, a norm of zero being replaced by eps: `APD_Select_constraints.py:68-76`, `ReferenceVectors.py:246-249`. -/
noncomputable def xUnit (f : XVec m) : XVec m := fun i => xDiv (f i) (if xNorm f = some 0 then some ((eps : ℝ) : EReal) else xNorm f)

/-- `np.amin` of two entries. -/
noncomputable def xMin2 : XF → XF → XF
  | some a, some b => some (min a b)
  | _, _ => none

/-- `np.amax` of two entries. -/
noncomputable def xMax2 : XF → XF → XF
  | some a, some b => some (max a b)
  | _, _ => none

/-- `np.amin(fitness, axis=0)`, `APD_Select_constraints.py:60`, `ReferenceVectors.py:270`. -/
noncomputable def colMinX : List (XVec m) → Except Err (XVec m)
  | [] => .error .valueError
  | r :: rs => .ok (rs.foldl (fun a b i => xMin2 (a i) (b i)) r)

/-- `np.amax(fitness, axis=0)`, `ReferenceVectors.py:269`. -/
noncomputable def colMaxX : List (XVec m) → Except Err (XVec m)
  | [] => .error .valueError
  | r :: rs => .ok (rs.foldl (fun a b i => xMax2 (a i) (b i)) r)

/-! ## The reference vectors -/

/-- The part of a `ReferenceVectors` object that selection reads: `initial_values` and `values`. -/
structure XRV (m : Nat) where
  init : List (Vec m)
  values : List (XVec m)

/-- `adapt`, `ReferenceVectors.py:262-273`, with the spherical part of `normalize`, lines 243-249. -/
noncomputable def XRV.adapt (s : XRV m) (fitness : List (XVec m)) : Except Err (XRV m) :=
  match colMaxX fitness, colMinX fitness with
  | .ok hi, .ok lo => .ok { s with values := s.init.map (fun v => xUnit (fun i => xMul (some ((v i : ℝ) : EReal)) (xSub (hi i) (lo i)))) }
  | .error e, _ => .error e
  | _, .error e => .error e

/-- `adapt_RVs`, `SelectionBase.py:102-104`, as `rvAdapt` (`Model/Runs.lean`): on an empty population it would raise and leave the vectors
as they are. -/
noncomputable def adaptRVsX (v : XRV m) (fitness : List (XVec m)) : XRV m :=
  match v.adapt fitness with
  | .ok w => w
  | .error _ => v

/-! ## Selection -/

/-- `self.ideal = np.amin(np.vstack((self.ideal, fmin, pop.ideal_fitness_val)), axis=0)`, `APD_Select_constraints.py:61-63`. -/
noncomputable def newIdealX (ideal fmin popIdeal : XVec m) : XVec m := fun i => xMin2 (xMin2 (ideal i) (fmin i)) (popIdeal i)

/-- `cosine[cosine > 1] = 1`, `APD_Select_constraints.py:78-80`. -/
noncomputable def xCapOne : XF → XF
  | some c => if c > 1 then some 1 else some c
  | none => none

/-- `cosine[cosine < 0] = 0`, `APD_Select_constraints.py:81-83`. -/
noncomputable def xFloorZero : XF → XF
  | some c => if c < 0 then some 0 else some c
  | none => none

/-- One entry of the clipped cosine matrix, `APD_Select_constraints.py:77-83`. -/
noncomputable def cosineX (f v : XVec m) : XF := xFloorZero (xCapOne (xSum (fun i => xMul (xUnit f i) (v i))))

/-- `np.arccos` of a clipped cosine, `APD_Select_constraints.py:85`. -/
noncomputable def xArccos (c : XF) : XF := c.map (fun c => ((Real.arccos c.toReal : ℝ) : EReal))

/-- `np.argmax(cosine, axis=1)`, `APD_Select_constraints.py:87`. -/
noncomputable def assignAllX (values : List (XVec m)) : List (XVec m) → Except Err (List Nat)
  | [] => .ok []
  | f :: fs =>
    match argmaxN (values.map (cosineX f)), assignAllX values fs with
    | .ok a, .ok as => .ok (a :: as)
    | .error e, _ => .error e
    | _, .error e => .error e

/-- One entry of `apd`, `APD_Select_constraints.py:126-136` with line 92. -/
noncomputable def apdValueX (pen : ℝ) (gamma : XF) (f v : XVec m) : XF :=
  xMul (xNorm f) (xAdd (some 1) (xMul (some ((pen : ℝ) : EReal))
    (xDiv (xArccos (cosineX f v)) (if gamma = some 0 then some ((eps : ℝ) : EReal) else gamma))))

/-- One pass of the loop over the reference vectors, `APD_Select_constraints.py:93-144`, as `apdOne` (`Model/APD.lean`). -/
noncomputable def apdOneX (cons : Option (List (List ℝ))) (apd : Nat → Nat → XF) (assigned : List Nat) (i : Nat) : Option Nat :=
  match constraintFilter cons (subPopulation assigned i) with
  | [] => none
  | [j] => some j
  | j :: k :: rest => apdPick (apd i) (j :: k :: rest)

/-- `APD_Select.do`, `APD_Select_constraints.py:43-145`. -/
noncomputable def apdDoX (values : List (XVec m)) (gammas : List XF) (pen : ℝ) (ideal popIdeal : XVec m) (fitness : List (XVec m))
    (cons : Option (List (List ℝ))) : Except Err (List Nat × XVec m) :=
  match colMinX fitness with
  | .error e => .error e
  | .ok fmin =>
    let ideal' := newIdealX ideal fmin popIdeal
    let tf : List (XVec m) := fitness.map (fun f i => xSub (f i) (ideal' i))
    match assignAllX values tf with
    | .error e => .error e
    | .ok assigned =>
      .ok ((List.range values.length).filterMap (apdOneX cons
        (fun i j => apdValueX pen (gammas.getD i none) (tf.getD j (fun _ => none)) (values.getD i (fun _ => none))) assigned), ideal')

/-- `APD_Select.do` on the population with selection type "mean", `APD_Select_constraints.py:43-145`, `SelectionBase.py:84-86`; the state of
the operator is its ideal point.  `gam v` is `neighbouring_angles_current`, of which nothing is assumed; `popIdeal` is
`pop.ideal_fitness_val` at that moment. -/
noncomputable def rveaSelectX {U : Type} (pen : Nat → ℝ) (popIdeal : Nat → XVec m) (gam : XRV m → List XF) (clock : Nat) (v : XRV m)
    (ideal : XVec m) (p : Pop X O (XVec m) (List ℝ) U) : Except Err (List Int) × XRV m × XVec m :=
  match apdDoX v.values (gam v) (pen clock) ideal (popIdeal clock) p.fitness p.constraint with
  | .error e => (.error e, v, ideal)
  | .ok (sel, ideal') => (.ok (sel.map (fun (j : Nat) => (j : Int))), v, ideal')

end Verif
