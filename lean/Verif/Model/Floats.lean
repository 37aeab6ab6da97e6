import Verif.Model.Recombination
import Verif.Model.IndicatorRun

/-!
# The variation operators and initial designs over an arbitrary arithmetic

The definitions of `Model/Recombination.lean` use exact real arithmetic.  Here every `+`, `-`, `*`, `/`, `**` of the
code is an operation of an arithmetic `A` about which nothing is assumed; a value is `some x` with `x` in an ordered
set, or `none` for NaN.  Only comparisons and assignments have a fixed meaning.
-/

namespace Verif

/-- The operations numpy applies to float values (NaN is `none`), and the float a literal stands for.
`SimulatedBinaryCrossover.py:58-68`, `BoundedPolynomialMutation.py:33-64`, `CreateIndividuals.py:42-46` use no other. -/
structure FArith (K : Type) where
  add : Option K → Option K → Option K
  sub : Option K → Option K → Option K
  mul : Option K → Option K → Option K
  div : Option K → Option K → Option K
  pow : Option K → Option K → Option K
  lit : ℚ → Option K

/-- A decision vector of floats. -/
abbrev FRow (n : Nat) (K : Type) := Fin n → Option K

variable {n : Nat} {K : Type} [LinearOrder K]

/-- `x <= y` of two floats: false when either is NaN. -/
def fle : Option K → Option K → Bool
  | some x, some y => decide (x ≤ y)
  | _, _ => false

/-- `x < y` of two floats: false when either is NaN. -/
def flt : Option K → Option K → Bool
  | some x, some y => decide (x < y)
  | _, _ => false

/-- The draws of one pair, `SimulatedBinaryCrossover.py:60,63,64`. -/
structure FSbxDraw (n : Nat) (K : Type) where
  miu : Fin n → Option K
  flip : Fin n → Bool
  u : Fin n → Option K

/-- The spread factor of one gene, `SimulatedBinaryCrossover.py:59-64`: zero where neither condition holds (`miu` is
NaN). -/
def fSbxBeta (A : FArith K) (proC disC miu : Option K) (flip : Bool) (u : Option K) : Option K :=
  let b := if fle miu (A.lit (1 / 2)) then A.pow (A.mul (A.lit 2) miu) (A.div (A.lit 1) (A.add disC (A.lit 1)))
    else if flt (A.lit (1 / 2)) miu then
      A.pow (A.sub (A.lit 2) (A.mul (A.lit 2) miu)) (A.div (A.lit (-1)) (A.add disC (A.lit 1)))
    else A.lit 0
  let b := A.mul b (A.lit (if flip then -1 else 1))
  if flt proC u then A.lit 1 else b

/-- The two children of one gene, `SimulatedBinaryCrossover.py:65-68`. -/
def fSbxChildren (A : FArith K) (beta a b : Option K) : Option K × Option K :=
  let avg := A.div (A.add a b) (A.lit 2)
  let diff := A.div (A.sub a b) (A.lit 2)
  (A.add avg (A.mul beta diff), A.sub avg (A.mul beta diff))

/-- The loop over pairs, `SimulatedBinaryCrossover.py:57-69`. -/
def fSbxPairs (A : FArith K) (proC disC : Option K) (rand : Nat → FSbxDraw n K) : Nat → List (FRow n K) →
    List (FRow n K)
  | k, a :: b :: rest =>
    let kids := fun i => fSbxChildren A (fSbxBeta A proC disC ((rand k).miu i) ((rand k).flip i) ((rand k).u i)) (a i) (b i)
    (fun i => (kids i).1) :: (fun i => (kids i).2) :: fSbxPairs A proC disC rand (k + 1) rest
  | _, _ => []

/-- `SBX_xover.do`, `SimulatedBinaryCrossover.py:25-69`. -/
def fSbxDo (A : FArith K) (proC disC : Option K) (shuffle : List Nat → List Nat) (rand : Nat → FSbxDraw n K)
    (pop : List (FRow n K)) (ids : Option (List Nat)) : Except Err (List (FRow n K)) :=
  match takeRows pop (matingIds shuffle pop.length ids) with
  | none => .error .indexError
  | some rows => .ok (fSbxPairs A proC disC rand 0 (closePairs rows))

/-- One gene after both mutation statements, `BoundedPolynomialMutation.py:37-62`; `mn`, `mx` are the entries of
`min_val`, `max_val`. -/
def fBpRaw (A : FArith K) (proM disM mn mx k miu x : Option K) : Option K :=
  let y := A.div (A.sub x mn) (A.sub mx mn)
  let e := A.add disM (A.lit 1)
  let root := A.div (A.lit 1) e
  let x1 := if fle k proM && flt miu (A.lit (1 / 2)) then
      A.add x (A.mul (A.sub mx mn) (A.sub (A.pow (A.add (A.mul (A.lit 2) miu)
        (A.mul (A.sub (A.lit 1) (A.mul (A.lit 2) miu)) (A.pow (A.sub (A.lit 1) y) e))) root) (A.lit 1)))
    else x
  if fle k proM && fle (A.lit (1 / 2)) miu then
    A.add x1 (A.mul (A.sub mx mn) (A.sub (A.lit 1) (A.pow (A.add (A.mul (A.lit 2) (A.sub (A.lit 1) miu))
      (A.mul (A.mul (A.lit 2) (A.sub miu (A.lit (1 / 2)))) (A.pow y e))) root)))
  else x1

/-- The two clipping statements, `BoundedPolynomialMutation.py:63-64`. -/
def fClip (mn mx x : Option K) : Option K :=
  let x := if flt mx x then mx else x
  if flt x mn then mn else x

/-- `BP_mutation.do`, `BoundedPolynomialMutation.py:20-65`; `min_val` and `max_val` are one times the limits
(`BoundedPolynomialMutation.py:33-34`). -/
def fBpDo (A : FArith K) (proM disM : Option K) (lo hi : Fin n → K) (k miu : Nat → Fin n → Option K)
    (offspring : List (FRow n K)) : List (FRow n K) :=
  offspring.mapIdx (fun j x i =>
    let mn := A.mul (A.lit 1) (some (lo i))
    let mx := A.mul (A.lit 1) (some (hi i))
    fClip mn mx (fBpRaw A proM disM mn mx (k j i) (miu j i) (x i)))

/-- The draws of one `mate` call. -/
structure FMateDraw (n : Nat) (K : Type) where
  shuffle : List Nat → List Nat
  pairs : Nat → FSbxDraw n K
  k : Nat → Fin n → Option K
  miu : Nat → Fin n → Option K

/-- The parameters of the two operators: `ProC`, `DisC` (`SimulatedBinaryCrossover.py:17-23`), `ProM`, `DisM`
(`BoundedPolynomialMutation.py:5-18`), whatever they are. -/
structure FParams (K : Type) where
  proC : Option K
  disC : Option K
  proM : Option K
  disM : Option K

/-- `Population.mate` with the crossover and mutation operators, `Population.py:218-240`. -/
def fMate (A : FArith K) (par : FParams K) (lo hi : Fin n → K) (draw : FMateDraw n K) (inds : List (FRow n K))
    (ids : Option (List Nat)) : Except Err (List (FRow n K)) :=
  match fSbxDo A par.proC par.disC draw.shuffle draw.pairs inds ids with
  | .error e => .error e
  | .ok off => .ok (fBpDo A par.proM par.disM lo hi draw.k draw.miu off)

variable {O F C U : Type}

/-- `population.mate()` in the generations of the decomposition EAs, `BaseEA.py:424`. -/
def fMateAll (A : FArith K) (par : FParams K) (lo hi : Fin n → K) (draw : Nat → FMateDraw n K) (clock : Nat)
    (p : Pop (FRow n K) O F C U) : Except Err (Batch (FRow n K)) :=
  match p.individuals with
  | none => .error .attributeError
  | some inds =>
    match fMate A par lo hi (draw clock) inds none with
    | .error e => .error e
    | .ok off => .ok ⟨2, off⟩

/-- `population.mate(selected_parents)`, `MOEAD.py:124`. -/
def fMateTwo (A : FArith K) (par : FParams K) (lo hi : Fin n → K) (draw : Nat → FMateDraw n K) (clock : Nat)
    (p : Pop (FRow n K) O F C U) (a b : Nat) : Except Err (List (FRow n K)) :=
  match p.individuals with
  | none => .error .attributeError
  | some inds => fMate A par lo hi (draw clock) inds (some [a, b])

/-- `population.mate(chosen)`, `BaseIndicatorEA.py:124`. -/
def fMateChosen (A : FArith K) (par : FParams K) (lo hi : Fin n → K) (draw : Nat → FMateDraw n K) (clock : Nat)
    (p : Pop (FRow n K) O F C U) (chosen : List Nat) : Except Err (Batch (FRow n K)) :=
  match p.individuals with
  | none => .error .attributeError
  | some inds =>
    match fMate A par lo hi (draw clock) inds (some chosen) with
    | .error e => .error e
    | .ok off => .ok ⟨2, off⟩

/-- `population.repair`, `Population.py:274-291`. -/
def fRepair (lo hi : Fin n → K) (x : FRow n K) : FRow n K := fun i => repair1 (lo i) (hi i) (x i)

/-- `individuals * (upper_limits - lower_limits) + lower_limits`, `CreateIndividuals.py:41-57`; `unit` is the array of
draws. -/
def fDesign (A : FArith K) (lo hi : Fin n → K) (unit : Nat → Nat → List (FRow n K)) (clock popSize : Nat) :
    Except Err (Batch (FRow n K)) :=
  .ok ⟨2, (unit clock popSize).map (fun u i =>
    A.add (A.mul (u i) (A.sub (some (hi i)) (some (lo i)))) (some (lo i)))⟩

/-- The operations on two numbers lifted to floats: NaN in, NaN out.  Models `numpy` scalar arithmetic as used in
`CreateIndividuals.py:42-46`. -/
def lift2 (f : ℝ → ℝ → Option ℝ) : Option ℝ → Option ℝ → Option ℝ
  | some x, some y => f x y
  | _, _ => none

open Classical in
/-- Arithmetic that rounds the exact result of `+`, `-`, `*`, `/` with `r`; division by zero gives NaN here (numpy: an
infinity or NaN), and so do a negative number to a fractional power and zero to a negative power (numpy: an infinity);
powers are rounded once (numpy may be off by more).  Overflow is not modelled.  This is the arithmetic of `CreateIndividuals.py:42-46` up to overflow. -/
noncomputable def roundedArith (r : ℝ → ℝ) : FArith ℝ where
  add := lift2 (fun x y => some (r (x + y)))
  sub := lift2 (fun x y => some (r (x - y)))
  mul := lift2 (fun x y => some (r (x * y)))
  div := lift2 (fun x y => if y = 0 then none else some (r (x / y)))
  pow := lift2 (fun x y => if (x < 0 ∧ ∀ k : ℤ, y ≠ k) ∨ (x = 0 ∧ y < 0) then none else some (r (x ^ y)))
  lit := fun q => some (r q)

end Verif
