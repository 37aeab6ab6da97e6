/-!
# The fragment of Python / numpy semantics the model needs

Exceptions are values of `Err`.  Arrays are lists of rows.
-/

namespace Verif

/-- Python exception classes that occur in the modelled code.  `eaError` is
`desdeo_emo/EAs/BaseEA.py:17-18`; `evaluationError` stands for whatever `problem.evaluate` raises. -/
inductive Err
  | indexError | valueError | typeError | attributeError | eaError | unboundLocalError
  | assertionError | notImplementedError | keyError | zeroDivisionError | linAlgError
  | evaluationError | modelError
deriving DecidableEq, Repr

/-- numpy resolution of one integer index `i` on an axis of length `n`: `0 ≤ i < n` is itself,
`-n ≤ i < 0` counts from the end, everything else raises IndexError (`none`). -/
def normIdx (n : Nat) (i : Int) : Option Nat :=
  if 0 ≤ i ∧ i < n then some i.toNat
  else if -(n : Int) ≤ i ∧ i < 0 then some (i + n).toNat
  else none

/-- numpy resolution of an integer index array; one bad index raises IndexError. -/
def resolve (n : Nat) : List Int → Except Err (List Nat)
  | [] => .ok []
  | i :: is =>
    match normIdx n i with
    | none => .error .indexError
    | some k =>
      match resolve n is with
      | .error e => .error e
      | .ok ks => .ok (k :: ks)

/-- `mask[indices] = b` for already resolved indices. -/
def setMask (mask : List Bool) (ks : List Nat) (b : Bool) : List Bool :=
  ks.foldl (fun m k => m.set k b) mask

/-- The rows of `xs` where the mask is true, in order. -/
def compress {α : Type _} : List Bool → List α → List α
  | true :: m, x :: xs => x :: compress m xs
  | false :: m, _ :: xs => compress m xs
  | _, _ => []

/-- numpy boolean indexing `xs[mask]`: IndexError unless the lengths agree. -/
def boolIndex {α : Type _} (mask : List Bool) (xs : List α) : Except Err (List α) :=
  if mask.length = xs.length then .ok (compress mask xs) else .error .indexError

/-- `xs[ks, :] = x` for already resolved indices: every named row becomes `x`. -/
def setRows {α : Type _} (xs : List α) (ks : List Nat) (x : α) : List α :=
  ks.foldl (fun m k => m.set k x) xs

/-- `np.where(mask)[0]` : the positions at which the predicate holds, ascending. -/
def whereIdx (mask : List Bool) : List Nat :=
  (mask.zipIdx.filter (fun p => p.1)).map (fun p => p.2)

end Verif
