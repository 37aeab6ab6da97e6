import Mathlib.Data.List.Sort
import Verif.Model.MOEAD

/-!
# Model of `desdeo_emo/utilities/model_management.py`

A row of decision variables is a value of a linearly ordered type (numpy compares rows lexicographically); all rows
have the same width, so `vstack` cannot fail.
-/

namespace Verif

section
variable {α : Type} [LinearOrder α]

/-- Lexicographic order on (row, position): a stable sort by row sorts by it. -/
def rowPosLe (p q : α × Nat) : Prop := p.1 < q.1 ∨ (p.1 = q.1 ∧ p.2 ≤ q.2)

instance : DecidableRel (rowPosLe (α := α)) := fun p q => by unfold rowPosLe; infer_instance

/-- `mask[1:] = aux[1:] != aux[:-1]` of `np.unique`: the positions that start a run of equal rows (`prev` is the row just
before). -/
def runStarts (prev : Option α) : List (α × Nat) → List Nat
  | [] => []
  | p :: ps => if prev = some p.1 then runStarts (some p.1) ps else p.2 :: runStarts (some p.1) ps

/-- `np.unique(rows, return_index=True, axis=0)[1]`, called at `model_management.py:33`: stable sort (numpy uses mergesort
when indices are wanted; sorting by (row, position) is the same), then the start of every run of equal rows. -/
def uniqueIdx (rows : List α) : List Nat := runStarts none (rows.zipIdx.insertionSort rowPosLe)

/-- `np.delete(np.arange(n), idx)`: negative numbers count from the end, IndexError if out of range. -/
def npDelete (n : Nat) (idx : List Int) : Except Err (List Nat) :=
  match resolve n idx with
  | .error e => .error e
  | .ok ks => .ok (compress (setMask (List.replicate n true) ks false) (List.range n))

/-- `remove_duplicate`, `model_management.py:17-41`. -/
def removeDuplicate (xs archive : List α) : Except Err (List Nat) :=
  let all := archive ++ xs
  match npDelete all.length ((uniqueIdx all).map (fun (i : Nat) => (i : Int))) with
  | .error e => .error e
  | .ok rep => npDelete xs.length (rep.map (fun (i : Nat) => (i : Int) - archive.length))

end

/-- The parts of `ikrvea_mm` that are arguments here: the achievement function with the reference point filled in
(`SimpleASF`, desdeo_tools), the greatest uncertainty of a row, and `np.argpartition` (any partition). -/
structure MMOps (O U K : Type) where
  asf : O → K
  maxUnc : U → K
  part : List K → Nat → List Nat

/-- `np.argpartition(l, kth)`: ValueError when `kth` is not a position of `l`. -/
def argpartition {O U K : Type} (mo : MMOps O U K) (l : List K) (kth : Nat) : Except Err (List Nat) :=
  if kth < l.length then .ok (mo.part l kth) else .error .valueError

/-- `ikrvea_mm`, `model_management.py:45-94`: the solutions sent to `problem.evaluate(..., use_surrogate=False)`, or `none`
when it returns early at line 74.  Evaluation and retraining (lines 89-92) are not modelled; they do not influence which
solutions are chosen.  `uncertainity` may be `None` (then subscripting it raises TypeError). -/
def mmSelect {X O U K : Type} [LinearOrder X] (mo : MMOps O U K) (inds : List X) (objs : List O) (unc : Option (List U))
    (archive : List X) (u : Nat) : Except Err (Option (List X)) :=
  match removeDuplicate inds archive with
  | .error e => .error e
  | .ok nd =>
    if nd.length = 0 then .ok none
    else
      match takeRows inds nd, takeRows objs nd, unc with
      | some dv, some ob, some us =>
        match takeRows us nd with
        | none => .error .indexError
        | some un =>
          match argpartition mo (ob.map mo.asf) (2 * u) with
          | .error e => .error e
          | .ok idx =>
            match takeRows un (idx.take (2 * u)) with
            | none => .error .indexError
            | some un' =>
              match argpartition mo (un'.map mo.maxUnc) u with
              | .error e => .error e
              | .ok idx2 =>
                match takeRows dv (idx2.take u) with
                | none => .error .indexError
                | some rows => .ok (some rows)
      | some _, some _, none => .error .typeError
      | _, _, _ => .error .indexError

end Verif
