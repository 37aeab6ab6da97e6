import Verif.Model.BioGP
import Mathlib.Analysis.SpecialFunctions.Trigonometric.Basic
import Mathlib.Analysis.SpecialFunctions.Log.Basic

/-!
# Model of prediction with expression trees, `desdeo_emo/surrogatemodels/BioGP.py`

`div` assigns into its second argument, and a variable terminal returns a *view* of the column of the data frame
(`np.asarray(df[name]).reshape(-1, 1)` under pandas 1.5), so that prediction can change the data it is given.  The model therefore
distinguishes freshly made arrays from views, and every operation returns the frame it leaves behind.  `pd.DataFrame(X, ...)` of an
ndarray shares its memory, so the frame is the caller's array in that case too (`BioGP.py:510-511`).
-/

namespace Verif

/-- The function set, `BioGP.py:316-327`. -/
inductive GFn | add | sub | mul | div | sqrt | log | sin | cos | tan | neg
deriving DecidableEq, Repr

/-- A terminal: the name of a column (`str`) or a number. -/
inductive GTerm
  | var (name : String)
  | const (c : ℝ)

/-- `co_argcount` of the functions, `BioGP.py:545-584`. -/
def GFn.arity : GFn → Nat
  | .add => 2
  | .sub => 2
  | .mul => 2
  | .div => 2
  | _ => 1

/-- The functions of one argument on one entry, `BioGP.py:562-584`. -/
noncomputable def GFn.one : GFn → ℝ → ℝ
  | .sqrt, x => Real.sqrt |x|
  | .log, x => if |x| > 1 / 1000 then Real.log |x| else 0
  | .sin, x => Real.sin x
  | .cos, x => Real.cos x
  | .tan, x => Real.tan x
  | _, x => - x

/-- The functions of two arguments on one entry, once the zeros of the divisor are gone, `BioGP.py:545-560`. -/
noncomputable def GFn.two : GFn → ℝ → ℝ → ℝ
  | .add, x, y => x + y
  | .sub, x, y => x - y
  | .mul, x, y => x * y
  | _, x, y => x / y

/-- A data frame: the number of rows and the columns. -/
structure Frame where
  rows : Nat
  col : String → Option (List ℝ)

/-- An array with one column: made by a function, or a view of a column of the frame. -/
inductive Arr
  | fresh (l : List ℝ)
  | view (name : String)

/-- What the array contains now. -/
def Frame.read (d : Frame) : Arr → List ℝ
  | .fresh l => l
  | .view x => (d.col x).getD []

/-- `y[y == 0] = 1.0`, `BioGP.py:559`, on one entry. -/
noncomputable def nonzero (y : ℝ) : ℝ := if y = 0 then 1 else y

/-- `y[y == 0] = 1.0`, `BioGP.py:559`: assigns in place. -/
noncomputable def Frame.fixZeros (d : Frame) : Arr → Arr × Frame
  | .fresh l => (.fresh (l.map nonzero), d)
  | .view x => (.view x, { d with col := fun z => if z = x then (d.col x).map (List.map nonzero) else d.col z })

/-- The call `self.value(*values)`, `BioGP.py:73`, with the functions of `BioGP.py:545-584`: a wrong number of arguments raises
TypeError.  All arrays have the shape (rows, 1). -/
noncomputable def applyFn (g : GFn) (args : List Arr) (d : Frame) : Except Err Arr × Frame :=
  match args with
  | [a] => if g.arity = 1 then (.ok (.fresh ((d.read a).map g.one)), d) else (.error .typeError, d)
  | [a, b] =>
    if g.arity = 2 then
      if g = .div then
        let q := d.fixZeros b
        (.ok (.fresh (List.zipWith g.two (q.2.read a) (q.2.read q.1))), q.2)
      else (.ok (.fresh (List.zipWith g.two (d.read a) (d.read b))), d)
    else (.error .typeError, d)
  | _ => (.error .typeError, d)

mutual
/-- `Node.predict` on a data frame, `BioGP.py:65-85`.  The nodes below a linear node have depth at least 1, so the branch of lines 69-71
is not taken; a node with the value `"linear"` below the root does not occur (it would be looked up as a column). -/
noncomputable def nodePredict : Node GFn GTerm → Frame → Except Err Arr × Frame
  | .mk v rs, d =>
    match v with
    | .fn g =>
      match nodesPredict rs d with
      | (.error e, d) => (.error e, d)
      | (.ok args, d) => applyFn g args d
    | .term (.var x) =>
      match d.col x with
      | none => (.error .keyError, d)
      | some _ => (.ok (.view x), d)
    | .term (.const c) => (.ok (.fresh (List.replicate d.rows c)), d)
    | .linear => (.error .keyError, d)
/-- The list comprehension of `BioGP.py:68`, the loops of `BioGP.py:253-254` and `BioGP.py:514-518`. -/
noncomputable def nodesPredict : List (Node GFn GTerm) → Frame → Except Err (List Arr) × Frame
  | [], d => (.ok [], d)
  | t :: ts, d =>
    match nodePredict t d with
    | (.error e, d) => (.error e, d)
    | (.ok a, d) =>
      match nodesPredict ts d with
      | (.error e, d) => (.error e, d)
      | (.ok as, d) => (.ok (a :: as), d)
end

/-- Row `j` of `np.dot(np.insert(np.hstack(sub_trees), 0, 1, axis=1), weights)`, `BioGP.py:256-262`, `BioGP.py:520-526`. -/
noncomputable def linearOut (w : List ℝ) (vals : List (List ℝ)) (j : Nat) : ℝ :=
  (List.zipWith (fun a b => a * b) ((1 : ℝ) :: vals.map (fun v => v.getD j 0)) w).sum

/-- The stacked outputs of the subtrees, read at the end, `BioGP.py:251-260`, `BioGP.py:512-524`: `np.hstack` of nothing raises
ValueError. -/
noncomputable def subtreeOutputs (roots : List (Node GFn GTerm)) (d : Frame) : Except Err (List (List ℝ)) × Frame :=
  match nodesPredict roots d with
  | (.error e, d) => (.error e, d)
  | (.ok as, d) => if as = [] then (.error .valueError, d) else (.ok (as.map d.read), d)

/-- `BioGP.predict`, `BioGP.py:509-531`, its first result; the second is zero. `np.dot` raises ValueError when the numbers of weights and
columns differ. -/
noncomputable def gpPredict (roots : List (Node GFn GTerm)) (linear : List ℝ) (d : Frame) : Except Err (List ℝ) × Frame :=
  match subtreeOutputs roots d with
  | (.error e, d) => (.error e, d)
  | (.ok vals, d) =>
    if linear.length ≠ vals.length + 1 then (.error .valueError, d)
    else (.ok ((List.range d.rows).map (linearOut linear vals)), d)

/-- What `LinearNode.calculate_linear` leaves behind: output, complexity, the subtrees and the weights. -/
structure LinFit where
  out : List ℝ
  complexity : ℝ
  roots : List (Node GFn GTerm)
  linear : List ℝ

/-- `LinearNode.calculate_linear`, `BioGP.py:249-289`.  `lstsq` is the least squares solver, `low` the outcomes of
`err < error_lim` computed from the QR decomposition (one for every subtree); `r` the draws of the regrowth. -/
noncomputable def calculateLinear (c : GPCfg GFn GTerm) (scalar : ℝ) (lstsq : List (List ℝ) → List ℝ) (low : List (List ℝ) → List Bool)
    (r : Nat → GrowRand) (roots : List (Node GFn GTerm)) (d : Frame) : Except Err LinFit × Frame :=
  match subtreeOutputs roots d with
  | (.error e, d) => (.error e, d)
  | (.ok vals, d) =>
    let w := lstsq vals
    let out := (List.range d.rows).map (linearOut w vals)
    match pruneLoop c r 0 (low vals) roots with
    | .error e => (.error e, d)
    | .ok roots' =>
      let t := Node.mk .linear roots'
      let fns := ((subNodes t).filter (fun q => match q.2.value with | .fn _ => true | _ => false)).length
      (.ok ⟨out, scalar * (totalDepth t : ℝ) + (1 - scalar) * (fns : ℝ), roots', w⟩, d)

/-- `BioGP._model_performance` on a batch of individuals, `BioGP.py:486-507`: for a batch of one, `trees[0]` is the row of the array, which
has no method `calculate_linear` (AttributeError); `loss` is the loss function applied to the output.  The trees are changed in place. -/
noncomputable def modelPerformance (fit : Nat → List (Node GFn GTerm) → Frame → Except Err LinFit × Frame) (loss : List ℝ → ℝ) :
    List (List (Node GFn GTerm)) → Frame → Except Err (List (ℝ × ℝ) × List LinFit) × Frame
  | [], d => (.error .indexError, d)
  | [_], d => (.error .attributeError, d)
  | trees, d => go 0 trees d
where
  go : Nat → List (List (Node GFn GTerm)) → Frame → Except Err (List (ℝ × ℝ) × List LinFit) × Frame
  | _, [], d => (.ok ([], []), d)
  | i, t :: ts, d =>
    match fit i t d with
    | (.error e, d) => (.error e, d)
    | (.ok f, d) =>
      match go (i + 1) ts d with
      | (.error e, d) => (.error e, d)
      | (.ok r, d) => (.ok ((loss f.out, f.complexity) :: r.1, f :: r.2), d)

end Verif
