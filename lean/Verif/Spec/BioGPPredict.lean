import Verif.Model.BioGPPredict

/-!
# What an expression tree means, and which columns it divides by
-/

namespace Verif.Spec

/-- The value of a function on numbers: division by zero leaves the dividend as it is, square root and logarithm are of the absolute
value, and the logarithm of something small is zero. -/
noncomputable def fnMeaning : GFn → List ℝ → ℝ
  | .add, [x, y] => x + y
  | .sub, [x, y] => x - y
  | .mul, [x, y] => x * y
  | .div, [x, y] => if y = 0 then x else x / y
  | .sqrt, [x] => Real.sqrt |x|
  | .log, [x] => if |x| > 1 / 1000 then Real.log |x| else 0
  | .sin, [x] => Real.sin x
  | .cos, [x] => Real.cos x
  | .tan, [x] => Real.tan x
  | .neg, [x] => - x
  | _, _ => 0

mutual
/-- The value of an expression when the variables have the values of `row`. -/
noncomputable def meaning (row : String → ℝ) : Node GFn GTerm → ℝ
  | .mk v rs =>
    match v with
    | .fn g => fnMeaning g (meaningL row rs)
    | .term (.var x) => row x
    | .term (.const c) => c
    | .linear => 0
noncomputable def meaningL (row : String → ℝ) : List (Node GFn GTerm) → List ℝ
  | [] => []
  | t :: ts => meaning row t :: meaningL row ts
end

/-- Row `j` of a data frame. -/
noncomputable def rowOf (d : Frame) (j : Nat) : String → ℝ := fun x => ((d.col x).getD []).getD j 0

/-- The bias plus the weighted sum of the subtrees, on one row. -/
noncomputable def modelValue (w : List ℝ) (roots : List (Node GFn GTerm)) (row : String → ℝ) : ℝ :=
  w.getD 0 0 + ((List.range roots.length).map (fun i => w.getD (i + 1) 0 * ((roots[i]?).map (meaning row)).getD 0)).sum

/-- An expression over the columns of a frame: functions have as many arguments as they need, variables are columns. -/
def Fits (d : Frame) (t : Node GFn GTerm) : Prop :=
  ∀ (p : List Nat) (s : Node GFn GTerm), t.at? p = some s →
    match s.value with
    | .fn g => s.roots.length = g.arity
    | .term (.var x) => s.roots = [] ∧ ∃ l, d.col x = some l ∧ l.length = d.rows
    | .term (.const _) => s.roots = []
    | .linear => False

/-- Somewhere in the tree there is a division whose divisor is just the variable `x`. -/
def DividesBy (t : Node GFn GTerm) (x : String) : Prop :=
  ∃ (p : List Nat) (s u : Node GFn GTerm), t.at? p = some s ∧ s.value = .fn .div ∧ s.roots[1]? = some u ∧ u.value = .term (.var x)

/-- The column has a zero. -/
def HasZero (d : Frame) (x : String) : Prop := ∃ l, d.col x = some l ∧ (0 : ℝ) ∈ l

/-- The column with every zero replaced by one. -/
noncomputable def onesForZeros (l : List ℝ) : List ℝ := l.map (fun y => if y = 0 then 1 else y)

/-- The frame with row `j` only. -/
noncomputable def oneRow (d : Frame) (j : Nat) : Frame := ⟨1, fun x => (d.col x).map (fun l => [l.getD j 0])⟩

end Verif.Spec
