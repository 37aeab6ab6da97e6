import Verif.Model.Animate

/-!
# Vocabulary for animations
-/

namespace Verif.Spec
variable {K : Type}

/-- The lists of numbers a trace shows, one per axis. -/
def axesOf : Trace K → List (List K)
  | .two x y => [x, y]
  | .three x y z => [x, y, z]
  | .parallel ds => ds.map (fun d => d.2.2)

/-- The trace shows exactly the data: axis `j` is column `j`, entry `i` that of row `i`. -/
def Shows (s : Trace K) (t : Table K) : Prop :=
  (axesOf s).length = t.cols ∧ ∀ (j : Fin t.cols) (l : List K), (axesOf s)[j.val]? = some l →
    l.length = t.rows.length ∧ ∀ (i : Nat) (r : Fin t.cols → K), t.rows[i]? = some r → l[i]? = some (r j)

/-- The ranges of parallel coordinates are those of the data: nothing is outside, and both ends occur. -/
def TightRanges [LinearOrder K] (s : Trace K) : Prop :=
  match s with
  | .parallel ds => ∀ d ∈ ds, d.1 ∈ d.2.2 ∧ d.2.1 ∈ d.2.2 ∧ ∀ x ∈ d.2.2, d.1 ≤ x ∧ x ≤ d.2.1
  | _ => True

/-- Data that can be plotted: two or more objectives; with four or more at least one row. -/
def Plottable (t : Table K) : Prop := 2 ≤ t.cols ∧ (4 ≤ t.cols → t.rows ≠ [])

end Verif.Spec
