import Verif.Model.Numpy
import Mathlib.Order.Lattice
import Mathlib.Order.Defs.LinearOrder

/-!
# Model of the animations, `desdeo_emo/utilities/plotlyanimate.py`

A figure is a dictionary that is extended in place and written to a file after every change.  Styling (colours, axes, the texts of the slider) is left out.
-/

namespace Verif

/-- A two-dimensional numpy array: `data.shape[1]` (`plotlyanimate.py:27,67`) and the rows. -/
structure Table (K : Type) where
  cols : Nat
  rows : List (Fin cols → K)

/-- What one trace shows: `go.Scatter`, `go.Scatter3d`, or `go.Parcoords` with a range and the values for every column, `plotlyanimate.py:169-178,312-324,442-457`. -/
inductive Trace (K : Type)
  | two (x y : List K)
  | three (x y z : List K)
  | parallel (dims : List (K × K × List K))

/-- The parts of the figure that change, `plotlyanimate.py:99,218,364`: the first trace, the frames with their names, the steps of the slider (the same
number is the argument and the label, `plotlyanimate.py:181-193`). -/
structure Fig (K : Type) where
  data : List (Trace K)
  frames : List (String × Trace K)
  steps : List Int

section
variable {K : Type} [LinearOrder K]

/-- `data[:, j]`, `plotlyanimate.py:128-129,266-268`, and `objectives[column]`, `:395`. -/
def Table.column (t : Table K) (j : Fin t.cols) : List K := t.rows.map (fun r => r j)

/-- `dict(range=[min(column), max(column)], values=column)`, `plotlyanimate.py:391-398,442-449`; `min` of nothing is ValueError. -/
def dimension (l : List K) : Except Err (K × K × List K) :=
  match l with
  | [] => .error .valueError
  | a :: as => .ok (as.foldl min a, as.foldl max a, l)

/-- The trace for a data set, by the number of objectives, `plotlyanimate.py:28-33,70-75`; for fewer than two columns there is none.  The
traces of the first plot and of the frames are the same (`plotlyanimate.py:127-137` and `:169-179`, `:265-278` and `:312-325`, `:391-407` and `:442-458`). -/
def traceOf (t : Table K) : Except Err (Option (Trace K)) :=
  if h : t.cols = 2 then .ok (some (.two (t.column ⟨0, by omega⟩) (t.column ⟨1, by omega⟩)))
  else if h : t.cols = 3 then .ok (some (.three (t.column ⟨0, by omega⟩) (t.column ⟨1, by omega⟩) (t.column ⟨2, by omega⟩)))
  else if 4 ≤ t.cols then
    match (List.finRange t.cols).mapM (fun j => dimension (t.column j)) with
    | .error e => .error e
    | .ok ds => .ok (some (.parallel ds))
  else .ok none

/-- `animate_2d_next_` and the two others, `plotlyanimate.py:167-196,310-342,439-475`: a frame and a step more, saved. -/
def Fig.push (f : Fig K) (gen : Int) (s : Trace K) : Fig K := { f with frames := f.frames ++ [(toString gen, s)], steps := f.steps ++ [gen] }

/-- `animate_init_`, `plotlyanimate.py:9-37` with `:99-140,218-281,364-410`: the figure and what was written to the file, in order.  With fewer than two
columns `figure` is never assigned, and `return figure` raises UnboundLocalError. -/
def animateInit (t : Table K) : Except Err (Fig K) × List (Fig K) :=
  match traceOf t with
  | .error e => (.error e, [])
  | .ok none => (.error .unboundLocalError, [])
  | .ok (some s) =>
    let f : Fig K := ⟨[s], [], []⟩
    (.ok (f.push 0 s), [f, f.push 0 s])

/-- `animate_next_`, `plotlyanimate.py:40-76`: the outcome, the figure afterwards, and what was written.  The default generation is the number of frames. -/
def animateNext (t : Table K) (gen : Option Int) (f : Fig K) : Except Err Unit × Fig K × List (Fig K) :=
  let g := gen.getD f.frames.length
  match traceOf t with
  | .error e => (.error e, f, [])
  | .ok none => (.ok (), f, [])
  | .ok (some s) => (.ok (), f.push g s, [f.push g s])

/-- A history of calls of `animate_next_` (`plotlyanimate.py:40-76`) on one figure: the figure, and the file (the last thing written). -/
def animateRun (f : Fig K) (file : Option (Fig K)) : List (Table K × Option Int) → Fig K × Option (Fig K)
  | [] => (f, file)
  | c :: cs =>
    let r := animateNext c.1 c.2 f
    animateRun r.2.1 ((r.2.2.getLast?).or file) cs

end

end Verif
