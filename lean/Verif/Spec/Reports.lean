import Verif.Model.Reports

/-!
# Specification: tables, labels and what a request shows
-/

namespace Verif.Spec

open Verif

variable {X O F C U V S Q R K : Type}

/-- The value in row `i` of the first column labelled `name` (`frame[name][i]`). -/
def cellAt (t : Sheet K) (i : Nat) (name : String) : Option K :=
  (t.rows[i]?).bind (fun row => row[t.columns.findIdx (fun l => l == .plain (.one name))]?)

/-- The table shows exactly these rows, in this order, and under the `j`-th of these names the `j`-th values of the rows. -/
structure Labelled (t : Sheet K) (names : List String) (rows : List (List K)) : Prop where
  columns : t.columns = names.map (fun n => .plain (.one n))
  count : t.rows.length = rows.length
  cells : ∀ (i j : Nat) (row : List K) (name : String), rows[i]? = some row → names[j]? = some name → cellAt t i name = row[j]?

/-- All names are plain strings, as many as the arrays have columns. -/
structure FlatNames (L : Layout X O F K) (vn on fn : List String) : Prop where
  variables : L.variables = vn.map .one
  objectives : L.objectives = on.map .one
  fitness : L.fitness = fn.map .one
  nX : vn.length = L.nX
  nO : on.length = L.nO
  nF : fn.length = L.nF
  someObjective : on ≠ []
  someFitness : fn ≠ []

/-- No two columns of a table have the same name. -/
structure DistinctNames (vn on fn : List String) : Prop where
  variables : vn.Nodup
  objectives : on.Nodup
  fitness : fn.Nodup

/-- The tables of one archive entry show the population the entry recorded. -/
structure ShowsEntry (L : Layout X O F K) (vn on fn : List String) (t : Tables K) (e : Entry X O F) : Prop where
  iteration : t.iteration = e.iteration
  individuals : Labelled t.individuals vn ((e.individuals.getD []).map L.cx)
  objectives : Labelled t.objectives on (e.objectives.map L.co)
  fitness : Labelled t.fitness fn (e.fitness.map L.cf)

/-- A problem with several groups of names, every group with at least one name, that is nested: at least two groups, and either all
entries are lists or one of them has two names.  There are as many names as columns. -/
structure NestedNames (names : List Name) (width : Nat) : Prop where
  total : (names.map (fun n => n.strings.length)).sum = width
  nonempty : ∀ n ∈ names, 1 ≤ n.strings.length
  several : 2 ≤ names.length
  nested : (∀ n ∈ names, ∃ l, n = .many l) ∨ ∃ n ∈ names, 2 ≤ n.strings.length

/-- The call does not get past preference handling and so starts no iteration: it is not `iterate`, or its preference is rejected. -/
def NoIteration (ops : Ops X O F C U V S Q R) (s : EA X O F C U V S Q) : Call R → Prop
  | .iterate p => ∃ e, (s.managePreferences ops p).1 = .error e
  | _ => True

/-- No call of the history starts an iteration. -/
def NoIterations (L : Layout X O F K) (ops : Ops X O F C U V S Q R) (body : EA X O F C U V S Q → EARes Unit X O F C U V S Q)
    (s : Reported X O F C U V S Q K) : List (Call R) → Prop
  | [] => True
  | c :: cs => NoIteration ops s.ea c ∧ NoIterations L ops body (s.call L ops body c).2 cs

end Verif.Spec
