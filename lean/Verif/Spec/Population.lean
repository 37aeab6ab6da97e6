import Verif.Model.Population
import Verif.Spec.Records

/-!
# Specification of the population: one list of complete records

`Represents p rs` says what a user can observe of population `p` when the abstract population is the
list `rs`.  `recStep` is the abstract machine: append, filter by position, overwrite by position.
-/

namespace Spec
open Verif

variable {X O F C U : Type}

/-- The columns of `p` are the columns of the record list `rs`.  If an uncertainty column is present
it belongs, row by row, to the same records.  (`individuals = None` stands for the empty list.) -/
structure Represents (p : Pop X O F C U) (rs : List (Rec X O F C U)) : Prop where
  inds : p.individuals = some (rs.map Rec.x) ∨ (p.individuals = none ∧ rs = [])
  objs : p.objectives = rs.map Rec.o
  fits : p.fitness = rs.map Rec.f
  cons : p.individuals ≠ none → p.nCons ≠ 0 →
    ∃ cs, p.constraint = some cs ∧ cs.map some = rs.map Rec.c
  nocons : p.nCons = 0 → p.constraint = none
  unc : ∀ us, p.uncertainity = some us → us.map some = rs.map Rec.u

/-- A possibly missing column as a column of options. -/
def optCol {α : Type} (n : Nat) : Option (List α) → List (Option α)
  | none => List.replicate n none
  | some l => l.map some

/-- The records of a batch of offspring with its evaluation. -/
def newRecs (xs : List X) (r : Results O F C U) : List (Rec X O F C U) :=
  (xs.zip (r.objectives.zip (r.fitness.zip
    ((optCol xs.length r.constraints).zip (optCol xs.length r.uncertainity))))).map
    (fun t => ⟨t.1, t.2.1, t.2.2.1, t.2.2.2.1, t.2.2.2.2⟩)

/-- The contract of `problem.evaluate`: one row per evaluated vector in every column; constraint
values exactly when the problem has constraints. -/
structure EvalOK (nCons n : Nat) (r : Results O F C U) : Prop where
  objs : r.objectives.length = n
  fits : r.fitness.length = n
  nocons : nCons = 0 → r.constraints = none
  cons : nCons ≠ 0 → ∃ cs, r.constraints = some cs ∧ cs.length = n
  unc : ∀ us, r.uncertainity = some us → us.length = n

/-- The abstract machine. -/
def recStep (rs : List (Rec X O F C U)) : PopOp X O F C U → List (Rec X O F C U)
  | .add off (.ok r) => rs ++ newRecs off.rows r
  | .add _ (.error _) => rs
  | .keep idx =>
    if inRange rs.length idx then rowsAt (fun k => names rs.length idx k) rs else rs
  | .delete idx =>
    if inRange rs.length idx then rowsAt (fun k => !names rs.length idx k) rs else rs
  | .replace idx x o f c u =>
    if inRange rs.length idx then rowsSet (fun k => names rs.length idx k) ⟨x, o, f, c, u⟩ rs else rs

/-- The abstract machine over a history. -/
def recRun (rs : List (Rec X O F C U)) (ops : List (PopOp X O F C U)) : List (Rec X O F C U) :=
  ops.foldl recStep rs

/-- Calls that respect the API: batches have the population's number of dimensions `d` (or are one
vector, `d - 1` dimensions, given to a population that is not `None`), evaluations satisfy `EvalOK`,
`replace` is given an evaluation with a row for each column the population has. -/
def OpOK (d : Nat) (p : Pop X O F C U) : PopOp X O F C U → Prop
  | .add off (.ok r) =>
    EvalOK p.nCons off.rows.length r ∧
      (off.ndim = d ∨ (off.ndim + 1 = d ∧ off.rows.length = 1 ∧ p.individuals ≠ none))
  | .add _ (.error _) => True
  | .keep _ => True
  | .delete _ => True
  | .replace _ _ _ _ c u =>
    (p.nCons ≠ 0 → c ≠ none) ∧ (p.uncertainity ≠ none → u ≠ none)

/-- Every call of the history respects the API. -/
def RunOK (d : Nat) (p : Pop X O F C U) : List (PopOp X O F C U) → Prop
  | [] => True
  | op :: ops => OpOK d p op ∧ RunOK d (p.step op).2 ops

end Spec
