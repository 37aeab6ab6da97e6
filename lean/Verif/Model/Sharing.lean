import Verif.Model.Population

/-!
# Populations whose columns are shared arrays

`Model/Population.lean` treats the columns of a population as values.  In Python they are references to numpy arrays, which other
objects (archive tables, plot requests, the caller) may hold as well, and two methods write into arrays in place.  This file models the
same methods over a heap of arrays.  A two-dimensional array is the list of its rows; a row has type `R`.
-/

namespace Verif

variable {R : Type}

/-- The arrays that exist: `cells r` is the contents of array `r`, and the arrays created so far are those below `next`.
(Memory; no line of `/repo`.) -/
structure Heap (R : Type) where
  cells : Nat → List R
  next : Nat

/-- A new array (`np.vstack`, boolean indexing, `np.zeros_like`, ... always create one; e.g. `Population.py:160,189`). -/
def Heap.alloc (h : Heap R) (l : List R) : Nat × Heap R := (h.next, ⟨fun r => if r = h.next then l else h.cells r, h.next + 1⟩)

/-- Assignment into an existing array (`a[...] = v`, e.g. `Population.py:266`). -/
def Heap.write (h : Heap R) (r : Nat) (l : List R) : Heap R := { h with cells := fun q => if q = r then l else h.cells q }

/-- The attributes of a population that hold arrays, `Population.py:18-23`. -/
inductive Col
  | individuals | objectives | fitness | constraint | uncertainity
  deriving DecidableEq, Repr

/-- A `Population` object: its attributes are references to arrays or `None`, `Population.py:15-30`. -/
structure Shared where
  nCons : Nat
  ndim : Nat
  attr : Col → Option Nat

/-- `self.c = r` (e.g. `Population.py:151-155`). -/
def Shared.set (s : Shared) (c : Col) (r : Option Nat) : Shared := { s with attr := fun d => if d = c then r else s.attr d }

/-- What a reader of the attributes sees, in the terms of `Model/Population.lean` (`Population.py:15-30`). -/
def Shared.read (h : Heap R) (s : Shared) : Pop R R R R R :=
  { nCons := s.nCons, ndim := s.ndim,
    individuals := (s.attr .individuals).map h.cells,
    objectives := ((s.attr .objectives).map h.cells).getD [],
    fitness := ((s.attr .fitness).map h.cells).getD [],
    constraint := (s.attr .constraint).map h.cells,
    uncertainity := (s.attr .uncertainity).map h.cells }

/-- `EvaluationResults` as returned by `problem.evaluate`: references, `Population.py:145-149`. -/
structure SharedResults where
  objectives : Nat
  fitness : Nat
  constraints : Option Nat
  uncertainity : Option Nat

/-- The contents of an `EvaluationResults` (`Population.py:145-149`). -/
def SharedResults.read (h : Heap R) (r : SharedResults) : Results R R R R :=
  ⟨h.cells r.objectives, h.cells r.fitness, r.constraints.map h.cells, r.uncertainity.map h.cells⟩

/-- `np.vstack((self.c, new))` assigned to `self.c`, `Population.py:165-172`; `None` raises (see `vstackOpt`). -/
def Shared.vstack (h : Heap R) (s : Shared) (c : Col) (new : Option Nat) : Except Err (Heap R × Shared) :=
  match s.attr c, new with
  | some a, some b =>
    let n := h.alloc (h.cells a ++ h.cells b)
    .ok (n.2, s.set c (some n.1))
  | _, _ => .error .valueError

/-- `Population.add`, `Population.py:126-175`.  `off` is the caller's array.  On the first call the population keeps the caller's array
and the arrays of the evaluation themselves (151-155); later calls create new arrays, except that the branch for other dimensions
(163-164) keeps the array of individuals. -/
def Shared.add (h : Heap R) (s : Shared) (ndim off : Nat) (ev : Except Err SharedResults) : Except Err Unit × Heap R × Shared :=
  match ev with
  | .error e => (.error e, h, s)
  | .ok r =>
    match s.attr .individuals with
    | none =>
      (.ok (), h,
        ((((({ s with ndim := ndim } : Shared).set .individuals (some off)).set .objectives (some r.objectives)).set .fitness
          (some r.fitness)).set .constraint r.constraints).set .uncertainity r.uncertainity)
    | some i =>
      let hs : Heap R × Shared :=
        if s.ndim = ndim + 1 ∨ s.ndim = ndim then
          let n := h.alloc (h.cells i ++ h.cells off)
          (n.2, s.set .individuals (some n.1))
        else (h, s)
      match hs.2.vstack hs.1 .objectives (some r.objectives) with
      | .error e => (.error e, hs)
      | .ok hs =>
        match hs.2.vstack hs.1 .fitness (some r.fitness) with
        | .error e => (.error e, hs)
        | .ok hs =>
          match (if s.nCons ≠ 0 then hs.2.vstack hs.1 .constraint r.constraints else .ok hs) with
          | .error e => (.error e, hs)
          | .ok hs =>
            match r.uncertainity with
            | none => (.ok (), hs.1, hs.2.set .uncertainity none)
            | some u =>
              match hs.2.vstack hs.1 .uncertainity (some u) with
              | .error e => (.error e, hs)
              | .ok hs => (.ok (), hs)

/-- `self.c = self.c[mask]`, `Population.py:187-195,208-216`: a new array; `None[mask]` raises TypeError. -/
def Shared.maskCol (h : Heap R) (s : Shared) (c : Col) (mask : List Bool) : Except Err (Heap R × Shared) :=
  match s.attr c with
  | none => .error .typeError
  | some a =>
    match boolIndex mask (h.cells a) with
    | .error e => .error e
    | .ok l =>
      let n := h.alloc l
      .ok (n.2, s.set c (some n.1))

/-- The columns after `individuals`, `Population.py:190-195` and `211-216`. -/
def Shared.maskColumns (h : Heap R) (s : Shared) (mask : List Bool) : Except Err Unit × Heap R × Shared :=
  match s.maskCol h .objectives mask with
  | .error e => (.error e, h, s)
  | .ok hs =>
    match hs.2.maskCol hs.1 .fitness mask with
    | .error e => (.error e, hs)
    | .ok hs =>
      match (if (hs.2.attr .uncertainity).isSome then hs.2.maskCol hs.1 .uncertainity mask else .ok hs) with
      | .error e => (.error e, hs)
      | .ok hs =>
        match (if s.nCons > 0 then hs.2.maskCol hs.1 .constraint mask else .ok hs) with
        | .error e => (.error e, hs)
        | .ok hs => (.ok (), hs)

/-- `Population.keep`, `Population.py:177-195`. -/
def Shared.keep (h : Heap R) (s : Shared) (indices : List Int) : Except Err Unit × Heap R × Shared :=
  match s.attr .individuals with
  | none => (.error .attributeError, h, s)
  | some i =>
    match resolve (h.cells i).length indices with
    | .error e => (.error e, h, s)
    | .ok ks =>
      let mask := setMask (List.replicate (h.cells i).length false) ks true
      match s.maskCol h .individuals mask with
      | .error e => (.error e, h, s)
      | .ok hs => hs.2.maskColumns hs.1 mask

/-- `Population.delete`, `Population.py:197-216`. -/
def Shared.delete (h : Heap R) (s : Shared) (indices : List Int) : Except Err Unit × Heap R × Shared :=
  match s.attr .individuals with
  | none => (.error .attributeError, h, s)
  | some i =>
    match resolve (h.cells i).length indices with
    | .error e => (.error e, h, s)
    | .ok ks =>
      let mask := setMask (List.replicate (h.cells i).length true) ks false
      match boolIndex mask (h.cells i) with
      | .error e => (.error e, h, s)
      | .ok l =>
        let n := h.alloc l
        (s.set .individuals (if l.length = 0 then none else some n.1)).maskColumns n.2 mask

/-- `self.c[indices, :] = row`, `Population.py:266-272`: written into the array `self.c` refers to. -/
def Shared.assign (h : Heap R) (s : Shared) (c : Col) (indices : List Int) (row : Option R) : Except Err (Heap R) :=
  match s.attr c with
  | none => .error .typeError
  | some a =>
    match resolve (h.cells a).length indices, row with
    | .error e, _ => .error e
    | .ok _, none => .error .typeError
    | .ok ks, some v => .ok (h.write a (setRows (h.cells a) ks v))

/-- `Population.replace`, `Population.py:253-272`, for an evaluation holding one row.  The individual and the rows of the evaluation
are given as values: an argument that is itself a view of the population's arrays is not modelled. -/
def Shared.replace (h : Heap R) (s : Shared) (indices : List Int) (x o f : R) (c u : Option R) : Except Err Unit × Heap R × Shared :=
  match s.assign h .individuals indices (some x) with
  | .error e => (.error e, h, s)
  | .ok h =>
    match s.assign h .objectives indices (some o) with
    | .error e => (.error e, h, s)
    | .ok h =>
      match s.assign h .fitness indices (some f) with
      | .error e => (.error e, h, s)
      | .ok h =>
        match (if (s.attr .constraint).isSome then s.assign h .constraint indices c else .ok h) with
        | .error e => (.error e, h, s)
        | .ok h =>
          match (if (s.attr .uncertainity).isSome then s.assign h .uncertainity indices u else .ok h) with
          | .error e => (.error e, h, s)
          | .ok h => (.ok (), h, s)

/-- A call on the population, or anybody (variation, evaluation, the caller) creating an array (`Population.py:126,177,197,253`). -/
inductive SharedOp (R : Type)
  | add (ndim off : Nat) (ev : Except Err SharedResults)
  | keep (indices : List Int)
  | delete (indices : List Int)
  | replace (indices : List Int) (x o f : R) (c u : Option R)
  | array (rows : List R)

/-- One call (`Population.py:126-272`). -/
def Shared.step (h : Heap R) (s : Shared) : SharedOp R → Except Err Unit × Heap R × Shared
  | .add d off ev => s.add h d off ev
  | .keep is => s.keep h is
  | .delete is => s.delete h is
  | .replace is x o f c u => s.replace h is x o f c u
  | .array rows => (.ok (), (h.alloc rows).2, s)

/-- A history of calls; exceptions are caught by the caller (`Population.py:126-272`). -/
def Shared.run (h : Heap R) (s : Shared) : List (SharedOp R) → Heap R × Shared
  | [] => (h, s)
  | op :: ops => (s.step h op).2.2.run (s.step h op).2.1 ops

/-- The arrays created by `problem.evaluate` (`desdeo_problem`, as used at `Population.py:145`). -/
def Heap.allocResults (h : Heap R) (r : Results R R R R) : SharedResults × Heap R :=
  let o := h.alloc r.objectives
  let f := o.2.alloc r.fitness
  let c : Option Nat × Heap R :=
    match r.constraints with
    | none => (none, f.2)
    | some l => (some (f.2.alloc l).1, (f.2.alloc l).2)
  let u : Option Nat × Heap R :=
    match r.uncertainity with
    | none => (none, c.2)
    | some l => (some (c.2.alloc l).1, (c.2.alloc l).2)
  (⟨o.1, f.1, c.1, u.1⟩, u.2)

/-- `individual[...] = ...` in `Population.repair`, `Population.py:287-291`: the repaired values are written into the array given, which
is also the return value.  `g` is the clamp of one vector (`Verif.repair`). -/
def Heap.repairInPlace (h : Heap R) (r : Nat) (g : R → R) : Heap R := h.write r ((h.cells r).map g)

/-- The part of one step of `MOEA_D._next_gen` that touches arrays, `MOEAD.py:126-147`: `mate` creates the offspring (its first row is
an array of its own here; in the source it is a view of an array nothing else refers to), `repair` writes into it when `fix` is given,
the evaluation creates its arrays, `add`, the replacement at the positions chosen from what the population then holds, `delete([-1])`.
The outcome is the exception that stops the step, if any. -/
def Shared.moeadTurn (h : Heap R) (s : Shared) (row : R) (fix : Option (R → R)) (ev : R → Except Err (Results R R R R))
    (sel : Pop R R R R R → Except Err (List Int)) : Except Err Unit × Heap R × Shared :=
  let a := h.alloc [row]
  let h :=
    match fix with
    | none => a.2
    | some g => a.2.repairInPlace a.1 g
  let x := match fix with
    | none => row
    | some g => g row
  match ev x with
  | .error e => (.error e, h, s)
  | .ok r =>
    let q := h.allocResults r
    match s.add q.2 (s.ndim - 1) a.1 (.ok q.1) with
    | (.error e, hs) => (.error e, hs)
    | (.ok _, h, s) =>
      match sel (s.read h) with
      | .error e => (.error e, h, s)
      | .ok is =>
        match r.objectives, r.fitness with
        | o :: _, f :: _ =>
          match s.replace h is x o f (r.constraints.bind List.head?) (r.uncertainity.bind List.head?) with
          | (.error e, hs) => (.error e, hs)
          | (.ok _, h, s) => s.delete h [-1]
        | _, _ => (.error .valueError, h, s)

/-- What the algorithms of the package do with a population between two moments at which a user can look: single calls of `add`,
`keep` and `delete` and the creation of arrays (`BaseEA.py:424-432`, `BaseIndicatorEA.py:106-129`, `PPGA.py:117-160`), or a whole step
of MOEA/D (`MOEAD.py:126-147`); `replace` is called nowhere else in the package. -/
inductive Turn (R : Type)
  | add (ndim off : Nat) (ev : Except Err SharedResults)
  | keep (indices : List Int)
  | delete (indices : List Int)
  | array (rows : List R)
  | moead (row : R) (fix : Option (R → R)) (ev : R → Except Err (Results R R R R)) (sel : Pop R R R R R → Except Err (List Int))

/-- One turn (`BaseEA.py:424-432`, `MOEAD.py:126-147`). -/
def Shared.turn (h : Heap R) (s : Shared) : Turn R → Except Err Unit × Heap R × Shared
  | .add d off ev => s.add h d off ev
  | .keep is => s.keep h is
  | .delete is => s.delete h is
  | .array rows => (.ok (), (h.alloc rows).2, s)
  | .moead row fix ev sel => s.moeadTurn h row fix ev sel

/-- A sequence of turns, continued after exceptions (`BaseEA.py:139-152`). -/
def Shared.turns (h : Heap R) (s : Shared) : List (Turn R) → Heap R × Shared
  | [] => (h, s)
  | t :: ts => (s.turn h t).2.2.turns (s.turn h t).2.1 ts

end Verif
