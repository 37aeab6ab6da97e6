import Verif.Model.Numpy

/-!
# Model of `desdeo_emo/population/Population.py`

A population is a structure of columns (numpy arrays).  Row types are abstract:
`X` decision vectors, `O` objective rows, `F` fitness rows, `C` constraint rows, `U` uncertainty
rows.  Each operation returns the outcome *and* the state it leaves behind, so that partial
mutation before an exception is visible.
-/

namespace Verif

/-- `EvaluationResults` of `desdeo_problem` (as used at `Population.py:145-149`). -/
structure Results (O F C U : Type) where
  objectives : List O
  fitness : List F
  constraints : Option (List C)
  uncertainity : Option (List U)

/-- The offspring argument of `add`: the array's `ndim` and its rows.  An array with one dimension
less than the population array is a single individual (`rows` then has one element). -/
structure Batch (X : Type) where
  ndim : Nat
  rows : List X

/-- The state of a `Population` object, `Population.py:15-30`.  `individuals = none` is Python's
`None`.  `objectives`/`fitness` are `None` before the first `add`; they are read only after it, so
`[]` stands for `None` there.  `nCons` is `problem.n_of_constraints`, `ndim` is
`individuals.ndim`. -/
structure Pop (X O F C U : Type) where
  nCons : Nat
  ndim : Nat
  individuals : Option (List X)
  objectives : List O
  fitness : List F
  constraint : Option (List C)
  uncertainity : Option (List U)

variable {X O F C U : Type}

/-- `Population.py:18-23`: the object before anything was added. -/
def Pop.new (nCons : Nat) : Pop X O F C U :=
  { nCons := nCons, ndim := 0, individuals := none, objectives := [], fitness := [],
    constraint := none, uncertainity := none }

/-- `np.vstack((a, b))` for a column that may be `None`.  With two or more columns numpy turns
`None` into a 1×1 object array and raises ValueError on the width mismatch.  (Width one, where
numpy would silently add a bogus row, is not modelled.) -/
def vstackOpt {α : Type} (a b : Option (List α)) : Except Err (Option (List α)) :=
  match a, b with
  | some x, some y => .ok (some (x ++ y))
  | _, _ => .error .valueError

/-- `Population.add`, `Population.py:126-175`.  `ev` is the outcome of `problem.evaluate` (line 145),
an arbitrary value.  The branches follow the source: first add / append with equal `ndim` / append
one individual with `ndim` one less / the `pass` branch (163-164) which adds no individual. -/
def Pop.add (p : Pop X O F C U) (off : Batch X) (ev : Except Err (Results O F C U)) :
    Except Err (Results O F C U) × Pop X O F C U :=
  match ev with
  | .error e => (.error e, p)
  | .ok r =>
    match p.individuals with
    | none =>
      (.ok r, { p with individuals := some off.rows, ndim := off.ndim, objectives := r.objectives,
                       fitness := r.fitness, constraint := r.constraints,
                       uncertainity := r.uncertainity })
    | some inds =>
      let inds' :=
        if p.ndim = off.ndim + 1 then inds ++ off.rows
        else if p.ndim = off.ndim then inds ++ off.rows
        else inds
      let p1 := { p with individuals := some inds', objectives := p.objectives ++ r.objectives,
                         fitness := p.fitness ++ r.fitness }
      -- lines 167-168
      let c : Except Err (Pop X O F C U) :=
        if p.nCons ≠ 0 then
          match vstackOpt p1.constraint r.constraints with
          | .error e => .error e
          | .ok c => .ok { p1 with constraint := c }
        else .ok p1
      match c with
      | .error e => (.error e, p1)
      | .ok p2 =>
        -- lines 169-172
        match r.uncertainity with
        | none => (.ok r, { p2 with uncertainity := none })
        | some _ =>
          match vstackOpt p2.uncertainity r.uncertainity with
          | .error e => (.error e, p2)
          | .ok u => (.ok r, { p2 with uncertainity := u })

/-- Apply a mask to the columns after `individuals`, in source order
(`Population.py:190-195` and `211-216`, which are identical); the first failing column stops the
update and leaves the earlier ones changed. -/
def Pop.maskColumns (p : Pop X O F C U) (mask : List Bool) : Except Err Unit × Pop X O F C U :=
  match boolIndex mask p.objectives with
  | .error e => (.error e, p)
  | .ok o =>
    let p := { p with objectives := o }
    match boolIndex mask p.fitness with
    | .error e => (.error e, p)
    | .ok f =>
      let p := { p with fitness := f }
      let u : Except Err (Option (List U)) :=
        match p.uncertainity with
        | none => .ok none
        | some us =>
          match boolIndex mask us with
          | .error e => .error e
          | .ok us' => .ok (some us')
      match u with
      | .error e => (.error e, p)
      | .ok u =>
        let p := { p with uncertainity := u }
        if p.nCons > 0 then
          match p.constraint with
          | none => (.error .typeError, p)
          | some cs =>
            match boolIndex mask cs with
            | .error e => (.error e, p)
            | .ok cs' => (.ok (), { p with constraint := some cs' })
        else (.ok (), p)

/-- `Population.keep`, `Population.py:177-195`.  On `individuals = None` the `.shape` access raises
AttributeError. -/
def Pop.keep (p : Pop X O F C U) (indices : List Int) : Except Err Unit × Pop X O F C U :=
  match p.individuals with
  | none => (.error .attributeError, p)
  | some inds =>
    match resolve inds.length indices with
    | .error e => (.error e, p)
    | .ok ks =>
      let mask := setMask (List.replicate inds.length false) ks true
      match boolIndex mask inds with
      | .error e => (.error e, p)
      | .ok inds' => ({ p with individuals := some inds' } : Pop X O F C U).maskColumns mask

/-- `Population.delete`, `Population.py:197-216`. -/
def Pop.delete (p : Pop X O F C U) (indices : List Int) : Except Err Unit × Pop X O F C U :=
  match p.individuals with
  | none => (.error .attributeError, p)
  | some inds =>
    match resolve inds.length indices with
    | .error e => (.error e, p)
    | .ok ks =>
      let mask := setMask (List.replicate inds.length true) ks false
      match boolIndex mask inds with
      | .error e => (.error e, p)
      | .ok inds' =>
        ({ p with individuals := if inds'.length = 0 then none else some inds' } :
          Pop X O F C U).maskColumns mask

/-- `Population.replace`, `Population.py:253-272`, for an `evaluation` holding one row (the docstring's
"the given individual and its evaluation"; numpy broadcasts that row to all named positions).
Assigning a missing (`None`) constraint or uncertainty row into an existing array is outside the
model: it is reported as TypeError. -/
def Pop.replace (p : Pop X O F C U) (indices : List Int) (x : X) (o : O) (f : F)
    (c : Option C) (u : Option U) : Except Err Unit × Pop X O F C U :=
  match p.individuals with
  | none => (.error .typeError, p)
  | some inds =>
    match resolve inds.length indices with
    | .error e => (.error e, p)
    | .ok ks =>
      let p := { p with individuals := some (setRows inds ks x) }
      match resolve p.objectives.length indices with
      | .error e => (.error e, p)
      | .ok ks =>
        let p := { p with objectives := setRows p.objectives ks o }
        match resolve p.fitness.length indices with
        | .error e => (.error e, p)
        | .ok ks =>
          let p := { p with fitness := setRows p.fitness ks f }
          let r1 : Except Err Unit × Pop X O F C U :=
            match p.constraint with
            | none => (.ok (), p)
            | some cs =>
              match resolve cs.length indices, c with
              | .error e, _ => (.error e, p)
              | .ok _, none => (.error .typeError, p)
              | .ok ks, some c => (.ok (), { p with constraint := some (setRows cs ks c) })
          match r1 with
          | (.error e, p) => (.error e, p)
          | (.ok _, p) =>
            match p.uncertainity with
            | none => (.ok (), p)
            | some us =>
              match resolve us.length indices, u with
              | .error e, _ => (.error e, p)
              | .ok _, none => (.error .typeError, p)
              | .ok ks, some u => (.ok (), { p with uncertainity := some (setRows us ks u) })

/-- A call on a population object. -/
inductive PopOp (X O F C U : Type)
  | add (off : Batch X) (ev : Except Err (Results O F C U))
  | keep (indices : List Int)
  | delete (indices : List Int)
  | replace (indices : List Int) (x : X) (o : O) (f : F) (c : Option C) (u : Option U)

/-- One call: did it raise, and the state afterwards. -/
def Pop.step (p : Pop X O F C U) : PopOp X O F C U → Except Err Unit × Pop X O F C U
  | .add off ev =>
    match p.add off ev with
    | (.ok _, p') => (.ok (), p')
    | (.error e, p') => (.error e, p')
  | .keep is => p.keep is
  | .delete is => p.delete is
  | .replace is x o f c u => p.replace is x o f c u

/-- A history of calls; exceptions are caught by the caller, who goes on with the state the failed
call left behind. -/
def Pop.run (p : Pop X O F C U) : List (PopOp X O F C U) → Pop X O F C U
  | [] => p
  | op :: ops => (p.step op).2.run ops

/-- The column-wise clamp of `Population.repair`, `Population.py:274-291`, on one component.  `none`
is NaN: both comparisons are false, so NaN stays.  Upper bound first, then lower bound, but both
masks are computed before either assignment (lines 287-288). -/
def repair1 {K : Type} [LT K] [DecidableRel (α := K) (· < ·)] (lo hi : K) (x : Option K) : Option K :=
  match x with
  | none => none
  | some x =>
    let y := if hi < x then hi else x
    if x < lo then some lo else some y

/-- `Population.repair`, `Population.py:274-291`: NaN is `none`; the three vectors have the length of
the decision vector (numpy would raise on a shape mismatch). -/
def repair {K : Type} [LT K] [DecidableRel (α := K) (· < ·)] :
    List K → List K → List (Option K) → List (Option K)
  | l :: ls, h :: hs, x :: xs => repair1 l h x :: repair ls hs xs
  | _, _, _ => []

end Verif
