import Verif.Model.EA

/-!
# What the user is shown: archive tables, plot requests, preference requests

`Model/EA.lean` reduces the tables of the archive to their rows and leaves the plot request out.  Here the tables get their column names,
and building them can raise, as in the source.  pandas is modelled as far as it is used: a frame made from a two-dimensional array and a
list of column names.  The frame `dimensions_data` of the requests (ideal, nadir, maximisation flags) is not modelled.
-/

namespace Verif

variable {X O F C U V S Q R K : Type}

/-- An entry of `objective_names`, `fitness_names` or `variable_names`: a string, or a list of strings (an objective with several values),
`BaseEA.py:109-117`. -/
inductive Name
  | one (s : String)
  | many (l : List String)
  deriving DecidableEq, Repr

/-- A column label: an entry of the list of names, or a tuple of a MultiIndex (`BaseEA.py:122,126,130`). -/
inductive Label
  | plain (n : Name)
  | tuple (l : List String)
  deriving DecidableEq, Repr

/-- A pandas frame, as built at `BaseEA.py:120-131`. -/
structure Sheet (K : Type) where
  columns : List Label
  rows : List (List K)
  deriving DecidableEq, Repr

/-- `isinstance(name, list)`, `BaseEA.py:109,114`. -/
def Name.isMany : Name → Bool
  | .one _ => false
  | .many _ => true

/-- The items of one entry under iteration: those of a list, the characters of a string (`BaseEA.py:110-112`). -/
def Name.items : Name → List String
  | .one s => s.toList.map Char.toString
  | .many l => l

/-- `[item for sublist in names for item in sublist]`, `BaseEA.py:110-112,115-117`. -/
def flattenNames (names : List Name) : List Name := names.flatMap (fun n => n.items.map Name.one)

/-- The objective names used for the archive, `BaseEA.py:108-117` (and `157-166`): flattened when the first one is a list; then, when the
first fitness name is a list, replaced by the flattened fitness names.  The fitness names stay as they are. -/
def archiveNames (objectives fitness : List Name) : Except Err (List Name) :=
  match objectives with
  | [] => .error .indexError
  | o :: os =>
    let names := if o.isMany then flattenNames (o :: os) else o :: os
    match fitness with
    | [] => .error .indexError
    | f :: fs => .ok (if f.isMany then flattenNames (f :: fs) else names)

/-- The strings of one entry (`BaseEA.py:109-117`). -/
def Name.strings : Name → List String
  | .one s => [s]
  | .many l => l

/-- The column labels pandas makes from a list of names: a list consisting of lists gives a MultiIndex, whose arrays must have one length;
anything else one label per entry (`pd.DataFrame(..., columns=...)`, `BaseEA.py:122,126,130`). -/
def labelsOf (names : List Name) : Except Err (List Label) :=
  match names with
  | [] => .ok []
  | n :: ns =>
    if (n :: ns).all Name.isMany then
      if ns.all (fun m => m.strings.length == n.strings.length) then
        .ok ((List.range n.strings.length).map (fun j => .tuple ((n :: ns).filterMap (fun m => m.strings[j]?))))
      else .error .valueError
    else .ok ((n :: ns).map .plain)

/-- `pd.DataFrame(array, columns=names)` for an array with `width` columns: as many labels as columns, or ValueError
(`BaseEA.py:120-131`). -/
def sheet (names : List Name) (width : Nat) (rows : List (List K)) : Except Err (Sheet K) :=
  match labelsOf names with
  | .error e => .error e
  | .ok ls => if ls.length = width then .ok ⟨ls, rows⟩ else .error .valueError

/-- `pd.DataFrame(None, columns=names)`, when the population has no individuals (`BaseEA.py:120-123`): no rows. -/
def emptySheet (names : List Name) : Except Err (Sheet K) :=
  match labelsOf names with
  | .error e => .error e
  | .ok ls => .ok ⟨ls, []⟩

/-- The names of the problem, the numbers of columns of its arrays, and how a row of each is read (`BaseEA.py:108-131`). -/
structure Layout (X O F K : Type) where
  variables : List Name
  objectives : List Name
  fitness : List Name
  nX : Nat
  nO : Nat
  nF : Nat
  cx : X → List K
  co : O → List K
  cf : F → List K

/-- One value of the `archive` dict with its frames, `BaseEA.py:118-132`. -/
structure Tables (K : Type) where
  iteration : Nat
  individuals : Sheet K
  objectives : Sheet K
  fitness : Sheet K
  deriving DecidableEq, Repr

/-- The table of the decision variables, `BaseEA.py:120-123`. -/
def Layout.individualsTable (L : Layout X O F K) : Option (List X) → Except Err (Sheet K)
  | none => emptySheet L.variables
  | some l => sheet L.variables L.nX (l.map L.cx)

/-- The right-hand side of `self.archive[...] = {...}`, `BaseEA.py:108-132,157-181`. -/
def Layout.tables (L : Layout X O F K) (iter : Nat) (p : Pop X O F C U) : Except Err (Tables K) :=
  match archiveNames L.objectives L.fitness with
  | .error e => .error e
  | .ok names =>
    match L.individualsTable p.individuals with
    | .error e => .error e
    | .ok x =>
      match sheet names L.nO (p.objectives.map L.co) with
      | .error e => .error e
      | .ok o =>
        match sheet L.fitness L.nF (p.fitness.map L.cf) with
        | .error e => .error e
        | .ok f => .ok ⟨iter, x, o, f⟩

/-- `request_plot`, `BaseEA.py:455-468`: the frame of the current objectives, under the names of the problem as they are. -/
def Layout.plot (L : Layout X O F K) (p : Pop X O F C U) : Except Err (Sheet K) := sheet L.objectives L.nO (p.objectives.map L.co)

/-- An EA object with the tables of its archive (`BaseEA.py:25-60`). -/
structure Reported (X O F C U V S Q K : Type) where
  ea : EA X O F C U V S Q
  tables : List (Nat × Tables K)

/-- Outcome and object left behind (no line of `/repo`). -/
abbrev RepRes (α X O F C U V S Q K : Type) := Except Err α × Reported X O F C U V S Q K

/-- `BaseEA.pre_iteration`, `BaseEA.py:154-181`, and the same statements in `end` (`107-132`).  The tables are built before the entry is
stored. -/
def Reported.record (L : Layout X O F K) (s : Reported X O F C U V S Q K) : RepRes Unit X O F C U V S Q K :=
  if s.ea.cfg.keepArchive then
    match L.tables s.ea.iter s.ea.pop with
    | .error e => (.error e, s)
    | .ok t => (.ok (), ⟨s.ea.record, dictSet s.tables s.ea.gen t⟩)
  else (.ok (), s)

/-- What `requests()` returns: the preference request and the plot (`BaseEA.py:470-480`); `nSolutions` is the number of solutions a
request for preferred or non-preferred solutions states (`SelectionBase.py:171,191`). -/
structure Shown (K : Type) where
  request : Option Request
  nSolutions : Option Nat
  plot : Sheet K
  deriving DecidableEq, Repr

/-- `n_solutions` of the request object, `SelectionBase.py:169-174,190-195`. -/
def nSolutionsOf (r : Option Request) (p : Pop X O F C U) : Option Nat :=
  match r with
  | none => none
  | some r =>
    match r.cls with
    | .preferredSolution => some p.objectives.length
    | .nonPreferredSolution => some p.objectives.length
    | _ => none

/-- `requests`, `BaseEA.py:479-480`: first the preference request, then the plot. -/
def Reported.requests (L : Layout X O F K) (ops : Ops X O F C U V S Q R) (s : Reported X O F C U V S Q K) :
    RepRes (Shown K) X O F C U V S Q K :=
  match s.ea.requestPreferences ops with
  | (.error e, t) => (.error e, { s with ea := t })
  | (.ok r, t) =>
    match L.plot t.pop with
    | .error e => (.error e, { s with ea := t })
    | .ok d => (.ok ⟨r, nSolutionsOf r t.pop, d⟩, { s with ea := t })

/-- `BaseEA.iterate`, `BaseEA.py:138-152`, with `BaseDecompositionEA.pre_iteration` (`437-442`), for a generation body. -/
def Reported.iterateWith (L : Layout X O F K) (ops : Ops X O F C U V S Q R)
    (body : EA X O F C U V S Q → EARes Unit X O F C U V S Q) (s : Reported X O F C U V S Q K) (pref : Option (Pref R)) :
    RepRes (Shown K) X O F C U V S Q K :=
  match s.ea.managePreferences ops pref with
  | (.error e, t) => (.error e, { s with ea := t })
  | (.ok _, t) =>
    match Reported.record L { s with ea := t } with
    | (.error e, s) => (.error e, s)
    | (.ok _, s) =>
      let t := if !s.ea.cfg.interact then { s.ea with vec := ops.adapt s.ea.vec s.ea.pop.fitness } else s.ea
      let t := if t.cfg.location ≠ some .selection then { t with vec := ops.adapt t.vec t.pop.fitness } else t
      let t := { t with genIter := 0 }
      match EA.loop body t.cfg.nGen t with
      | (.error e, t) => (.error e, { s with ea := t })
      | (.ok _, t) => Reported.requests L ops ({ s with ea := { t with iter := t.iter + 1 } })

/-- `start`, `BaseEA.py:82-103`. -/
def Reported.start (L : Layout X O F K) (ops : Ops X O F C U V S Q R) (s : Reported X O F C U V S Q K) :
    RepRes (Shown K) X O F C U V S Q K :=
  if s.ea.cfg.interact && !s.ea.typeSet then (.error .eaError, s)
  else
    let a : EARes Unit X O F C U V S Q :=
      if s.ea.cfg.saveND then
        match s.ea.pop.individuals with
        | none => (.error .typeError, s.ea)
        | some inds =>
          match startArchive ops.nonDom inds s.ea.pop.objectives s.ea.pop.fitness with
          | .error e => (.error e, s.ea)
          | .ok nd => (.ok (), { s.ea with nd := some nd })
      else (.ok (), s.ea)
    match a with
    | (.error e, t) => (.error e, { s with ea := t })
    | (.ok _, t) => Reported.requests L ops { s with ea := t }

/-- `BaseEA.end`, `BaseEA.py:105-133`: the dict, or None without `keep_archive`. -/
def Reported.finish (L : Layout X O F K) (s : Reported X O F C U V S Q K) :
    RepRes (Option (List (Nat × Tables K))) X O F C U V S Q K :=
  match s.record L with
  | (.error e, t) => (.error e, t)
  | (.ok _, t) => (.ok (if t.ea.cfg.keepArchive then some t.tables else none), t)

/-- A user call (`BaseEA.py:70-152,211-243`). -/
def Reported.call (L : Layout X O F K) (ops : Ops X O F C U V S Q R) (body : EA X O F C U V S Q → EARes Unit X O F C U V S Q)
    (s : Reported X O F C U V S Q K) : Call R → RepRes (Option (Shown K)) X O F C U V S Q K
  | .start =>
    match s.start L ops with
    | (.ok v, s) => (.ok (some v), s)
    | (.error e, s) => (.error e, s)
  | .setType a =>
    match s.ea.setInteractionType a with
    | (.ok _, t) => (.ok none, { s with ea := t })
    | (.error e, t) => (.error e, { s with ea := t })
  | .readAllowable =>
    match s.ea.readAllowable with
    | (.ok _, t) => (.ok none, { s with ea := t })
    | (.error e, t) => (.error e, { s with ea := t })
  | .iterate p =>
    match s.iterateWith L ops body p with
    | (.ok v, s) => (.ok (some v), s)
    | (.error e, s) => (.error e, s)

/-- A history of calls; exceptions are caught by the user, who goes on (`BaseEA.py:70-152`). -/
def Reported.calls (L : Layout X O F K) (ops : Ops X O F C U V S Q R) (body : EA X O F C U V S Q → EARes Unit X O F C U V S Q)
    (s : Reported X O F C U V S Q K) : List (Call R) → Reported X O F C U V S Q K
  | [] => s
  | c :: cs => (s.call L ops body c).2.calls L ops body cs

/-- `pop.objectives[preference.response]`, `SelectionBase.py:276,290`. -/
def chosenRows (objectives : List O) (response : List Int) : Except Err (List O) :=
  match resolve objectives.length response with
  | .error e => .error e
  | .ok ks => .ok (ks.filterMap (fun k => objectives[k]?))

end Verif
