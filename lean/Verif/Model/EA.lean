import Verif.Model.Population
import Verif.Model.Dominance

/-!
# Model of `desdeo_emo/EAs/BaseEA.py`: construction, the iteration loop, interaction, archives

One state record `EA` for a decomposition EA object.  Everything random or external (variation,
evaluation, selection, reference-vector arithmetic) is a component in `Ops`, an arbitrary function; the
components that draw random numbers take `clock`, which ticks at every such call, so they may
return something different at each call.  Methods return the outcome and the state left behind.
-/

namespace Verif

/-- The keys of `allowable_interaction_types`, `SelectionBase.py:59-81`. -/
inductive Kind | refPoint | preferred | nonPreferred | ranges
deriving DecidableEq, Repr

/-- The key strings, `SelectionBase.py:59-76`. -/
def Kind.parse (s : String) : Option Kind :=
  if s = "Reference point" then some .refPoint
  else if s = "Preferred solutions" then some .preferred
  else if s = "Non-preferred solutions" then some .nonPreferred
  else if s = "Preferred ranges" then some .ranges
  else none

/-- The preference classes of `desdeo_tools.interaction` tested with isinstance at
`SelectionBase.py:255,271,285,297`. -/
inductive PrefClass | referencePoint | preferredSolution | nonPreferredSolution | bound | other
deriving DecidableEq, Repr

/-- The class tested for each interaction type, `SelectionBase.py:242-249` with `252-301`. -/
def Kind.cls : Kind → PrefClass
  | .refPoint => .referencePoint
  | .preferred => .preferredSolution
  | .nonPreferred => .nonPreferredSolution
  | .ranges => .bound

/-- A preference object: id of the request it answers, its class, its `response`. -/
structure Pref (R : Type) where
  id : Int
  cls : PrefClass
  response : R

/-- A request object returned to the user. -/
structure Request where
  id : Int
  cls : PrefClass
deriving DecidableEq, Repr

/-- `_interaction_location`: the two values `BaseDecompositionEA.__init__` ever assigns
(`BaseEA.py:384,386`); `None` is `Option.none`.  The branches for "Population" and "EA"
(`BaseEA.py:232-243,256-263,272-273`) are unreachable for these EAs and not modelled. -/
inductive Loc | selection | problem
deriving DecidableEq, Repr

/-- Constructor arguments that never change, `BaseEA.py:25-60`. -/
structure Cfg where
  interact : Bool
  location : Option Loc
  nIter : Nat
  nGen : Nat
  total : Nat
  useSurr : Bool
  keepArchive : Bool
  saveND : Bool

/-- One value of the `archive` dict, `BaseEA.py:118-132,167-181` (data frames reduced to their rows). -/
structure Entry (X O F : Type) where
  iteration : Nat
  individuals : Option (List X)
  objectives : List O
  fitness : List F

/-- The EA object.  `V` is the state of the reference vectors, `S` any further state of the selection
operator, `Q` the state of an interactive (IOPIS) problem.  `trueEvals` is a ghost: the number of decision
vectors passed so far to `problem.evaluate` with `use_surrogates=False`; so is `log`: the batches evaluated by
`Population.add` since construction, with the results. -/
structure EA (X O F C U V S Q : Type) where
  cfg : Cfg
  clock : Nat
  pop : Pop X O F C U
  vec : V
  sel : S
  prob : Q
  iter : Nat
  gen : Nat
  genIter : Nat
  fe : Nat
  reqId : Option Int
  itype : Option Kind
  typeSet : Bool
  allowRead : Bool
  archive : List (Nat × Entry X O F)
  nd : Option (NDArchive X O F)
  trueEvals : Nat
  log : List (List X × Results O F C U)

/-- External and random components. -/
structure Ops (X O F C U V S Q R : Type) where
  /-- `adapt_RVs`, `SelectionBase.py:102-104` -/
  adapt : V → List F → V
  /-- the four `manage_*` bodies after their isinstance test, `SelectionBase.py:259-301` (outcome and
  vectors left behind) -/
  respond : Nat → Kind → V → Pop X O F C U → R → Except Err Unit × V
  /-- `population.mate()`, `Population.py:218-240` -/
  mate : Nat → Pop X O F C U → Except Err (Batch X)
  /-- `problem.evaluate`, `Population.py:145` -/
  evaluate : Nat → Bool → Batch X → Except Err (Results O F C U)
  /-- `selection_operator.do`, `BaseEA.py:453` -/
  select : Nat → V → S → Pop X O F C U → Except Err (List Int) × V × S
  /-- `np.random.randint(0, 1e9)`, `SelectionBase.py:147,168,189,216` -/
  newId : Nat → Int
  /-- `problem.manage_preferences`, `problem/IOPIS.py:192-217` -/
  probManage : Q → Pop X O F C U → Option (Pref R) → Except Err Unit × Q
  /-- `problem.reevaluate_fitness`, `problem/IOPIS.py:131-145` -/
  probReeval : Q → List O → List F × Q
  /-- `desdeo_tools.utilities.dominates` and `non_dominated` -/
  dom : F → F → Bool
  nonDom : List F → List Bool

variable {X O F C U V S Q R : Type}

abbrev EARes (α X O F C U V S Q : Type) := Except Err α × EA X O F C U V S Q

/-- Assignment `d[k] = v` on a dict (insertion ordered). -/
def dictSet {α : Type} (d : List (Nat × α)) (k : Nat) (v : α) : List (Nat × α) :=
  if d.any (fun p => p.1 == k) then d.map (fun p => if p.1 = k then (k, v) else p) else d ++ [(k, v)]

/-- `check_FE_count`, `BaseEA.py:198-209`. -/
def EA.checkFE (s : EA X O F C U V S Q) : Bool :=
  if s.cfg.total = 0 then true else decide (s.fe ≤ s.cfg.total)

/-- `continue_iteration`, `BaseEA.py:187-192`. -/
def EA.continueIteration (s : EA X O F C U V S Q) : Bool := decide (s.genIter < s.cfg.nGen) && s.checkFE

/-- `continue_evolution`, `BaseEA.py:194-196`. -/
def EA.continueEvolution (s : EA X O F C U V S Q) : Bool := decide (s.iter < s.cfg.nIter) && s.checkFE

/-- The `archive[...] = {...}` statement of `pre_iteration` (`BaseEA.py:167-181`) and `end`
(`BaseEA.py:118-132`).  Objective and fitness names are plain strings here (nested name lists, which break
the column names at lines 114-117, are in `Model/Reports.lean`). -/
def EA.record (s : EA X O F C U V S Q) : EA X O F C U V S Q :=
  if s.cfg.keepArchive then
    { s with archive := dictSet s.archive s.gen ⟨s.iter, s.pop.individuals, s.pop.objectives, s.pop.fitness⟩ }
  else s

/-- `BaseDecompositionEA.pre_iteration`, `BaseEA.py:437-442`. -/
def EA.preIteration (ops : Ops X O F C U V S Q R) (s : EA X O F C U V S Q) : EA X O F C U V S Q :=
  let s := s.record
  let s := if !s.cfg.interact then { s with vec := ops.adapt s.vec s.pop.fitness } else s
  if s.cfg.location ≠ some .selection then { s with vec := ops.adapt s.vec s.pop.fitness } else s

/-- `InteractiveDecompositionSelectionBase.manage_preferences`, `SelectionBase.py:226-301`. -/
def EA.selManage (ops : Ops X O F C U V S Q R) (s : EA X O F C U V S Q) (pref : Option (Pref R)) :
    EARes Unit X O F C U V S Q :=
  match pref with
  | none => (.ok (), { s with vec := ops.adapt s.vec s.pop.fitness })
  | some p =>
    if s.reqId ≠ some p.id then (.error .valueError, s)
    else
      match s.itype with
      | none => (.error .valueError, s)
      | some k =>
        if p.cls ≠ k.cls then (.error .typeError, s)
        else
          let r := ops.respond s.clock k s.vec s.pop p.response
          (r.1, { s with vec := r.2, clock := s.clock + 1 })

/-- `BaseEA.manage_preferences`, `BaseEA.py:245-282`. -/
def EA.managePreferences (ops : Ops X O F C U V S Q R) (s : EA X O F C U V S Q) (pref : Option (Pref R)) :
    EARes Unit X O F C U V S Q :=
  match s.cfg.location with
  | none => (.ok (), s)
  | some .selection => s.selManage ops pref
  | some .problem =>
    match ops.probManage s.prob s.pop pref with
    | (.error e, q) => (.error e, { s with prob := q })
    | (.ok _, q) =>
      let r := ops.probReeval q s.pop.objectives
      (.ok (), { s with prob := r.2, pop := { s.pop with fitness := r.1 } })

/-- `request_preferences` of the EA and of the selection operator, `BaseEA.py:470-477`,
`SelectionBase.py:106-224`.  The preferred-ranges request has no return statement: the object is built
and dropped, `None` is returned, but the id is stored.  The Problem location returns a (data, message) pair
with no id; it is represented by `none`. -/
def EA.requestPreferences (ops : Ops X O F C U V S Q R) (s : EA X O F C U V S Q) :
    EARes (Option Request) X O F C U V S Q :=
  if s.cfg.interact = false then (.ok none, s)
  else
    match s.cfg.location with
    | none => (.ok none, s)
    | some .problem => (.ok none, s)
    | some .selection =>
      match s.itype with
      | none => (.error .valueError, s)
      | some k =>
        let id := ops.newId s.clock
        let s := { s with reqId := some id, clock := s.clock + 1 }
        if k = .ranges then (.ok none, s) else (.ok (some ⟨id, k.cls⟩), s)

/-- (ghost) what an evaluation adds to the log. -/
def evLog (off : Batch X) (ev : Except Err (Results O F C U)) : List (List X × Results O F C U) :=
  match ev with
  | .ok r => [(off.rows, r)]
  | .error _ => []

/-- `Population.add` on the EA's population, with the ghost evaluation count and log. -/
def EA.popAdd (ops : Ops X O F C U V S Q R) (s : EA X O F C U V S Q) (off : Batch X) :
    EARes (Results O F C U) X O F C U V S Q :=
  let ev := ops.evaluate s.clock s.cfg.useSurr off
  let r := s.pop.add off ev
  (r.1, { s with pop := r.2, clock := s.clock + 1,
                 trueEvals := s.trueEvals + (if s.cfg.useSurr then 0 else off.rows.length),
                 log := s.log ++ evLog off ev })

/-- `BaseDecompositionEA._next_gen`, `BaseEA.py:420-435`. -/
def EA.nextGen (ops : Ops X O F C U V S Q R) (s : EA X O F C U V S Q) : EARes Unit X O F C U V S Q :=
  match ops.mate s.clock s.pop with
  | .error e => (.error e, { s with clock := s.clock + 1 })
  | .ok off =>
    let s := { s with clock := s.clock + 1 }
    match s.popAdd ops off with
    | (.error e, s) => (.error e, s)
    | (.ok res, s) =>
      let a : EARes Unit X O F C U V S Q :=
        if s.cfg.saveND then
          match archiveUpdate ops.dom s.nd off.rows res.objectives res.fitness with
          | .error e => (.error e, s)
          | .ok nd => (.ok (), { s with nd := some nd })
        else (.ok (), s)
      match a with
      | (.error e, s) => (.error e, s)
      | (.ok _, s) =>
        match ops.select s.clock s.vec s.sel s.pop with
        | (.error e, v, t) => (.error e, { s with vec := v, sel := t, clock := s.clock + 1 })
        | (.ok idx, v, t) =>
          let s := { s with vec := v, sel := t, clock := s.clock + 1 }
          match s.pop.keep idx with
          | (.error e, p) => (.error e, { s with pop := p })
          | (.ok _, p) =>
            let s := { s with pop := p, gen := s.gen + 1, genIter := s.genIter + 1 }
            (.ok (), if s.cfg.useSurr then s else { s with fe := s.fe + off.rows.length })

/-- The `while` loop of `iterate`, `BaseEA.py:148-149`, for a generation body `body`; `fuel` bounds the
number of rounds (`iterateWith` starts with `n_gen_per_iter`, which suffices because every completed
generation increments the in-iteration counter). -/
def EA.loop (body : EA X O F C U V S Q → EARes Unit X O F C U V S Q) :
    Nat → EA X O F C U V S Q → EARes Unit X O F C U V S Q
  | 0, s => (.ok (), s)
  | fuel + 1, s =>
    if s.continueIteration then
      match body s with
      | (.error e, s) => (.error e, s)
      | (.ok _, s) => EA.loop body fuel s
    else (.ok (), s)

/-- `BaseEA.iterate`, `BaseEA.py:138-152`, for a generation body. -/
def EA.iterateWith (ops : Ops X O F C U V S Q R) (body : EA X O F C U V S Q → EARes Unit X O F C U V S Q)
    (s : EA X O F C U V S Q) (pref : Option (Pref R)) : EARes (Option Request) X O F C U V S Q :=
  match s.managePreferences ops pref with
  | (.error e, s) => (.error e, s)
  | (.ok _, s) =>
    let s := s.preIteration ops
    let s := { s with genIter := 0 }
    match EA.loop body s.cfg.nGen s with
    | (.error e, s) => (.error e, s)
    | (.ok _, s) => ({ s with iter := s.iter + 1 } : EA X O F C U V S Q).requestPreferences ops

/-- `iterate` of RVEA, NSGA-III and the other EAs using `BaseDecompositionEA._next_gen`. -/
def EA.iterate (ops : Ops X O F C U V S Q R) (s : EA X O F C U V S Q) (pref : Option (Pref R)) :
    EARes (Option Request) X O F C U V S Q :=
  s.iterateWith ops (EA.nextGen ops) pref

/-- `start`, `BaseEA.py:82-103` (population and selection operator exist after construction). -/
def EA.start (ops : Ops X O F C U V S Q R) (s : EA X O F C U V S Q) : EARes (Option Request) X O F C U V S Q :=
  if s.cfg.interact && !s.typeSet then (.error .eaError, s)
  else
    let a : EARes Unit X O F C U V S Q :=
      if s.cfg.saveND then
        match s.pop.individuals with
        | none => (.error .typeError, s)
        | some inds =>
          match startArchive ops.nonDom inds s.pop.objectives s.pop.fitness with
          | .error e => (.error e, s)
          | .ok nd => (.ok (), { s with nd := some nd })
      else (.ok (), s)
    match a with
    | (.error e, s) => (.error e, s)
    | (.ok _, s) => s.requestPreferences ops

/-- `set_interaction_type`, `BaseEA.py:211-243` with `SelectionBase.py:92-100`; `none` is Python's
`None`.  The flag is set before the argument is looked at, and only NotImplementedError resets it. -/
def EA.setInteractionType (s : EA X O F C U V S Q) (arg : Option String) : EARes Unit X O F C U V S Q :=
  match s.cfg.location with
  | none => (.ok (), s)
  | some .problem => (.ok (), { s with typeSet := true })
  | some .selection =>
    let s := { s with typeSet := true }
    match arg with
    | none => (.ok (), s)
    | some str =>
      match Kind.parse str with
      | none => (.error .valueError, s)
      | some k => (.ok (), { s with itype := some k })

/-- The property `allowable_interaction_types`, `BaseEA.py:70-80`: the first reads call
`set_interaction_type(None)` until that returns a dict (Selection location). -/
def EA.readAllowable (s : EA X O F C U V S Q) : EARes Unit X O F C U V S Q :=
  if s.allowRead then (.ok (), s)
  else
    match s.setInteractionType none with
    | (.error e, s) => (.error e, s)
    | (.ok _, s) => (.ok (), { s with allowRead := decide (s.cfg.location = some .selection) })

/-- The `keep_archive` part of `end`, `BaseEA.py:105-133`: returns the dict, or None without
`keep_archive`. -/
def EA.endArchive (s : EA X O F C U V S Q) : Option (List (Nat × Entry X O F)) × EA X O F C U V S Q :=
  (if s.cfg.keepArchive then some s.record.archive else none, s.record)

/-! ## Construction -/

/-- What `isinstance(problem, ...)` distinguishes at `BaseEA.py:382-387`; `n` is `n_of_fitnesses`. -/
inductive ProblemType | mo | data | iopis | other
deriving DecidableEq, Repr

/-- `lattice_res_options[num_fitnesses - 2]` with the guard, `BaseEA.py:402-406`; index -1 (one fitness)
is the last element. -/
def defaultResolution (m : Nat) : Nat :=
  if m < 11 then
    match m with
    | 0 => 3
    | 1 => 3
    | 2 => 49
    | 3 => 13
    | 4 => 7
    | 5 => 5
    | 6 => 4
    | _ => 3
  else 3

/-- `scipy.special.comb(n, k, exact=True)`. -/
def comb : Nat → Nat → Nat
  | _, 0 => 1
  | 0, _ + 1 => 0
  | n + 1, k + 1 => comb n k + comb n (k + 1)

/-- The population size chosen when a problem is given, `BaseEA.py:399-411`. -/
def choosePopSize (m : Nat) (populationSize latticeResolution : Option Nat) : Nat :=
  match populationSize with
  | some n => n
  | none =>
    let r := match latticeResolution with
      | some r => r
      | none => defaultResolution m
    comb (r + m - 1) (m - 1)

/-- `BaseDecompositionEA.__init__`, `BaseEA.py:358-416`.  `problem`: its type, number of fitnesses and
number of constraints; `initPop`: a population object made earlier; `design` is
`create_new_individuals(design, problem, pop_size)` (`Population.py:121`).  The selection operator's
state is built later by the subclass: `vec0`, `sel0`, from the population size. -/
def construct (ops : Ops X O F C U V S Q R) (design : Nat → Nat → Except Err (Batch X))
    (vec0 : Nat → V) (sel0 : Nat → S) (prob0 : Q)
    (interact useSurr keepArchive saveND : Bool) (nIter nGen total : Nat)
    (problem : Option (ProblemType × Nat × Nat)) (initPop : Option (Pop X O F C U × Nat))
    (populationSize latticeResolution : Option Nat) : Except Err (EA X O F C U V S Q) :=
  let location : Option Loc :=
    if interact then
      match problem with
      | some (.mo, _) => some .selection
      | some (.data, _) => some .selection
      | some (.iopis, _) => some .problem
      | _ => none
    else none
  let typeSet := decide (location = some .problem)
  let cfg : Cfg := ⟨interact, location, nIter, nGen, total, useSurr, keepArchive, saveND⟩
  match initPop with
  | some (p, n) =>
    match problem with
    | some _ => .error .eaError
    | none =>
      .ok { cfg := cfg, clock := 0, pop := p, vec := vec0 n, sel := sel0 n, prob := prob0, iter := 0, gen := 0,
            genIter := 0, fe := 0, reqId := none, itype := none, typeSet := typeSet, allowRead := false,
            archive := [], nd := none, trueEvals := 0, log := [] }
  | none =>
    match problem with
    | none => .error .eaError
    | some (_, m, nCons) =>
      let n := choosePopSize m populationSize latticeResolution
      match design 0 n with
      | .error e => .error e
      | .ok rows =>
        let ea : EA X O F C U V S Q :=
          { cfg := cfg, clock := 1, pop := Pop.new nCons, vec := vec0 n, sel := sel0 n, prob := prob0, iter := 0,
            gen := 0, genIter := 0, fe := 0, reqId := none, itype := none, typeSet := typeSet,
            allowRead := false, archive := [], nd := none, trueEvals := 0, log := [] }
        match ea.popAdd ops rows with
        | (.error e, _) => .error e
        | (.ok _, ea) => .ok { ea with fe := ea.fe + n }

/-! ## Histories of calls -/

/-- A user call on an EA object. -/
inductive Call (R : Type)
  | start
  | setType (arg : Option String)
  | readAllowable
  | iterate (pref : Option (Pref R))

/-- One call. -/
def EA.call (ops : Ops X O F C U V S Q R) (s : EA X O F C U V S Q) : Call R → EARes (Option Request) X O F C U V S Q
  | .start => s.start ops
  | .setType a =>
    match s.setInteractionType a with
    | (.ok _, s) => (.ok none, s)
    | (.error e, s) => (.error e, s)
  | .readAllowable =>
    match s.readAllowable with
    | (.ok _, s) => (.ok none, s)
    | (.error e, s) => (.error e, s)
  | .iterate p => s.iterate ops p

/-- A history of calls; exceptions are caught by the user, who goes on. -/
def EA.calls (ops : Ops X O F C U V S Q R) (s : EA X O F C U V S Q) : List (Call R) → EA X O F C U V S Q
  | [] => s
  | c :: cs => (s.call ops c).2.calls ops cs

/-- A history of calls on an EA whose `_next_gen` is `body`; exceptions are caught by the user, who goes on. -/
def EA.callsWith (ops : Ops X O F C U V S Q R) (body : EA X O F C U V S Q → EARes Unit X O F C U V S Q)
    (s : EA X O F C U V S Q) : List (Call R) → EA X O F C U V S Q
  | [] => s
  | .start :: cs => EA.callsWith ops body (s.start ops).2 cs
  | .setType a :: cs => EA.callsWith ops body (s.setInteractionType a).2 cs
  | .readAllowable :: cs => EA.callsWith ops body s.readAllowable.2 cs
  | .iterate p :: cs => EA.callsWith ops body (s.iterateWith ops body p).2 cs

/-- The driver loop `while ea.continue_evolution(): ea.iterate(...)` with the preferences the user gives
in turn (`none` when the list is used up); `fuel` bounds the rounds. -/
def EA.drive (ops : Ops X O F C U V S Q R) (body : EA X O F C U V S Q → EARes Unit X O F C U V S Q)
    (prefs : Nat → Option (Pref R)) : Nat → EA X O F C U V S Q → EARes Unit X O F C U V S Q
  | 0, s => (.ok (), s)
  | fuel + 1, s =>
    if s.continueEvolution then
      match s.iterateWith ops body (prefs s.iter) with
      | (.error e, s) => (.error e, s)
      | (.ok _, s) => EA.drive ops body prefs fuel s
    else (.ok (), s)

end Verif
