import Verif.Model.OtherEAs

/-!
# Model of the constructors: how the arguments of a call reach the object

`EAs/BaseEA.py`, `BaseIndicatorEA.py`, `IBEA.py`, `PBEA.py`, `NSGAIII.py`, `RVEA.py`, `MOEAD.py`, `IOPIS.py`, `IKRVEA.py`, `TournamentEA.py`,
`PPGA.py`: signatures, the call of the parent's constructor, and the attributes that keep a parameter.  What the bodies do with the
values (building the population, the selection operator) is in `Model/EA.lean`, `Model/Indicator.lean`, `Model/OtherEAs.lean`,
`Model/MoeadRun.lean`.
-/

namespace Verif

/-- Values that occur as arguments; `obj` is any other object (a problem, a population, a function, a dict); a float is written
as in the source: 0.05 is `float 5 2`. -/
inductive PyVal
  | none
  | bool (b : Bool)
  | int (n : Int)
  | float (mantissa : Int) (decimals : Nat)
  | str (s : String)
  | obj (k : Nat)
deriving DecidableEq

/-- A parameter with its default, if it has one. -/
abbrev PyParam := String × Option PyVal

/-- Named values. -/
abbrev PyEnv := List (String × PyVal)

/-- The value of one parameter: the positional argument, else the keyword, else the default; TypeError without any. -/
def pyArg (pos : Option PyVal) (kw : PyEnv) (p : PyParam) : Except Err PyVal :=
  match pos, kw.lookup p.1, p.2 with
  | some v, _, _ => .ok v
  | Option.none, some v, _ => .ok v
  | Option.none, Option.none, some v => .ok v
  | Option.none, Option.none, Option.none => .error .typeError

/-- The parameters one after the other with the positional arguments that are left. -/
def pyArgs (kw : PyEnv) : List PyParam → List PyVal → Except Err PyEnv
  | [], _ => .ok []
  | p :: ps, pos =>
    match pyArg pos.head? kw p, pyArgs kw ps pos.tail with
    | .ok v, .ok e => .ok ((p.1, v) :: e)
    | .error e, _ => .error e
    | _, .error e => .error e

/-- A call of a Python function with parameters `ps` (no `*args`, no `**kwargs`): too many positional arguments, an unknown keyword, a keyword
naming a parameter already given by position, and a missing argument raise TypeError. -/
def pyBind (ps : List PyParam) (pos : List PyVal) (kw : PyEnv) : Except Err PyEnv :=
  if ps.length < pos.length then .error .typeError
  else if kw.all (fun a => (ps.map Prod.fst).contains a.1) && kw.all (fun a => !((ps.take pos.length).map Prod.fst).contains a.1)
    then pyArgs kw ps pos
  else .error .typeError

/-- The classes whose constructors are modelled. -/
inductive EAClass
  | baseEA | baseDecomposition | rvea | nsga3 | moead | baseIndicator | ibea | pbea | baseIOPIS | iopisRvea | iopisNsga3 | ikRvea
  | tournament | ppga
deriving DecidableEq, Repr

/-- What an argument of the parent's constructor is given as: a parameter of this constructor, or a literal. -/
inductive PyExpr
  | var (p : String)
  | lit (v : PyVal)

/-- A class's constructor: its parameters, the parent whose constructor it calls with which keywords, and the attributes it sets to one of its
parameters afterwards. -/
structure PyInit where
  params : List PyParam
  parent : Option (EAClass × List (String × PyExpr))
  sets : List (String × String)

/-- Keywords each given as the parameter of the same name. -/
def sameNames (l : List String) : List (String × PyExpr) := l.map (fun p => (p, .var p))

/-- Attributes each named as the parameter. -/
def keeps (l : List String) : List (String × String) := l.map (fun p => (p, p))

/-- A parameter without a default. -/
def req (p : String) : PyParam := (p, Option.none)

/-- A parameter with a default. -/
def opt (p : String) (v : PyVal) : PyParam := (p, some v)

/-- The constructors.  `baseEA`: `BaseEA.py:24-60`; `baseDecomposition`: `BaseEA.py:358-381`; `rvea`: `RVEA.py:98-131,168-170`; `nsga3`:
`NSGAIII.py:59-90`; `moead`: `MOEAD.py:63-104`; `baseIndicator`: `BaseIndicatorEA.py:58-82`; `ibea`: `IBEA.py:54-81`; `pbea`: `PBEA.py:59-91`;
`baseIOPIS`: `EAs/IOPIS.py:20-49` (`BaseEA.__init__` is called by name); `iopisRvea`: `EAs/IOPIS.py:236-261,300`; `iopisNsga3`:
`EAs/IOPIS.py:328-350`; `ikRvea`: `IKRVEA.py:105-138`; `tournament`: `TournamentEA.py:8-37`; `ppga`: `PPGA.py:76-104`. -/
def EAClass.init : EAClass → PyInit
  | .baseEA =>
    { params := [opt "a_priori" (.bool false), opt "interact" (.bool false), opt "selection_operator" .none, opt "n_iterations" (.int 10),
        opt "n_gen_per_iter" (.int 100), opt "total_function_evaluations" (.int 0), opt "use_surrogates" (.bool false),
        opt "keep_archive" (.bool false), opt "save_non_dominated" (.bool false)],
      parent := Option.none,
      sets := keeps ["a_priori", "interact", "n_iterations", "n_gen_per_iter", "total_function_evaluations", "selection_operator",
        "use_surrogates", "keep_archive", "save_non_dominated"] }
  | .baseDecomposition =>
    { params := [opt "problem" .none, opt "initial_population" .none, opt "population_size" .none, opt "population_params" .none,
        opt "lattice_resolution" .none, opt "interact" (.bool false), opt "n_iterations" (.int 10), opt "n_gen_per_iter" (.int 100),
        opt "use_surrogates" (.bool false), opt "total_function_evaluations" (.int 0), opt "keep_archive" (.bool false),
        opt "save_non_dominated" (.bool false)],
      parent := some (.baseEA, sameNames ["interact", "n_iterations", "n_gen_per_iter", "total_function_evaluations", "use_surrogates",
        "keep_archive", "save_non_dominated"]),
      sets := [] }
  | .rvea =>
    { params := [req "problem", opt "population_size" .none, opt "population_params" .none, opt "initial_population" .none,
        opt "alpha" (.int 2), opt "lattice_resolution" .none, opt "selection_type" .none, opt "interact" (.bool false),
        opt "use_surrogates" (.bool false), opt "n_iterations" (.int 10), opt "n_gen_per_iter" (.int 100),
        opt "total_function_evaluations" (.int 0), opt "time_penalty_component" .none, opt "keep_archive" (.bool false),
        opt "save_non_dominated" (.bool false)],
      parent := some (.baseDecomposition, sameNames ["problem", "population_size", "population_params", "initial_population",
        "lattice_resolution", "interact", "use_surrogates", "n_iterations", "n_gen_per_iter", "total_function_evaluations",
        "keep_archive", "save_non_dominated"]),
      sets := keeps ["time_penalty_component", "alpha", "selection_type"] }
  | .nsga3 =>
    { params := [req "problem", opt "population_size" .none, opt "population_params" .none, opt "n_survive" .none,
        opt "initial_population" .none, opt "lattice_resolution" .none, opt "selection_type" .none, opt "interact" (.bool false),
        opt "use_surrogates" (.bool false), opt "n_iterations" (.int 10), opt "n_gen_per_iter" (.int 100),
        opt "total_function_evaluations" (.int 0), opt "keep_archive" (.bool false), opt "save_non_dominated" (.bool false)],
      parent := some (.baseDecomposition, sameNames ["problem", "population_size", "population_params", "initial_population",
        "lattice_resolution", "interact", "use_surrogates", "n_iterations", "n_gen_per_iter", "total_function_evaluations",
        "keep_archive", "save_non_dominated"]),
      sets := keeps ["selection_type"] }
  | .moead =>
    { params := [req "problem", opt "n_neighbors" (.int 20), opt "n_parents" (.int 2), opt "use_repair" (.bool true),
        opt "initial_population" .none, opt "population_size" .none, opt "population_params" .none, opt "lattice_resolution" .none,
        opt "interact" (.bool false), opt "n_iterations" (.int 10), opt "n_gen_per_iter" (.int 100), opt "use_surrogates" (.bool false),
        opt "total_function_evaluations" (.int 0), opt "scalarization_function" (.obj 0), opt "keep_archive" (.bool false),
        opt "save_non_dominated" (.bool false)],
      parent := some (.baseDecomposition, sameNames ["problem", "population_params", "population_size", "keep_archive",
        "initial_population", "lattice_resolution", "interact", "use_surrogates", "n_iterations", "n_gen_per_iter",
        "total_function_evaluations", "save_non_dominated"]),
      sets := keeps ["use_repair", "n_parents"] }
  | .baseIndicator =>
    { params := [req "problem", req "population_size", opt "selection_operator" .none, opt "population_params" .none,
        opt "initial_population" .none, opt "a_priori" (.bool false), opt "interact" (.bool false), opt "n_iterations" (.int 10),
        opt "n_gen_per_iter" (.int 100), opt "total_function_evaluations" (.int 0), opt "use_surrogates" (.bool false), opt "fitnesses" .none],
      parent := some (.baseEA, sameNames ["a_priori", "interact", "n_iterations", "n_gen_per_iter", "total_function_evaluations",
        "selection_operator", "use_surrogates"]),
      sets := [] }
  | .ibea =>
    { params := [req "problem", req "population_size", opt "initial_population" .none, opt "a_priori" (.bool false),
        opt "interact" (.bool false), opt "population_params" .none, opt "n_iterations" (.int 10), opt "n_gen_per_iter" (.int 100),
        opt "total_function_evaluations" (.int 0), opt "use_surrogates" (.bool false), opt "kappa" (.float 5 2), opt "indicator" (.obj 1)],
      parent := some (.baseIndicator, sameNames ["problem", "population_size", "population_params", "a_priori", "interact",
        "n_iterations", "initial_population", "n_gen_per_iter", "total_function_evaluations", "use_surrogates"]),
      sets := keeps ["indicator", "kappa"] }
  | .pbea =>
    { params := [req "problem", req "population_size", req "initial_population", opt "a_priori" (.bool false),
        opt "interact" (.bool false), opt "n_iterations" (.int 10), opt "n_gen_per_iter" (.int 100),
        opt "total_function_evaluations" (.int 0), opt "use_surrogates" (.bool false), opt "kappa" (.float 5 2), opt "indicator" (.obj 2),
        opt "population_params" .none, opt "reference_point" .none, opt "delta" (.float 1 1)],
      parent := some (.baseIndicator, sameNames ["problem", "population_size", "population_params", "a_priori", "interact",
        "n_iterations", "initial_population", "n_gen_per_iter", "total_function_evaluations", "use_surrogates"]),
      sets := keeps ["kappa", "delta", "indicator", "reference_point"] }
  | .baseIOPIS =>
    { params := [req "problem", opt "population_size" .none, opt "population_params" .none, opt "initial_population" .none,
        opt "lattice_resolution" .none, opt "n_iterations" (.int 10), opt "n_gen_per_iter" (.int 100),
        opt "total_function_evaluations" (.int 0), opt "use_surrogates" (.bool false)],
      parent := some (.baseEA, [("a_priori", .lit (.bool true)), ("interact", .lit (.bool true))] ++
        sameNames ["n_iterations", "n_gen_per_iter", "total_function_evaluations", "use_surrogates"]),
      sets := [] }
  | .iopisRvea =>
    { params := [req "problem", opt "population_size" .none, opt "population_params" .none, opt "initial_population" .none,
        opt "alpha" .none, opt "lattice_resolution" .none, opt "n_iterations" (.int 10), opt "n_gen_per_iter" (.int 100),
        opt "total_function_evaluations" (.int 0), opt "time_penalty_component" .none, opt "use_surrogates" (.bool false)],
      parent := some (.baseIOPIS, sameNames ["problem", "population_size", "population_params", "initial_population",
        "lattice_resolution", "n_iterations", "n_gen_per_iter", "total_function_evaluations", "use_surrogates"]),
      sets := keeps ["time_penalty_component", "alpha"] }
  | .iopisNsga3 =>
    { params := [req "problem", opt "population_size" .none, opt "population_params" .none, opt "initial_population" .none,
        opt "lattice_resolution" .none, opt "n_iterations" (.int 10), opt "n_gen_per_iter" (.int 100),
        opt "total_function_evaluations" (.int 0), opt "use_surrogates" (.bool false)],
      parent := some (.baseIOPIS, sameNames ["problem", "population_size", "population_params", "initial_population",
        "lattice_resolution", "n_iterations", "n_gen_per_iter", "total_function_evaluations", "use_surrogates"]),
      sets := [] }
  | .ikRvea =>
    { params := [req "problem", opt "population_size" .none, opt "population_params" .none, opt "initial_population" .none,
        opt "alpha" (.int 2), opt "lattice_resolution" .none, opt "selection_type" .none, opt "a_priori" (.bool false),
        opt "interact" (.bool true), opt "use_surrogates" (.bool false), opt "n_iterations" (.int 10), opt "n_gen_per_iter" (.int 100),
        opt "number_of_update" (.int 10), opt "total_function_evaluations" (.int 0), opt "time_penalty_component" .none],
      parent := some (.rvea, sameNames ["problem", "population_size", "population_params", "initial_population", "lattice_resolution",
        "a_priori", "interact", "use_surrogates", "n_iterations", "n_gen_per_iter", "total_function_evaluations"]),
      sets := keeps ["number_of_update"] }
  | .tournament =>
    { params := [req "problem", req "initial_population", opt "n_gen_per_iter" (.int 10), opt "n_iterations" (.int 10),
        opt "tournament_size" (.int 5), opt "population_size" (.int 500)],
      parent := some (.baseEA, sameNames ["n_gen_per_iter", "n_iterations"]),
      sets := [("target_pop_size", "population_size"), ("tournament_size", "tournament_size")] }
  | .ppga =>
    { params := [req "problem", opt "population_size" (.int 100), opt "population_params" .none, opt "initial_population" .none,
        opt "n_iterations" (.int 10), opt "n_gen_per_iter" (.int 10), opt "predator_pop_size" (.int 50), opt "prey_max_moves" (.int 10),
        opt "prob_prey_move" (.float 3 1), opt "offspring_place_attempts" (.int 10), opt "kill_interval" (.int 7), opt "max_rank" (.int 20),
        opt "neighbourhood_radius" (.int 3)],
      parent := some (.baseEA, sameNames ["n_gen_per_iter", "n_iterations"]),
      sets := ("target_pop_size", "population_size") :: keeps ["predator_pop_size", "prey_max_moves", "prob_prey_move",
        "offspring_place_attempts", "kill_interval", "max_rank", "neighbourhood_radius"] }

/-- The value of an argument in the parent's constructor call. -/
def PyExpr.eval (e : PyEnv) : PyExpr → Except Err PyVal
  | .lit v => .ok v
  | .var p =>
    match e.lookup p with
    | some v => .ok v
    | Option.none => .error .unboundLocalError

/-- The keyword arguments of the parent's constructor call. -/
def evalKeywords (e : PyEnv) : List (String × PyExpr) → Except Err PyEnv
  | [] => .ok []
  | (k, x) :: l =>
    match x.eval e, evalKeywords e l with
    | .ok v, .ok r => .ok ((k, v) :: r)
    | .error er, _ => .error er
    | _, .error er => .error er

/-- The attributes set from the parameters (later assignments come first in the list). -/
def setAttrs (e : PyEnv) (sets : List (String × String)) : PyEnv :=
  sets.filterMap (fun a => (e.lookup a.2).map (fun v => (a.1, v)))

/-- Running the constructor of a class: the arguments are bound, the parent's constructor runs, the own attributes are set.  Returns the constructor's
parameters and, after them, those of the ancestors' constructors.  `fuel` bounds the number of ancestors. -/
def runInit : Nat → EAClass → List PyVal → PyEnv → Except Err (List (EAClass × PyEnv))
  | 0, _, _, _ => .error .modelError
  | fuel + 1, c, pos, kw =>
    match pyBind c.init.params pos kw with
    | .error e => .error e
    | .ok env =>
      match c.init.parent with
      | Option.none => .ok [(c, env)]
      | some (p, args) =>
        match evalKeywords env args with
        | .error e => .error e
        | .ok kw' =>
          match runInit fuel p [] kw' with
          | .error e => .error e
          | .ok frames => .ok ((c, env) :: frames)

/-- The call `c(*pos, **kw)`. -/
def callInit (c : EAClass) (pos : List PyVal) (kw : PyEnv) : Except Err (List (EAClass × PyEnv)) := runInit 4 c pos kw

/-- The attributes of the object that keep an argument; those the class itself sets come first. -/
def attrsOf (frames : List (EAClass × PyEnv)) : PyEnv := frames.flatMap (fun f => setAttrs f.2 f.1.init.sets)

/-- `bool(v)`, as in `if interact:` (`BaseEA.py:382`) and `if self.keep_archive:` (`BaseEA.py:107`). -/
def PyVal.truth : PyVal → Bool
  | .none => false
  | .bool b => b
  | .int n => decide (n ≠ 0)
  | .float q _ => decide (q ≠ 0)
  | .str s => decide (s ≠ "")
  | .obj _ => true

/-- A number of iterations, generations or evaluations; other values are not modelled. -/
def PyVal.nat : PyVal → Except Err Nat
  | .int n => if 0 ≤ n then .ok n.toNat else .error .modelError
  | _ => .error .modelError

/-- `None` or a number. -/
def PyVal.natOrNone : PyVal → Except Err (Option Nat)
  | .none => .ok Option.none
  | .int n => if 0 ≤ n then .ok (some n.toNat) else .error .modelError
  | _ => .error .modelError

/-- `None` or an object of the table `t`; other values are not modelled. -/
def PyVal.objOrNone {α : Type} (t : Nat → α) : PyVal → Except Err (Option α)
  | .none => .ok Option.none
  | .obj k => .ok (some (t k))
  | _ => .error .modelError

/-- The value of a parameter that the constructor has. -/
def PyEnv.get (e : PyEnv) (p : String) : Except Err PyVal :=
  match e.lookup p with
  | some v => .ok v
  | Option.none => .error .modelError

variable {X O F C U V S Q R : Type}

/-- The call of a decomposition based EA's constructor: the arguments travel to `BaseDecompositionEA.__init__` (`BaseEA.py:358-416`), which is
`construct`.  `problems`, `pops`: the problem and population objects that can be given. -/
def callDecomposition (ops : Ops X O F C U V S Q R) (design : Nat → Nat → Except Err (Batch X)) (vec0 : Nat → V) (sel0 : Nat → S) (prob0 : Q)
    (problems : Nat → ProblemType × Nat × Nat) (pops : Nat → Pop X O F C U × Nat) (c : EAClass) (pos : List PyVal) (kw : PyEnv) :
    Except Err (EA X O F C U V S Q) := do
  let frames ← callInit c pos kw
  match frames.lookup .baseDecomposition with
  | Option.none => .error .modelError
  | some env =>
    let interact ← env.get "interact"
    let useSurr ← env.get "use_surrogates"
    let keepArchive ← env.get "keep_archive"
    let saveND ← env.get "save_non_dominated"
    let nIter ← (← env.get "n_iterations").nat
    let nGen ← (← env.get "n_gen_per_iter").nat
    let total ← (← env.get "total_function_evaluations").nat
    let problem ← (← env.get "problem").objOrNone problems
    let initPop ← (← env.get "initial_population").objOrNone pops
    let size ← (← env.get "population_size").natOrNone
    let lattice ← (← env.get "lattice_resolution").natOrNone
    construct ops design vec0 sel0 prob0 interact.truth useSurr.truth keepArchive.truth saveND.truth nIter nGen total problem initPop size lattice

end Verif
