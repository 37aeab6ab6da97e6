import Verif.Model.Indicator
import Verif.Model.APD

/-!
# Model of `EAs/IOPIS.py`, `EAs/TournamentEA.py` and of the constructor of `EAs/IKRVEA.py`

The objects are the record `EA` of `Model/EA.lean`.  For the IOPIS EAs (always `interact=True`, `_interaction_location`
stays `None`, `keep_archive` and `save_non_dominated` stay False): `vec` is `self.reference_vectors`, `sel` is
`self._preference` (`none` before the first accepted preference, when the attribute does not exist), `prob` tells which
of the two classes it is.
-/

namespace Verif

variable {X O F C U V P S Q R : Type}

/-! ## IOPIS_RVEA, IOPIS_NSGAIII -/

/-- The selection operator of the class: `IOPIS_APD_Select` (`EAs/IOPIS.py:299-302`) or `IOPIS_NSGAIII_select`
(`EAs/IOPIS.py:351-353`). -/
inductive IOKind | apd | nsga
deriving DecidableEq, Repr

/-- External and random parts of an IOPIS EA. -/
structure IOOps (X O F C U V P R : Type) where
  /-- `response.values * _max_multiplier`, `EAs/IOPIS.py:119` -/
  toRef : R → P
  /-- `reference_vectors.adapt(scalarized fitness)` and `neighbouring_angles()`, `EAs/IOPIS.py:121-128` -/
  adapt : V → List F → P → V
  /-- `np.random.randint(0, 1e7)`, `EAs/IOPIS.py:146` -/
  newId : Nat → Int
  /-- `population.mate()` -/
  mate : Nat → Pop X O F C U → Except Err (Batch X)
  /-- `problem.evaluate` -/
  evaluate : Nat → Bool → Batch X → Except Err (Results O F C U)
  /-- `selection_operator.do(population, reference_vectors, _preference)`, `EAs/IOPIS.py:155-158` -/
  select : Nat → V → P → Pop X O F C U → Except Err (List Int)

/-- `selection_operator.adapt_RVs(...)`.  `IOPIS_APD_Select` derives from `SelectionBase`, which has no such method
(`selection/IOPIS_APD.py:9`, `SelectionBase.py:19-37`).  `IOPIS_NSGAIII_select` inherits it (`SelectionBase.py:102-104`), but its
constructor does not call its parent's (`selection/IOPIS_NSGAIII.py:11-26`), so that `self.vectors` does not exist.
Both are AttributeError. -/
def IOKind.adaptRVs : IOKind → Except Err Unit
  | .apd => .error .attributeError
  | .nsga => .error .attributeError

/-- `BaseIOPISDecompositionEA.manage_preferences`, `EAs/IOPIS.py:91-128`; `reqId = none`: the attribute
`_interaction_request_id` does not exist yet (`BaseEA.__init__` does not set it). -/
def iopisManage (io : IOOps X O F C U V P R) (s : EA X O F C U V (Option P) IOKind) (pref : Option (Pref R)) :
    EARes Unit X O F C U V (Option P) IOKind :=
  match pref with
  | none => (.error .eaError, s)
  | some p =>
    if p.cls ≠ .referencePoint then (.error .eaError, s)
    else
      match s.reqId with
      | none => (.error .attributeError, s)
      | some id =>
        if p.id ≠ id then (.error .eaError, s)
        else
          let r := io.toRef p.response
          (.ok (), { s with sel := some r, vec := io.adapt s.vec s.pop.fitness r })

/-- `request_preferences`, `EAs/IOPIS.py:130-153`. -/
def iopisRequest (io : IOOps X O F C U V P R) (s : EA X O F C U V (Option P) IOKind) :
    EARes (Option Request) X O F C U V (Option P) IOKind :=
  let id := io.newId s.clock
  (.ok (some ⟨id, .referencePoint⟩), { s with reqId := some id, clock := s.clock + 1 })

/-- `BaseDecompositionEA.pre_iteration`, `BaseEA.py:437-442`. -/
def iopisPre (s : EA X O F C U V (Option P) IOKind) : EARes Unit X O F C U V (Option P) IOKind :=
  let s := s.record
  if !s.cfg.interact then
    match s.prob.adaptRVs with
    | .error e => (.error e, s)
    | .ok _ => (.ok (), s)
  else if s.cfg.location ≠ some .selection then
    match s.prob.adaptRVs with
    | .error e => (.error e, s)
    | .ok _ => (.ok (), s)
  else (.ok (), s)

/-- `BaseDecompositionEA._next_gen`, `BaseEA.py:420-435`, with the class's `_select`, `EAs/IOPIS.py:155-158`. -/
def iopisNextGen (io : IOOps X O F C U V P R) (s : EA X O F C U V (Option P) IOKind) :
    EARes Unit X O F C U V (Option P) IOKind :=
  match io.mate s.clock s.pop with
  | .error e => (.error e, { s with clock := s.clock + 1 })
  | .ok off =>
    let s := { s with clock := s.clock + 1 }
    match s.pop.add off (io.evaluate s.clock s.cfg.useSurr off) with
    | (.error e, p) => (.error e, { s with pop := p })
    | (.ok _, p) =>
      let s := { s with pop := p, clock := s.clock + 1 }
      match s.sel with
      | none => (.error .attributeError, s)
      | some r =>
        match io.select s.clock s.vec r s.pop with
        | .error e => (.error e, s)
        | .ok idx =>
          match s.pop.keep idx with
          | (.error e, p) => (.error e, { s with pop := p })
          | (.ok _, p) =>
            let s := { s with pop := p, gen := s.gen + 1, genIter := s.genIter + 1 }
            (.ok (), if s.cfg.useSurr then s else { s with fe := s.fe + off.rows.length })

/-- `BaseEA.iterate`, `BaseEA.py:138-152`. -/
def iopisIterate (io : IOOps X O F C U V P R) (s : EA X O F C U V (Option P) IOKind) (pref : Option (Pref R)) :
    EARes (Option Request) X O F C U V (Option P) IOKind :=
  match iopisManage io s pref with
  | (.error e, s) => (.error e, s)
  | (.ok _, s) =>
    match iopisPre s with
    | (.error e, s) => (.error e, s)
    | (.ok _, s) =>
      match EA.loop (iopisNextGen io) s.cfg.nGen { s with genIter := 0 } with
      | (.error e, s) => (.error e, s)
      | (.ok _, s) => iopisRequest io { s with iter := s.iter + 1 }

/-- `BaseEA.start`, `BaseEA.py:82-103`. -/
def iopisStart (io : IOOps X O F C U V P R) (s : EA X O F C U V (Option P) IOKind) :
    EARes (Option Request) X O F C U V (Option P) IOKind :=
  if s.cfg.interact && !s.typeSet then (.error .eaError, s) else iopisRequest io s

/-- `BaseIOPISDecompositionEA.__init__`, `EAs/IOPIS.py:20-89`, followed by the choice of the time penalty for IOPIS_RVEA
(`EAs/IOPIS.py:258-297`; for IOPIS_NSGAIII give `.none`).  Two scalarization functions, hence the default of 50 vectors
(`lattice_res_options[0] = 49`); a given population is not counted. -/
noncomputable def iopisConstruct (io : IOOps X O F C U V P R) (design : Nat → Nat → Except Err (Batch X)) (vec0 : Nat → V) (kind : IOKind)
    (hasIdealAndNadir useSurr : Bool) (nIter nGen total nCons : Nat) (penalty : PenaltyArg) (populationSize latticeResolution : Option Nat)
    (initPop : Option (Pop X O F C U)) : Except Err (EA X O F C U V (Option P) IOKind) :=
  if !hasIdealAndNadir then .error .eaError
  else
    let n := choosePopSize 2 populationSize latticeResolution
    let ea : EA X O F C U V (Option P) IOKind :=
      { cfg := ⟨true, none, nIter, nGen, total, useSurr, false, false⟩, clock := 0, pop := Pop.new nCons,
        vec := vec0 (choosePopSize 2 none latticeResolution), sel := none, prob := kind, iter := 0, gen := 0, genIter := 0, fe := 0,
        reqId := none, itype := none, typeSet := false, allowRead := false, archive := [], nd := none, trueEvals := 0, log := [] }
    let r : Except Err (EA X O F C U V (Option P) IOKind) :=
      match initPop with
      | some p => .ok { ea with pop := p }
      | none =>
        match design 0 n with
        | .error e => .error e
        | .ok off =>
          match (Pop.new nCons : Pop X O F C U).add off (io.evaluate 1 useSurr off) with
          | (.error e, _) => .error e
          | (.ok _, p) => .ok { ea with pop := p, clock := 2, fe := n, trueEvals := if useSurr then 0 else off.rows.length }
    match r with
    | .error e => .error e
    | .ok s =>
      match choosePenalty penalty true total with
      | .error e => .error e
      | .ok _ => .ok s

/-- A user call on an IOPIS EA. -/
inductive IOCall (R : Type)
  | start
  | setType (arg : Option String)
  | readAllowable
  | request
  | iterate (pref : Option (Pref R))

/-- One call. -/
def iopisCall (io : IOOps X O F C U V P R) (s : EA X O F C U V (Option P) IOKind) :
    IOCall R → EARes (Option Request) X O F C U V (Option P) IOKind
  | .start => iopisStart io s
  | .setType a =>
    match s.setInteractionType a with
    | (.ok _, s) => (.ok none, s)
    | (.error e, s) => (.error e, s)
  | .readAllowable =>
    match s.readAllowable with
    | (.ok _, s) => (.ok none, s)
    | (.error e, s) => (.error e, s)
  | .request => iopisRequest io s
  | .iterate p => iopisIterate io s p

/-- A history of calls, exceptions caught by the caller. -/
def iopisCalls (io : IOOps X O F C U V P R) (s : EA X O F C U V (Option P) IOKind) (cs : List (IOCall R)) :
    EA X O F C U V (Option P) IOKind := cs.foldl (fun s c => (iopisCall io s c).2) s

/-! ## TournamentEA -/

/-- Calling a Python function that needs `required` positional arguments with `given` of them (no defaults, no keywords). -/
def callArity {α : Type} (required given : Nat) (body : Except Err α) : Except Err α :=
  if given = required then body else .error .typeError

/-- `TournamentEA.select`, `TournamentEA.py:77-78`: `do(self, pop, fitness)` (`TournamentSelection.py:26`) is called with the
population only. -/
def tournEASelect (body : Except Err (List Nat)) : Except Err (List Nat) := callArity 2 1 body

/-- External parts of a TournamentEA: what `do` would return, recombination, evaluation. -/
structure TournOps (X O F C U : Type) where
  select : Nat → Pop X O F C U → Except Err (List Nat)
  mate : Nat → Pop X O F C U → List Nat → Except Err (Batch X)
  evaluate : Nat → Batch X → Except Err (Results O F C U)

/-- `TournamentEA._next_gen`, `TournamentEA.py:57-75`. -/
def tournNextGen (tn : TournOps X O F C U) (s : EA X O F C U Unit Unit Unit) : EARes Unit X O F C U Unit Unit Unit :=
  match tournEASelect (tn.select s.clock s.pop) with
  | .error e => (.error e, s)
  | .ok sel =>
    let s := { s with clock := s.clock + 1 }
    match tn.mate s.clock s.pop sel with
    | .error e => (.error e, s)
    | .ok off =>
      let s := { s with clock := s.clock + 1 }
      match s.pop.individuals with
      | none => (.error .typeError, s)
      | some inds =>
        match s.pop.delete ((List.range inds.length).map (fun (i : Nat) => (i : Int))) with
        | (.error e, p) => (.error e, { s with pop := p })
        | (.ok _, p) =>
          match p.add off (tn.evaluate s.clock off) with
          | (.error e, p) => (.error e, { s with pop := p })
          | (.ok _, p) =>
            (.ok (), { s with pop := p, clock := s.clock + 1, gen := s.gen + 1, genIter := s.genIter + 1, fe := s.fe + off.rows.length })

/-- `TournamentEA.__init__`, `TournamentEA.py:8-37`: no population is eaError; it takes the population as it is. -/
def tournConstruct (nIter nGen : Nat) (initPop : Option (Pop X O F C U)) : Except Err (EA X O F C U Unit Unit Unit) :=
  match initPop with
  | none => .error .eaError
  | some p =>
    .ok { cfg := ⟨false, none, nIter, nGen, 0, false, false, false⟩, clock := 0, pop := p, vec := (), sel := (), prob := (), iter := 0,
          gen := 0, genIter := 0, fe := 0, reqId := none, itype := none, typeSet := false, allowRead := false, archive := [],
          nd := none, trueEvals := 0, log := [] }

/-- `BaseEA.iterate`, `BaseEA.py:138-152`, on a TournamentEA: `manage_preferences` does nothing (no interaction location),
`pre_iteration` does nothing (`keep_archive` is False), `requests` returns None (`BaseEA.py:284-285`). -/
def tournIterate (tn : TournOps X O F C U) (s : EA X O F C U Unit Unit Unit) : EARes Unit X O F C U Unit Unit Unit :=
  match EA.loop (tournNextGen tn) s.cfg.nGen { s with genIter := 0 } with
  | (.error e, s) => (.error e, s)
  | (.ok _, s) => (.ok (), { s with iter := s.iter + 1 })

/-- `while ea.continue_evolution(): ea.iterate()`, as in `BioGP.fit`, `BioGP.py:393-400`; `fuel` bounds the rounds. -/
def tournDrive (tn : TournOps X O F C U) : Nat → EA X O F C U Unit Unit Unit → EARes Unit X O F C U Unit Unit Unit
  | 0, s => (.ok (), s)
  | fuel + 1, s =>
    if s.continueEvolution then
      match tournIterate tn s with
      | (.error e, s) => (.error e, s)
      | (.ok _, s) => tournDrive tn fuel s
    else (.ok (), s)

/-! ## IK_RVEA -/

/-- Calling a Python function whose parameters are `params` with keyword arguments `given`: an unknown keyword raises TypeError
(all parameters modelled here have defaults, except `problem`, which is always given). -/
def callKeywords {α : Type} (params given : List String) (body : Except Err α) : Except Err α :=
  if given.all (fun k => params.contains k) then body else .error .typeError

/-- The parameters of `RVEA.__init__`, `RVEA.py:98-115`. -/
def rveaParams : List String :=
  ["problem", "population_size", "population_params", "initial_population", "alpha", "lattice_resolution", "selection_type", "interact",
   "use_surrogates", "n_iterations", "n_gen_per_iter", "total_function_evaluations", "time_penalty_component", "keep_archive",
   "save_non_dominated"]

/-- The keywords `IK_RVEA.__init__` passes on, `IKRVEA.py:123-135`. -/
def ikRveaGiven : List String :=
  ["problem", "population_size", "population_params", "initial_population", "lattice_resolution", "a_priori", "interact",
   "use_surrogates", "n_iterations", "n_gen_per_iter", "total_function_evaluations"]

/-- `IK_RVEA.__init__`, `IKRVEA.py:104-137`: `body` is what `RVEA.__init__` would do with the arguments. -/
def ikRveaConstruct {α : Type} (body : Except Err α) : Except Err α := callKeywords rveaParams ikRveaGiven body

end Verif
