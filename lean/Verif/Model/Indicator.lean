import Mathlib.Analysis.SpecialFunctions.Exp
import Verif.Model.NSGA3
import Verif.Model.MOEAD

/-!
# Model of the indicator EAs: `EAs/BaseIndicatorEA.py`, `EAs/IBEA.py`, `EAs/PBEA.py`, and of
`selection/TournamentSelection.py`

The object is the record `EA` of `Model/EA.lean`: `vec` holds the reference point, `sel` holds `self.fitnesses`.
That array has one column per objective, all equal because only scalars are added to whole rows; only column 0 is ever
read (`BaseIndicatorEA.py:115`, `TournamentSelection.py:67`), so it is a list of numbers here.
`_interaction_location` stays `None` and `keep_archive`, `save_non_dominated` stay False for these EAs.
-/

namespace Verif

variable {X O F C U P Q R : Type}

/-! ## Fitness of an individual within the population -/

/-- `np.exp(-indicator(a, b) / kappa)`, `IBEA.py:93-94,106`. -/
noncomputable def ibeaTerm (indicator : F → F → ℝ) (kappa : ℝ) : F → F → ℝ :=
  fun a b => Real.exp (-(indicator a b) / kappa)

/-- `np.exp(-indicator(a, b, min_asf_value, reference_point, delta) / kappa)`, `PBEA.py:107-108,120-122`; `minAsf` is
the value computed when the fitness was assigned (`PBEA.py:100-102`). -/
noncomputable def pbeaTerm (indicator : F → F → ℝ → P → ℝ → ℝ) (kappa delta minAsf : ℝ) (ref : P) : F → F → ℝ :=
  fun a b => Real.exp (-(indicator a b minAsf ref delta) / kappa)

/-- `_fitness_assignment`, `IBEA.py:86-95`, `PBEA.py:96-109`: two nested loops adding to an array of zeros; `t` is the
term added with a minus sign. -/
noncomputable def fitnessAssign (t : F → F → ℝ) (fits : List F) : List ℝ :=
  fits.mapIdx (fun i a => fits.zipIdx.foldl (fun acc p => if p.2 ≠ i then acc + -(t a p.1) else acc) 0)

/-- `_environmental_selection`, `IBEA.py:98-107`, `PBEA.py:112-123`: every row except the worst gets the worst one's
term back. -/
noncomputable def envUpdate (t : F → F → ℝ) (fits : List F) (worst : Nat) (vals : List ℝ) : List ℝ :=
  vals.mapIdx (fun i v =>
    if worst ≠ i then
      match fits[i]?, fits[worst]? with
      | some a, some b => v + t a b
      | _, _ => v
    else v)

/-- The `while` loop of `_next_gen`, `BaseIndicatorEA.py:114-119`.  `popSize` is `population.pop_size`; `fuel` bounds
the rounds (every completed round removes one individual). -/
noncomputable def envLoop (t : F → F → ℝ) (popSize : Nat) :
    Nat → Pop X O F C U → List ℝ → Except Err Unit × Pop X O F C U × List ℝ
  | 0, p, vals => (.ok (), p, vals)
  | fuel + 1, p, vals =>
    match p.individuals with
    | none => (.error .attributeError, p, vals)
    | some inds =>
      if popSize < inds.length then
        match argminL vals with
        | .error e => (.error e, p, vals)
        | .ok w =>
          let vals := envUpdate t p.fitness w vals
          match p.delete [(w : Int)] with
          | (.error e, p) => (.error e, p, vals)
          | (.ok _, p) => envLoop t popSize fuel p (vals.eraseIdx w)
      else (.ok (), p, vals)

/-! ## Tournament selection -/

/-- `_tour_select`, `TournamentSelection.py:50-74`.  `draw` is the outcome of
`np.random.choice(len(fitness)-1, tournament_size, replace=False)`, which raises ValueError if there are not that many
values; `chosen.sort` is stable. -/
noncomputable def tourSelect (size : Nat) (fitness : List ℝ) (draw : List Nat) : Except Err Nat :=
  if fitness.length < size + 1 then .error .valueError
  else
    match takeRows fitness draw with
    | none => .error .indexError
    | some vals =>
      match (draw.zip vals).mergeSort (fun a b => decide (a.2 ≤ b.2)) with
      | [] => .error .indexError
      | c :: _ => .ok c.1

/-- The loop of `do`, `TournamentSelection.py:40-47`: two tournaments per parent, the outcome of the second is passed
as the dtype of the array and has no effect (other than raising). -/
noncomputable def tourParents (size : Nat) (fitness : List ℝ) (draw : Nat → List Nat) :
    List Nat → Except Err (List Nat)
  | [] => .ok []
  | i :: is =>
    match tourSelect size fitness (draw (2 * i)), tourSelect size fitness (draw (2 * i + 1)) with
    | .ok a, .ok _ =>
      match tourParents size fitness draw is with
      | .error e => .error e
      | .ok as => .ok (a :: as)
    | .error e, _ => .error e
    | _, .error e => .error e

/-- `TournamentSelection.do`, `TournamentSelection.py:26-47`; draw number `2 i` is the first tournament of parent `i`. -/
noncomputable def tournament (size : Nat) (fitness : List ℝ) (draw : Nat → List Nat) : Except Err (List Nat) :=
  tourParents size fitness draw (List.range fitness.length)

/-! ## The EA -/

/-- External and random components of an indicator EA. -/
structure IndOps (X O F C U P R : Type) where
  /-- the term of the class's `_fitness_assignment`, given the reference point and the objectives of the population at
  that moment (for PBEA's `min_asf_value`): `ibeaTerm` or `pbeaTerm` -/
  term : P → List O → F → F → ℝ
  /-- draws of the tournaments: clock, number of the tournament -/
  draw : Nat → Nat → List Nat
  /-- `population.mate(mating_individuals=chosen)`, `BaseIndicatorEA.py:124` -/
  mate : Nat → Pop X O F C U → List Nat → Except Err (Batch X)
  /-- `problem.evaluate` -/
  evaluate : Nat → Bool → Batch X → Except Err (Results O F C U)
  /-- `np.random.randint(0, 1e9)`, `BaseIndicatorEA.py:201` -/
  newId : Nat → Int
  /-- `preference.response.values * _max_multiplier`, `BaseIndicatorEA.py:172` -/
  toRef : R → P

/-- The object after environmental selection: the new `self.fitnesses` and the reduced population,
`BaseIndicatorEA.py:111-119`. -/
noncomputable def indReduce (io : IndOps X O F C U P R) (popSize : Nat) (s : EA X O F C U P (List ℝ) Q) :
    EARes Unit X O F C U P (List ℝ) Q :=
  let t := io.term s.vec s.pop.objectives
  let r := envLoop t popSize (s.pop.fitness.length + 1) s.pop (fitnessAssign t s.pop.fitness)
  (r.1, { s with pop := r.2.1, sel := r.2.2 })

/-- Variation and evaluation, `BaseIndicatorEA.py:121-128`: `population.add(offspring)` is called without
`use_surrogates`, so the real problem is evaluated, and the counter always grows. -/
noncomputable def indVary (io : IndOps X O F C U P R) (s : EA X O F C U P (List ℝ) Q) :
    EARes Unit X O F C U P (List ℝ) Q :=
  match tournament 2 s.sel (io.draw s.clock) with
  | .error e => (.error e, s)
  | .ok chosen =>
    let s := { s with clock := s.clock + 1 }
    match io.mate s.clock s.pop chosen with
    | .error e => (.error e, s)
    | .ok off =>
      let s := { s with clock := s.clock + 1 }
      match s.pop.add off (io.evaluate s.clock false off) with
      | (.error e, p) => (.error e, { s with pop := p, trueEvals := s.trueEvals + off.rows.length,
                                             log := s.log ++ evLog off (io.evaluate s.clock false off) })
      | (.ok _, p) =>
        (.ok (), { s with pop := p, clock := s.clock + 1, trueEvals := s.trueEvals + off.rows.length,
                          gen := s.gen + 1, genIter := s.genIter + 1, fe := s.fe + off.rows.length,
                          log := s.log ++ evLog off (io.evaluate s.clock false off) })

/-- `BaseIndicatorEA._next_gen`, `BaseIndicatorEA.py:106-128`; `popSize` is `population.pop_size`. -/
noncomputable def indNextGen (io : IndOps X O F C U P R) (popSize : Nat) (s : EA X O F C U P (List ℝ) Q) :
    EARes Unit X O F C U P (List ℝ) Q :=
  match indReduce io popSize s with
  | (.error e, s) => (.error e, s)
  | (.ok _, s) => indVary io s

/-- `BaseIndicatorEA.manage_preferences`, `BaseIndicatorEA.py:143-175`.  The attribute `_interaction_request_id` does
not exist before the first request (AttributeError). -/
def indManage (io : IndOps X O F C U P R) (s : EA X O F C U P (List ℝ) Q) (pref : Option (Pref R)) :
    EARes Unit X O F C U P (List ℝ) Q :=
  if s.cfg.interact = false then (.ok (), s)
  else
    match pref with
    | none => (.error .eaError, s)
    | some p =>
      if p.cls ≠ .referencePoint then (.error .eaError, s)
      else
        match s.reqId with
        | none => (.error .attributeError, s)
        | some id =>
          if p.id ≠ id then (.error .eaError, s)
          else
            (.ok (), { s with vec := io.toRef p.response,
                              cfg := { s.cfg with nIter := s.cfg.nIter + s.cfg.nIter,
                                                  total := s.cfg.total + s.cfg.total } })

/-- `BaseIndicatorEA.request_preferences`, `BaseIndicatorEA.py:178-211` (the plot request is not modelled). -/
def indRequest (io : IndOps X O F C U P R) (s : EA X O F C U P (List ℝ) Q) :
    EARes (Option Request) X O F C U P (List ℝ) Q :=
  if s.cfg.interact = false then (.ok none, s)
  else
    (.ok (some ⟨io.newId s.clock, .referencePoint⟩), { s with reqId := some (io.newId s.clock), clock := s.clock + 1 })

/-- `BaseEA.iterate` on an indicator EA, `BaseEA.py:138-152` (`pre_iteration` does nothing without `keep_archive`). -/
def indIterateWith (io : IndOps X O F C U P R)
    (body : EA X O F C U P (List ℝ) Q → EARes Unit X O F C U P (List ℝ) Q) (s : EA X O F C U P (List ℝ) Q)
    (pref : Option (Pref R)) : EARes (Option Request) X O F C U P (List ℝ) Q :=
  match indManage io s pref with
  | (.error e, s) => (.error e, s)
  | (.ok _, s) =>
    let s := { s with genIter := 0 }
    match EA.loop body s.cfg.nGen s with
    | (.error e, s) => (.error e, s)
    | (.ok _, s) => indRequest io { s with iter := s.iter + 1 }

/-- `iterate` of IBEA and PBEA. -/
noncomputable def indIterate (io : IndOps X O F C U P R) (popSize : Nat) (s : EA X O F C U P (List ℝ) Q)
    (pref : Option (Pref R)) : EARes (Option Request) X O F C U P (List ℝ) Q :=
  indIterateWith io (indNextGen io popSize) s pref

/-- `BaseEA.start` on an indicator EA, `BaseEA.py:82-103`. -/
def indStart (io : IndOps X O F C U P R) (s : EA X O F C U P (List ℝ) Q) :
    EARes (Option Request) X O F C U P (List ℝ) Q :=
  if s.cfg.interact && !s.typeSet then (.error .eaError, s) else indRequest io s

/-- `BaseIndicatorEA.__init__`, `BaseIndicatorEA.py:58-90`: a given initial population is used as it is and not
counted; otherwise a design of the given size is evaluated (with surrogates if asked to). -/
def indConstruct (io : IndOps X O F C U P R) (design : Nat → Nat → Except Err (Batch X)) (ref0 : P) (prob0 : Q)
    (interact useSurr : Bool) (nIter nGen total nCons populationSize : Nat) (initPop : Option (Pop X O F C U)) :
    Except Err (EA X O F C U P (List ℝ) Q) :=
  let ea : EA X O F C U P (List ℝ) Q :=
    { cfg := ⟨interact, none, nIter, nGen, total, useSurr, false, false⟩, clock := 0, pop := Pop.new nCons,
      vec := ref0, sel := [], prob := prob0, iter := 0, gen := 0, genIter := 0, fe := 0, reqId := none,
      itype := none, typeSet := false, allowRead := false, archive := [], nd := none, trueEvals := 0, log := [] }
  match initPop with
  | some p => .ok { ea with pop := p }
  | none =>
    match design 0 populationSize with
    | .error e => .error e
    | .ok off =>
      match (Pop.new nCons : Pop X O F C U).add off (io.evaluate 1 useSurr off) with
      | (.error e, _) => .error e
      | (.ok _, p) =>
        .ok { ea with pop := p, clock := 2, fe := populationSize,
                      trueEvals := if useSurr then 0 else off.rows.length,
                      log := evLog off (io.evaluate 1 useSurr off) }

end Verif
