import Verif.Model.Indicator
import Verif.Model.NaNSelect

/-!
# The indicator EAs when an indicator value may be NaN

`Model/Indicator.lean` takes indicators whose values are numbers.  Here a term `np.exp(-indicator(...) / kappa)` may be `none`, numpy's NaN:
sums with it are NaN, `np.argmin` of a column with a NaN returns the place of the first one, and Python's sort, which only asks `<`, leaves
a pair in its order when one of the keys is NaN.
-/

namespace Verif

variable {X O F C U P Q R : Type}

/-- `_fitness_assignment`, `IBEA.py:86-95`, `PBEA.py:96-109`. -/
noncomputable def fitnessAssignN (t : F → F → Option ℝ) (fits : List F) : List (Option ℝ) :=
  fits.mapIdx (fun i a => fits.zipIdx.foldl (fun acc p => if p.2 ≠ i then nanAdd acc ((t a p.1).map (fun x => -x)) else acc) (some 0))

/-- `_environmental_selection`, `IBEA.py:98-107`, `PBEA.py:112-123`. -/
noncomputable def envUpdateN (t : F → F → Option ℝ) (fits : List F) (worst : Nat) (vals : List (Option ℝ)) : List (Option ℝ) :=
  vals.mapIdx (fun i v =>
    if worst ≠ i then
      match fits[i]?, fits[worst]? with
      | some a, some b => nanAdd v (t a b)
      | _, _ => v
    else v)

/-- `np.argmin(self.fitnesses, axis=0)[0]`, `BaseIndicatorEA.py:115`: the first NaN if there is one. -/
def argminN {K : Type} [LinearOrder K] (row : List (Option K)) : Except Err Nat :=
  match row.findIdx? Option.isNone with
  | some i => .ok i
  | none => argminL (row.filterMap id)

/-- The `while` loop of `_next_gen`, `BaseIndicatorEA.py:114-119`; `fuel` as in `envLoop`. -/
noncomputable def envLoopN (t : F → F → Option ℝ) (popSize : Nat) :
    Nat → Pop X O F C U → List (Option ℝ) → Except Err Unit × Pop X O F C U × List (Option ℝ)
  | 0, p, vals => (.ok (), p, vals)
  | fuel + 1, p, vals =>
    match p.individuals with
    | none => (.error .attributeError, p, vals)
    | some inds =>
      if popSize < inds.length then
        match argminN vals with
        | .error e => (.error e, p, vals)
        | .ok w =>
          let vals := envUpdateN t p.fitness w vals
          match p.delete [(w : Int)] with
          | (.error e, p) => (.error e, p, vals)
          | (.ok _, p) => envLoopN t popSize fuel p (vals.eraseIdx w)
      else (.ok (), p, vals)

/-- `_tour_select`, `TournamentSelection.py:50-74`, with the `tournament_size` 2 that IBEA and PBEA use (`IBEA.py:82`, `PBEA.py:92`): sorting
two entries swaps them exactly if the second key is less than the first. -/
noncomputable def tourSelectN (fitness : List (Option ℝ)) (draw : List Nat) : Except Err Nat :=
  if fitness.length < 3 then .error .valueError
  else
    match draw with
    | [a, b] =>
      match fitness[a]?, fitness[b]? with
      | some x, some y => .ok (if nanLt y x then b else a)
      | _, _ => .error .indexError
    | _ => .error .indexError

/-- The loop of `do`, `TournamentSelection.py:40-47`. -/
noncomputable def tourParentsN (fitness : List (Option ℝ)) (draw : Nat → List Nat) : List Nat → Except Err (List Nat)
  | [] => .ok []
  | i :: is =>
    match tourSelectN fitness (draw (2 * i)), tourSelectN fitness (draw (2 * i + 1)) with
    | .ok a, .ok _ =>
      match tourParentsN fitness draw is with
      | .error e => .error e
      | .ok as => .ok (a :: as)
    | .error e, _ => .error e
    | _, .error e => .error e

/-- External and random components of an indicator EA whose indicator may return NaN; as `IndOps`, without interaction. -/
structure NaNIndOps (X O F C U P : Type) where
  /-- the term of `_fitness_assignment`, `IBEA.py:93-94`, `PBEA.py:100-108` -/
  term : P → List O → F → F → Option ℝ
  draw : Nat → Nat → List Nat
  mate : Nat → Pop X O F C U → List Nat → Except Err (Batch X)
  evaluate : Nat → Bool → Batch X → Except Err (Results O F C U)

/-- `BaseIndicatorEA.py:111-119`. -/
noncomputable def indReduceN (io : NaNIndOps X O F C U P) (popSize : Nat) (s : EA X O F C U P (List (Option ℝ)) Q) :
    EARes Unit X O F C U P (List (Option ℝ)) Q :=
  let t := io.term s.vec s.pop.objectives
  let r := envLoopN t popSize (s.pop.fitness.length + 1) s.pop (fitnessAssignN t s.pop.fitness)
  (r.1, { s with pop := r.2.1, sel := r.2.2 })

/-- `BaseIndicatorEA.py:121-128`. -/
noncomputable def indVaryN (io : NaNIndOps X O F C U P) (s : EA X O F C U P (List (Option ℝ)) Q) :
    EARes Unit X O F C U P (List (Option ℝ)) Q :=
  match tourParentsN s.sel (io.draw s.clock) (List.range s.sel.length) with
  | .error e => (.error e, s)
  | .ok chosen =>
    let s := { s with clock := s.clock + 1 }
    match io.mate s.clock s.pop chosen with
    | .error e => (.error e, s)
    | .ok off =>
      let s := { s with clock := s.clock + 1 }
      match s.pop.add off (io.evaluate s.clock false off) with
      | (.error e, p) => (.error e, { s with pop := p, trueEvals := s.trueEvals + off.rows.length,
                                             log := s.log ++ evLog off (io.evaluate s.clock false off) })
      | (.ok _, p) =>
        (.ok (), { s with pop := p, clock := s.clock + 1, trueEvals := s.trueEvals + off.rows.length,
                          gen := s.gen + 1, genIter := s.genIter + 1, fe := s.fe + off.rows.length,
                          log := s.log ++ evLog off (io.evaluate s.clock false off) })

/-- `BaseIndicatorEA._next_gen`, `BaseIndicatorEA.py:106-128`. -/
noncomputable def indNextGenN (io : NaNIndOps X O F C U P) (popSize : Nat) (s : EA X O F C U P (List (Option ℝ)) Q) :
    EARes Unit X O F C U P (List (Option ℝ)) Q :=
  match indReduceN io popSize s with
  | (.error e, s) => (.error e, s)
  | (.ok _, s) => indVaryN io s

end Verif
