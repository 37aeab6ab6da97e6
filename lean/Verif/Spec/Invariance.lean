import Verif.Model.Answers

/-!
# Specification for C93: two ways of writing down the same problem
-/

namespace Verif.Spec
open Verif

variable {X C V S S' Q : Type} {m : Nat}

/-- `b` is `a` in another unit and with another origin: `b = lam * a + c`. -/
def Rescaled (lam : ℝ) (c : Vec m) (a b : Vec m) : Prop := ∀ i, b i = lam * a i + c i

/-- Row by row. -/
def RescaledRows (lam : ℝ) (c : Vec m) (l l' : List (Vec m)) : Prop := List.Forall₂ (Rescaled lam c) l l'

/-- Two evaluations of the same decision vectors: the fitness rows are rescaled, the uncertainties are in the new unit, the objective rows
are converted (in whatever way, for instance negated), the constraints are the same; or both raise the same. -/
def SameEvaluation (lam : ℝ) (c : Vec m) (conv : Vec m → Vec m) :
    Except Err (Results (Vec m) (Vec m) C (Vec m)) → Except Err (Results (Vec m) (Vec m) C (Vec m)) → Prop
  | .error e, .error e' => e' = e
  | .ok r, .ok r' =>
    r'.objectives = r.objectives.map conv ∧ RescaledRows lam c r.fitness r'.fitness ∧ r'.constraints = r.constraints ∧
      match r.uncertainity, r'.uncertainity with
      | none, none => True
      | some u, some u' => RescaledRows lam 0 u u'
      | _, _ => False
  | _, _ => False

/-- The same reference point in the two ways of writing: in terms of fitness (`q * mult`), `q'` is `q` rescaled. -/
def SamePoint (lam : ℝ) (c mult mult' : Vec m) (q q' : Vec m) : Prop := ∀ i, q' i * mult' i = lam * (q i * mult i) + c i

/-- The same call; an answer (if any) is a reference point, the same one in the two ways of writing, and answers the same request. -/
def SameCall (lam : ℝ) (c mult mult' : Vec m) : Call (Answer m) → Call (Answer m) → Prop
  | .start, .start => True
  | .setType a, .setType b => b = a
  | .readAllowable, .readAllowable => True
  | .iterate none, .iterate none => True
  | .iterate (some p), .iterate (some p') =>
    p'.id = p.id ∧ p'.cls = p.cls ∧
      match p.response, p'.response with
      | .point q, .point q' => SamePoint lam c mult mult' q q'
      | _, _ => False
  | _, _ => False

/-- The two EAs are at the same point of the same run: the same decision vectors, constraints, reference vectors, counters, request and
interaction type; the fitness is rescaled, in the population, in the archive of iterations and in the archive of non-dominated solutions. -/
structure SameRun (lam : ℝ) (c : Vec m) (conv : Vec m → Vec m) (s : EA X (Vec m) (Vec m) C (Vec m) V S Q)
    (s' : EA X (Vec m) (Vec m) C (Vec m) V S' Q) : Prop where
  individuals : s'.pop.individuals = s.pop.individuals
  objectives : s'.pop.objectives = s.pop.objectives.map conv
  fitness : RescaledRows lam c s.pop.fitness s'.pop.fitness
  constraints : s'.pop.constraint = s.pop.constraint
  vectors : s'.vec = s.vec
  generation : s'.gen = s.gen
  generationInIteration : s'.genIter = s.genIter
  iteration : s'.iter = s.iter
  evaluations : s'.fe = s.fe
  request : s'.reqId = s.reqId
  interaction : s'.itype = s.itype
  archive : List.Forall₂ (fun e e' => e'.1 = e.1 ∧ e'.2.iteration = e.2.iteration ∧ e'.2.individuals = e.2.individuals ∧
    e'.2.objectives = e.2.objectives.map conv ∧ RescaledRows lam c e.2.fitness e'.2.fitness) s.archive s'.archive
  nonDominated : match s.nd, s'.nd with
    | none, none => True
    | some a, some a' => a'.individuals = a.individuals ∧ a'.objectives = a.objectives.map conv ∧ RescaledRows lam c a.fitness a'.fitness
    | _, _ => False

end Verif.Spec
