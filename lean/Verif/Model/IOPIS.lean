import Verif.Model.RefVectors

/-!
# Model of `desdeo_emo/problem/IOPIS.py`

Objective vectors are functions `Fin m → ℝ`, fitness vectors `Fin k → ℝ`.  The preference incorporated space (desdeo_tools)
is a state `P` with a map to fitness and two updates, all arguments.
-/

namespace Verif

/-- The external class PIS: `__call__` on one row, `update_map(utopian, nadir)`, `update_preference(preference)`. -/
structure PISOps (m k : Nat) (P R : Type) where
  apply : P → Vec m → Vec k
  updateMap : P → Vec m → Vec m → P
  updatePref : P → R → P

/-- `PIS_type`, `problem/IOPIS.py:55-105`. -/
inductive PISType | iopis | classification | multiDM
deriving DecidableEq, Repr

/-- `allowed_PIS_types`, `problem/IOPIS.py:55-58`. -/
def PISType.parse (s : String) : Option PISType :=
  if s = "IOPIS" then some .iopis
  else if s = "Classification" then some .classification
  else if s = "MultiDM" then some .multiDM
  else none

/-- Class of a preference object as far as `manage_preferences` looks at it. -/
inductive PrefObj (R : Type)
  | dict (r : R) | list (r : R) | other

/-- State of an `IOPISProblem`. `mult` is `_max_multiplier` (1 for minimised, -1 for maximised objectives). -/
structure IOPISProb (m k : Nat) (P : Type) where
  type : PISType
  mult : Vec m
  ideal : Vec m
  nadir : Vec m
  pis : P
  idealFit : Vec k
  nadirFit : Vec k

section
variable {m k : Nat} {P R : Type}

/-- `v * self._max_multiplier`. -/
def times (v s : Vec m) : Vec m := fun i => v i * s i

/-- `np.amin(np.vstack((first, rows)), axis=0)`. -/
noncomputable def aminWith {n : Nat} (first : Vec n) (rows : List (Vec n)) : Vec n :=
  fun i => rows.foldl (fun acc r => min acc (r i)) (first i)

/-- `IOPISProblem.__init__`, `problem/IOPIS.py:38-113`; `make` builds the PIS of the given type from utopian and nadir point. -/
noncomputable def IOPISProb.init (po : PISOps m k P R) (make : PISType → Vec m → Vec m → P) (typ : String)
    (mult ideal nadir : Vec m) (pref : R) : Except Err (IOPISProb m k P) :=
  match PISType.parse typ with
  | none => .error .valueError
  | some t =>
    let pis := po.updatePref (make t (times ideal mult) (times nadir mult)) pref
    .ok ⟨t, mult, ideal, nadir, pis, po.apply pis (times ideal mult), po.apply pis (times nadir mult)⟩

/-- `evaluate_fitness`, `problem/IOPIS.py:119-128`. -/
noncomputable def IOPISProb.evaluateFitness (po : PISOps m k P R) (s : IOPISProb m k P) (objs : List (Vec m)) : List (Vec k) :=
  objs.map (fun o => po.apply s.pis (times o s.mult))

/-- `update_ideal`, `problem/IOPIS.py:156-176`. -/
noncomputable def IOPISProb.updateIdeal (po : PISOps m k P R) (s : IOPISProb m k P) (objs : List (Vec m)) (fit : List (Vec k)) :
    IOPISProb m k P :=
  let ideal := times (aminWith (times s.ideal s.mult) (objs.map (fun o => times o s.mult))) s.mult
  { s with
    idealFit := aminWith s.idealFit fit
    ideal := ideal
    pis := po.updateMap s.pis (times ideal s.mult) (times s.nadir s.mult) }

/-- `reevaluate_fitness`, `problem/IOPIS.py:130-145`. -/
noncomputable def IOPISProb.reevaluate (po : PISOps m k P R) (s : IOPISProb m k P) (objs : List (Vec m)) :
    List (Vec k) × IOPISProb m k P :=
  let fitness := s.evaluateFitness po objs
  let s1 := { s with idealFit := po.apply s.pis (times s.ideal s.mult) }
  (fitness, s1.updateIdeal po objs fitness)

/-- `manage_preferences(population, preference)`, `problem/IOPIS.py:192-217`; `pIdeal`, `pNadir`, `pMult` are the population's
`ideal_objective_vector`, `nadir_objective_vector` and its problem's `_max_multiplier`. -/
noncomputable def IOPISProb.manage (po : PISOps m k P R) (s : IOPISProb m k P) (pIdeal pNadir pMult : Vec m)
    (pref : PrefObj R) : Except Err Unit × IOPISProb m k P :=
  match s.type, pref with
  | .iopis, .dict r =>
    (.ok (), { s with pis := po.updatePref (po.updateMap s.pis (times pIdeal pMult) (times pNadir pMult)) r })
  | .multiDM, .list r =>
    (.ok (), { s with pis := po.updatePref (po.updateMap s.pis (times pIdeal pMult) (times pNadir pMult)) r })
  | _, _ => (.error .typeError, s)

/-- Calls of the API that can change an `IOPISProblem`.  `update_preference` is `problem/IOPIS.py:147-154`. -/
inductive IOPISCall (m : Nat) (R : Type)
  | reevaluate (objs : List (Vec m))
  | manage (pIdeal pNadir pMult : Vec m) (pref : PrefObj R)
  | updatePref (r : R)

/-- State after one call. -/
noncomputable def IOPISProb.call (po : PISOps m k P R) (s : IOPISProb m k P) : IOPISCall m R → IOPISProb m k P
  | .reevaluate objs => (s.reevaluate po objs).2
  | .manage a b c p => (s.manage po a b c p).2
  | .updatePref r => { s with pis := po.updatePref s.pis r }

/-- State after a history of calls. -/
noncomputable def IOPISProb.calls (po : PISOps m k P R) (s : IOPISProb m k P) (cs : List (IOPISCall m R)) : IOPISProb m k P :=
  cs.foldl (fun s c => s.call po c) s

end

end Verif
