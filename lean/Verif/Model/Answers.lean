import Verif.Model.Runs
import Verif.Model.Reports

/-!
# What an answer is turned into: the four `manage_*` methods of `desdeo_emo/selection/SelectionBase.py`
-/

namespace Verif

variable {X F C U : Type} {m : Nat}

/-- The `response` of a preference object: a reference point (the one row of a data frame), an array of solution numbers, or an array of
lower and upper bounds.  The preference classes of `desdeo_tools.interaction` validate it when it is set. -/
inductive Answer (m : Nat)
  | point (q : Vec m)
  | indices (is : List Int)
  | bounds (lo hi : Vec m)

/-- The arguments of the vector operation, `SelectionBase.py:259-263` (reference point: the response times `_max_multiplier`, minus
`pop.ideal_fitness_val`), `SelectionBase.py:275-278,289-292` (the raw objective rows of the named solutions), `SelectionBase.py:299` (the raw
bounds).  `ideal` is `problem.ideal_fitness` at that moment, `lhs` the latin hypercube drawn.  A response of another shape is rejected. -/
noncomputable def answerCall (mult : Vec m) (ideal : Nat → Vec m) (lhs : Nat → Nat → List (Vec m)) (clock : Nat) (k : Kind)
    (p : Pop X (Vec m) F C U) : Answer m → Except Err (VecCall m)
  | .point q =>
    match k with
    | .refPoint => .ok (.refPoint (fun i => q i * mult i - ideal clock i))
    | _ => .error .typeError
  | .indices is =>
    match k with
    | .preferred => (chosenRows p.objectives is).map (fun z => .preferred z p.objectives.length)
    | .nonPreferred => (chosenRows p.objectives is).map (fun z => .nonPreferred z p.objectives.length)
    | _ => .error .typeError
  | .bounds lo hi =>
    match k with
    | .ranges => .ok (.ranges lo hi (lhs clock))
    | _ => .error .typeError

end Verif
