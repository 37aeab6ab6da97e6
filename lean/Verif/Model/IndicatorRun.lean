import Verif.Model.Indicator
import Verif.Model.Recombination

/-!
# IBEA and PBEA as wholes: `EAs/BaseIndicatorEA.py` with the default variation
-/

namespace Verif

variable {n : Nat} {X O F C U P Q R : Type}

/-- `population.mate(mating_individuals=chosen)` with the default operators, `BaseIndicatorEA.py:124`, `Population.py:218-240`
(`individuals` being `None` raises AttributeError at `SimulatedBinaryCrossover.py:44`). -/
noncomputable def mateChosen (lo hi : Fin n → ℝ) (draw : Nat → MateDraw n) (clock : Nat) (p : Pop (Row n) O F C U) (chosen : List Nat) :
    Except Err (Batch (Row n)) :=
  match p.individuals with
  | none => .error .attributeError
  | some inds =>
    match mateDefault lo hi (draw clock) inds (some chosen) with
    | .error e => .error e
    | .ok off => .ok ⟨2, off⟩

/-- A call of a method of an indicator EA: `iterate(preference)` (`BaseEA.py:138-152`), `start()` (`BaseEA.py:82-103`),
`requests()` (`BaseIndicatorEA.py:229-230`). -/
inductive IndCall (R : Type) | iterate (pref : Option (Pref R)) | start | requests

/-- The object after a call, exceptions caught by the caller (`BaseEA.py:82-152`, `BaseIndicatorEA.py:178-230`). -/
noncomputable def indCall (io : IndOps X O F C U P R) (popSize : Nat) (s : EA X O F C U P (List ℝ) Q) : IndCall R → EA X O F C U P (List ℝ) Q
  | .iterate pref => (indIterate io popSize s pref).2
  | .start => (indStart io s).2
  | .requests => (indRequest io s).2

/-- The object after a history of calls (`BaseEA.py:82-152`, `BaseIndicatorEA.py:178-230`). -/
noncomputable def indCalls (io : IndOps X O F C U P R) (popSize : Nat) (s : EA X O F C U P (List ℝ) Q) (cs : List (IndCall R)) :
    EA X O F C U P (List ℝ) Q := cs.foldl (indCall io popSize) s

/-- The loop `while ea.continue_evolution(): ea.iterate(...)` on IBEA or PBEA (`BaseEA.py:138-152,194-196`) with the preferences the user
gives in turn; `fuel` bounds the rounds. -/
noncomputable def indDrive (io : IndOps X O F C U P R) (popSize : Nat) (prefs : Nat → Option (Pref R)) :
    Nat → EA X O F C U P (List ℝ) Q → EARes Unit X O F C U P (List ℝ) Q
  | 0, s => (.ok (), s)
  | fuel + 1, s =>
    if s.continueEvolution then
      match indIterate io popSize s (prefs s.iter) with
      | (.error e, s) => (.error e, s)
      | (.ok _, s) => indDrive io popSize prefs fuel s
    else (.ok (), s)

end Verif
