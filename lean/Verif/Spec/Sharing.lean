import Verif.Model.Sharing

/-!
# Specification: arrays that are shared

`Separate` is the situation a population is in when its attributes refer to existing arrays, different attributes to different arrays.
`Given` is what a caller has to respect.  `callsSeen` is the history as the value model sees it: the same calls, each with the contents
its arguments had when it was made.
-/

namespace Verif.Spec

open Verif

variable {R : Type}

/-- The attributes refer to arrays that exist, no two of them to the same array, and a population with individuals has objectives and
fitness. -/
structure Separate (h : Heap R) (s : Shared) : Prop where
  exist : ∀ c r, s.attr c = some r → r < h.next
  apart : ∀ c d r, s.attr c = some r → s.attr d = some r → c = d
  present : s.attr .individuals ≠ none → s.attr .objectives ≠ none ∧ s.attr .fitness ≠ none

/-- The arrays named in an evaluation. -/
def resultArrays (r : SharedResults) : List Nat :=
  [r.objectives, r.fitness] ++ r.constraints.toList ++ r.uncertainity.toList

/-- What the caller of `add` has to respect: the arrays exist, and those given to an empty population (which keeps them) are different
arrays. -/
def Given (h : Heap R) (s : Shared) : SharedOp R → Prop
  | .add _ off (.ok r) =>
    (∀ a ∈ off :: resultArrays r, a < h.next) ∧ (s.attr .individuals = none → (off :: resultArrays r).Nodup)
  | _ => True

/-- `Given` along a whole history. -/
def GivenAll (h : Heap R) (s : Shared) : List (SharedOp R) → Prop
  | [] => True
  | op :: ops => Given h s op ∧ GivenAll (s.step h op).2.1 (s.step h op).2.2 ops

/-- A call with the contents of its arguments. -/
def callSeen (h : Heap R) : SharedOp R → Option (PopOp R R R R R)
  | .add d off ev => some (.add ⟨d, h.cells off⟩ (ev.map (fun r => r.read h)))
  | .keep is => some (.keep is)
  | .delete is => some (.delete is)
  | .replace is x o f c u => some (.replace is x o f c u)
  | .array _ => none

/-- The calls of a history, each with the contents its arguments had at that moment. -/
def callsSeen (h : Heap R) (s : Shared) : List (SharedOp R) → List (PopOp R R R R R)
  | [] => []
  | op :: ops => (callSeen h op).toList ++ callsSeen (s.step h op).2.1 (s.step h op).2.2 ops

/-- Every array that existed before has the same contents afterwards. -/
def Unchanged (h h' : Heap R) : Prop := h.next ≤ h'.next ∧ ∀ r, r < h.next → h'.cells r = h.cells r

/-- What the algorithms of the package respect in a turn: `add` as above; a step of MOEA/D is made on a population that is not empty,
and a problem without constraints gives none. -/
def GivenTurn (h : Heap R) (s : Shared) : Turn R → Prop
  | .add d off ev => Given h s (.add d off ev : SharedOp R)
  | .moead _ _ _ _ => s.attr .individuals ≠ none ∧ 0 < s.ndim ∧ (s.nCons = 0 → s.attr .constraint = none)
  | _ => True

/-- A step of MOEA/D on values: the (repaired) offspring and its evaluation are added, the positions chosen from the population with it
are overwritten by it, the last individual is removed. -/
def moeadValues (p : Pop R R R R R) (row : R) (fix : Option (R → R)) (ev : R → Except Err (Results R R R R))
    (sel : Pop R R R R R → Except Err (List Int)) : Except Err Unit × Pop R R R R R :=
  let x := match fix with
    | none => row
    | some g => g row
  match ev x with
  | .error e => (.error e, p)
  | .ok r =>
    match p.step (.add ⟨p.ndim - 1, [x]⟩ (.ok r)) with
    | (.error e, p) => (.error e, p)
    | (.ok _, p) =>
      match sel p with
      | .error e => (.error e, p)
      | .ok is =>
        match r.objectives, r.fitness with
        | o :: _, f :: _ =>
          match p.step (.replace is x o f (r.constraints.bind List.head?) (r.uncertainity.bind List.head?)) with
          | (.error e, p) => (.error e, p)
          | (.ok _, p) => p.step (.delete [-1])
        | _, _ => (.error .valueError, p)

/-- `GivenTurn` along a sequence of turns. -/
def GivenTurns (h : Heap R) (s : Shared) : List (Turn R) → Prop
  | [] => True
  | t :: ts => GivenTurn h s t ∧ GivenTurns (s.turn h t).2.1 (s.turn h t).2.2 ts

end Verif.Spec
