import Verif.Model.EA

/-!
# Specification vocabulary for the iteration loop

`Gens body k s s'`: `k` complete generations, one after another, lead from `s` to `s'`, each started
while the loop condition held.
-/

namespace Spec
open Verif

variable {X O F C U V S Q R : Type}

/-- `k` complete generations from `s` to `s'`; before each of them `cond` held. -/
inductive Gens (body : EA X O F C U V S Q → EARes Unit X O F C U V S Q) (cond : EA X O F C U V S Q → Prop) :
    Nat → EA X O F C U V S Q → EA X O F C U V S Q → Prop
  | zero (s) : Gens body cond 0 s s
  | succ {k s t u} : cond s → body s = (.ok (), t) → Gens body cond k t u → Gens body cond (k + 1) s u

/-- What a generation does to the counters: one generation more, `rows s` offspring evaluated. -/
structure CountsGeneration (body : EA X O F C U V S Q → EARes Unit X O F C U V S Q)
    (rows : EA X O F C U V S Q → Nat) : Prop where
  ok : ∀ s t, body s = (.ok (), t) →
    t.cfg = s.cfg ∧ t.iter = s.iter ∧ t.gen = s.gen + 1 ∧ t.genIter = s.genIter + 1 ∧
    t.fe = s.fe + (if s.cfg.useSurr then 0 else rows s) ∧
    t.trueEvals = s.trueEvals + (if s.cfg.useSurr then 0 else rows s) ∧
    t.archive = s.archive

/-- Value of a dict at a key. -/
def dictGet {α : Type} (d : List (Nat × α)) (k : Nat) : Option α := (d.find? (fun p => p.1 == k)).map (fun p => p.2)

/-- The last value recorded for key `k` in a chronological log. -/
def lastFor {α : Type} (log : List (Nat × α)) (k : Nat) : Option α := dictGet log.reverse k

end Spec
