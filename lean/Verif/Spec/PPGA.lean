import Verif.Model.PPGA
import Verif.Spec.Population

/-!
# Specification vocabulary for the predator-prey lattice
-/

namespace Verif.Spec

/-- The location is inside the lattice. -/
def InGrid (L : Lat) (p : Cell) : Prop := (0 ≤ p.1 ∧ p.1 < L.h) ∧ (0 ≤ p.2 ∧ p.2 < L.w)

/-- The lattice agrees with the two lists of locations: there are `nPred` predators and `nPrey` live prey, all inside; the cell of
predator number `k` (from 0) holds `-(k+1)`, that of prey number `k` holds `k+1`; every other cell is empty (0). -/
structure Consistent (L : Lat) (nPred nPrey : Nat) : Prop where
  preds : L.preds.length = nPred
  preys : L.preys.length = nPrey
  pred : ∀ (k : Nat) (p : Cell), L.preds[k]? = some p → InGrid L p ∧ L.cell p.1 p.2 = -((k : Int) + 1)
  prey : ∀ k : Nat, k < nPrey → ∃ p : Cell, L.preys[k]? = some (some p) ∧ InGrid L p ∧ L.cell p.1 p.2 = (k : Int) + 1
  empty : ∀ p : Cell, InGrid L p → (∀ k : Nat, L.preds[k]? ≠ some p) → (∀ k : Nat, L.preys[k]? ≠ some (some p)) →
    L.cell p.1 p.2 = 0

/-- The lattice agrees with the two lists of locations while some prey may be dead (no location, no cell): every predator and
every live prey is inside, on the cell holding its number; every other cell is empty. -/
structure LatOK (L : Lat) : Prop where
  pred : ∀ (k : Nat) (p : Cell), L.preds[k]? = some p → InGrid L p ∧ L.cell p.1 p.2 = -((k : Int) + 1)
  prey : ∀ (k : Nat) (p : Cell), L.preys[k]? = some (some p) → InGrid L p ∧ L.cell p.1 p.2 = (k : Int) + 1
  empty : ∀ p : Cell, InGrid L p → (∀ k : Nat, L.preds[k]? ≠ some p) → (∀ k : Nat, L.preys[k]? ≠ some (some p)) →
    L.cell p.1 p.2 = 0

/-- `q` is in the `n` by `n` block of the torus that starts one row and one column before `p`. -/
def InReach (h w n : Nat) (p q : Cell) : Prop :=
  ∃ i j : Nat, i < n ∧ j < n ∧ q.1 = (p.1 + i - 1) % h ∧ q.2 = (p.2 + j - 1) % w

/-- The weighted sum of two objectives. -/
def weighted (wt : ℝ) (o : ℝ × ℝ) : ℝ := wt * o.1 + (1 - wt) * o.2

/-- One turn of predator `k`, whose weight for the first objective is `wt`, in words of the two lists of locations: it stands
at some `p`; if no live prey is within reach nobody dies and it stays or moves to an empty cell within reach; otherwise
exactly one of the live prey within reach, one with the largest weighted sum, dies and the predator takes its cell.  `d` lists
who died. -/
def PredTurn {F : Type} (obj : F → ℝ × ℝ) (fits : List F) (radius k : Nat) (wt : ℝ) (L M : Lat) (d : List Nat) : Prop :=
  ∃ p q : Cell, L.preds[k]? = some p ∧ M.h = L.h ∧ M.w = L.w ∧ M.preds = L.preds.set k q ∧
    ((d = [] ∧ M.preys = L.preys ∧ (∀ (i : Nat) (t : Cell), L.preys[i]? = some (some t) → ¬ InReach L.h L.w radius p t) ∧
        (q = p ∨ (InReach L.h L.w radius p q ∧ L.cell q.1 q.2 = 0))) ∨
      ∃ (j : Nat) (f : F), d = [j] ∧ L.preys[j]? = some (some q) ∧ M.preys = L.preys.set j none ∧ InReach L.h L.w radius p q ∧
        fits[j]? = some f ∧ ∀ (i : Nat) (t : Cell) (g : F), L.preys[i]? = some (some t) → InReach L.h L.w radius p t →
          fits[i]? = some g → weighted wt (obj g) ≤ weighted wt (obj f))

/-- A sequence of turns: who moves (and with what weight), one after the other; the last argument lists the dead in order. -/
inductive PredTurns {F : Type} (obj : F → ℝ × ℝ) (fits : List F) (radius : Nat) : List (Nat × ℝ) → Lat → Lat → List Nat → Prop
  | nil (L) : PredTurns obj fits radius [] L L []
  | cons {k wt ts L M N d ds} : PredTurn obj fits radius k wt L M d → PredTurns obj fits radius ts M N ds →
      PredTurns obj fits radius ((k, wt) :: ts) L N (d ++ ds)

/-- `q` is `p` or one of its eight neighbours on the torus with `h` rows and `w` columns. -/
def Adjacent (h w : Nat) (p q : Cell) : Prop :=
  ∃ dy dx : Int, (-1 ≤ dy ∧ dy ≤ 1) ∧ (-1 ≤ dx ∧ dx ≤ 1) ∧ q.1 = (p.1 + dy) % h ∧ q.2 = (p.2 + dx) % w

/-- A walk of at most `n` steps on the torus, each to an adjacent cell. -/
inductive Walk (h w : Nat) : Nat → Cell → Cell → Prop
  | stay (n p) : Walk h w n p p
  | step {n p q r} : Adjacent h w p q → Walk h w n q r → Walk h w (n + 1) p r

/-- Lattice and population of the PPGA object agree: the population is a list of complete records (of `d`-dimensional
individuals, for a problem with `nCons` constraints), and the lattice has exactly one live prey per record, number `k` standing for
record `k`, and `nPred` predators. -/
structure Synced {X O F C U : Type} (nPred d nCons : Nat) (s : PPGA X O F C U) : Prop where
  recs : ∃ rs, _root_.Spec.Represents s.pop rs ∧ Consistent s.sel nPred rs.length
  ndim : s.pop.individuals ≠ none → s.pop.ndim = d
  ncons : s.pop.nCons = nCons
  rows : 0 < s.sel.h
  cols : 0 < s.sel.w

/-- The contract of the external parts a PPGA run uses: mating yields batches of `d` dimensions, evaluation succeeds and returns one
row per vector. -/
structure PPGAContract {X O F C U : Type} (d nCons : Nat) (po : PPGAOps X O F C U) : Prop where
  mate : ∀ c p m b, po.mate c p m = .ok b → b.ndim = d
  evaluate : ∀ c b, ∃ r, po.evaluate c b = .ok r ∧ _root_.Spec.EvalOK nCons b.rows.length r ∧ r.uncertainity = none

end Verif.Spec
