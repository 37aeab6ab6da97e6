import Mathlib.Analysis.SpecialFunctions.Pow.Real
import Verif.Model.MOEAD

/-!
# Model of `desdeo_emo/recombination/` (SBX, bounded polynomial mutation, single point) and of
`desdeo_emo/population/CreateIndividuals.py`

A decision vector is a function `Fin n → Option ℝ`; `none` is NaN.  The arithmetic is exact.  Random draws are
arguments.
-/

namespace Verif

/-- A decision vector of `n` float variables, `none` is NaN. -/
abbrev Row (n : Nat) := Fin n → Option ℝ

variable {n : Nat}

/-! ## Simulated binary crossover -/

/-- The draws of one pair: `np.random.rand`, `randint(0, 2)`, `rand`, `SimulatedBinaryCrossover.py:60,63,64`. -/
structure SbxDraw (n : Nat) where
  miu : Fin n → ℝ
  flip : Fin n → Bool
  u : Fin n → ℝ

/-- The spread factor of one gene, `SimulatedBinaryCrossover.py:59-64`. -/
noncomputable def sbxBeta (proC disC miu : ℝ) (flip : Bool) (u : ℝ) : ℝ :=
  let b := if miu ≤ 1 / 2 then (2 * miu) ^ (1 / (disC + 1)) else (2 - 2 * miu) ^ (-1 / (disC + 1))
  let b := if flip then -b else b
  if proC < u then 1 else b

/-- `avg + beta * diff` on one gene, `SimulatedBinaryCrossover.py:65-67`; NaN propagates. -/
noncomputable def sbxFirst (beta : ℝ) : Option ℝ → Option ℝ → Option ℝ
  | some a, some b => some ((a + b) / 2 + beta * ((a - b) / 2))
  | _, _ => none

/-- `avg - beta * diff` on one gene, `SimulatedBinaryCrossover.py:65,66,68`. -/
noncomputable def sbxSecond (beta : ℝ) : Option ℝ → Option ℝ → Option ℝ
  | some a, some b => some ((a + b) / 2 - beta * ((a - b) / 2))
  | _, _ => none

/-- The loop over pairs, `SimulatedBinaryCrossover.py:57-69`; `rand k` are the draws of pair `k`. -/
noncomputable def sbxPairs (proC disC : ℝ) (rand : Nat → SbxDraw n) : Nat → List (Row n) → List (Row n)
  | k, a :: b :: rest =>
    (fun i => sbxFirst (sbxBeta proC disC ((rand k).miu i) ((rand k).flip i) ((rand k).u i)) (a i) (b i)) ::
    (fun i => sbxSecond (sbxBeta proC disC ((rand k).miu i) ((rand k).flip i) ((rand k).u i)) (a i) (b i)) ::
    sbxPairs proC disC rand (k + 1) rest
  | _, _ => []

/-- `mating_pop` after the odd case, `SimulatedBinaryCrossover.py:50-55` (same lines in
`SinglePointCrossoverMutation.py:77-82`). -/
def closePairs {α : Type} (rows : List α) : List α :=
  if rows.length % 2 = 1 then rows ++ rows.take 1 else rows

/-- The ids used: those given, or the shuffled whole population, `SimulatedBinaryCrossover.py:44-49`; ids are
non-negative (negative ones would count from the end). -/
def matingIds (shuffle : List Nat → List Nat) (popSize : Nat) (ids : Option (List Nat)) : List Nat :=
  match ids with
  | none => shuffle (List.range popSize)
  | some l => l

/-- `SBX_xover.do`, `SimulatedBinaryCrossover.py:25-69`; an id out of range raises IndexError. -/
noncomputable def sbxDo (proC disC : ℝ) (shuffle : List Nat → List Nat) (rand : Nat → SbxDraw n) (pop : List (Row n))
    (ids : Option (List Nat)) : Except Err (List (Row n)) :=
  match takeRows pop (matingIds shuffle pop.length ids) with
  | none => .error .indexError
  | some rows => .ok (sbxPairs proC disC rand 0 (closePairs rows))

/-! ## Bounded polynomial mutation -/

/-- `x ** (1 / (DisM + 1))` in numpy: a negative base with a fractional exponent gives NaN. -/
noncomputable def npRoot (x : ℝ) (d : Nat) : Option ℝ := if x < 0 then none else some (x ^ ((1 : ℝ) / (d + 1)))

/-- The final clipping, `BoundedPolynomialMutation.py:63-64`. -/
noncomputable def clipGene (lo hi : ℝ) : Option ℝ → Option ℝ
  | none => none
  | some x =>
    let x := if hi < x then hi else x
    if x < lo then some lo else some x

/-- One gene before clipping, `BoundedPolynomialMutation.py:36-62`: `k`, `miu` are the two draws; `d` is `DisM` (a
natural number; the default is 20).  The bounds differ (numpy gives NaN for equal bounds). -/
noncomputable def bpRaw (proM : ℝ) (d : Nat) (lo hi k miu : ℝ) : Option ℝ → Option ℝ
  | none => none
  | some x =>
    let y := (x - lo) / (hi - lo)
    let x1 : Option ℝ :=
      if k ≤ proM ∧ miu < 1 / 2 then
        (npRoot (2 * miu + (1 - 2 * miu) * (1 - y) ^ (d + 1)) d).map (fun r => x + (hi - lo) * (r - 1))
      else some x
    if k ≤ proM ∧ 1 / 2 ≤ miu then
      x1.bind (fun x1 => (npRoot (2 * (1 - miu) + 2 * (miu - 1 / 2) * y ^ (d + 1)) d).map
        (fun r => x1 + (hi - lo) * (1 - r)))
    else x1

/-- `BP_mutation.do`, `BoundedPolynomialMutation.py:20-65`; `k j`, `miu j` are the draws of row `j`. -/
noncomputable def bpDo (proM : ℝ) (d : Nat) (lo hi : Fin n → ℝ) (k miu : Nat → Fin n → ℝ) (offspring : List (Row n)) :
    List (Row n) :=
  offspring.mapIdx (fun j x i => clipGene (lo i) (hi i) (bpRaw proM d (lo i) (hi i) (k j i) (miu j i) (x i)))

/-- The draws of one `mate` call. -/
structure MateDraw (n : Nat) where
  shuffle : List Nat → List Nat
  pairs : Nat → SbxDraw n
  k : Nat → Fin n → ℝ
  miu : Nat → Fin n → ℝ

/-- `Population.mate` with the operators a population gets by default, `Population.py:123-124,218-240`:
`SBX_xover()` and `BP_mutation(lower, upper)`; `ProM` is one over the number of variables. -/
noncomputable def mateDefault (lo hi : Fin n → ℝ) (draw : MateDraw n) (inds : List (Row n)) (ids : Option (List Nat)) :
    Except Err (List (Row n)) :=
  match sbxDo 1 30 draw.shuffle draw.pairs inds ids with
  | .error e => .error e
  | .ok off => .ok (bpDo (1 / (n : ℝ)) 20 lo hi draw.k draw.miu off)

/-! ## Single point crossover and mutation -/

/-- `crossover`, `SinglePointCrossoverMutation.py:23-40`: the assertion on the lengths, `point` is the draw (for empty
genomes `randint(0)` raises ValueError). -/
def spCrossover {α : Type} (point : Nat) (a b : List α) : Except Err (List α × List α) :=
  if a.length ≠ b.length then .error .assertionError
  else if a.length = 0 then .error .valueError
  else .ok (a.take point ++ b.drop point, b.take point ++ a.drop point)

/-- The loop of `do`, `SinglePointCrossoverMutation.py:85-89`: after every pair the whole offspring array is rounded
(`acc` holds the rows filled so far; the rows not yet filled are zeros). -/
def spPairs {α : Type} (rnd : α → α) (point : Nat → Nat) : Nat → List (List α) → List (List α) →
    Except Err (List (List α))
  | k, a :: b :: rest, acc =>
    match spCrossover (point k) a b with
    | .error e => .error e
    | .ok (c, d) => spPairs rnd point (k + 1) rest ((acc ++ [c, d]).map (List.map rnd))
  | _, _, acc => .ok acc

/-- `SinglePoint_Xover.do`, `SinglePointCrossoverMutation.py:52-90`. -/
def spDo {α : Type} (rnd : α → α) (shuffle : List Nat → List Nat) (point : Nat → Nat) (pop : List (List α))
    (ids : Option (List Nat)) : Except Err (List (List α)) :=
  match takeRows pop (matingIds shuffle pop.length ids) with
  | none => .error .indexError
  | some rows => spPairs rnd point 0 (closePairs rows) []

/-- `offspring[i, k] = 1 - offspring[i, k]`, one row, `SinglePointCrossoverMutation.py:144` (and
`SinglePointCrossoverMutation.py:42-50,111-119`). -/
def flipGene {α : Type} [One α] [Sub α] (k : Nat) (row : List α) : List α := row.modify k (fun x => 1 - x)

/-- `SinglePoint_Mutation.do`, `SinglePointCrossoverMutation.py:121-146`: `k j` is the gene drawn for row `j`. -/
def spMutate {α : Type} [One α] [Sub α] (k : Nat → Nat) (offspring : List (List α)) : List (List α) :=
  offspring.mapIdx (fun j row => flipGene (k j) row)

/-! ## Initial designs -/

/-- `individuals * (upper - lower) + lower`, `CreateIndividuals.py:42-46,51-55`: `unit` is
`np.random.random((pop_size, n))` or `lhs(n, samples=pop_size)`. -/
def scaleDesign (lo hi : Fin n → ℝ) (unit : List (Fin n → ℝ)) : List (Fin n → ℝ) :=
  unit.map (fun u i => u i * (hi i - lo i) + lo i)

/-- The table used when no `pop_size` is given, `CreateIndividuals.py:37-39`; a negative index counts from the end, a
too large one raises IndexError. -/
def designPopSize (nObj : Nat) : Except Err Nat :=
  let l := [50, 105, 120, 126, 132, 112, 156, 90, 275]
  match normIdx l.length ((nObj : Int) - 2) with
  | none => .error .indexError
  | some k =>
    match l[k]? with
    | none => .error .indexError
    | some v => .ok v

/-- `create_new_individuals` for the two box designs, `CreateIndividuals.py:37-57`; `draw n` are `n` rows of numbers in
the unit interval. -/
def createBox (lo hi : Fin n → ℝ) (draw : Nat → List (Fin n → ℝ)) (nObj : Nat) (popSize : Option Nat) :
    Except Err (List (Fin n → ℝ)) :=
  match popSize with
  | some k => .ok (scaleDesign lo hi (draw k))
  | none =>
    match designPopSize nObj with
    | .error e => .error e
    | .ok k => .ok (scaleDesign lo hi (draw k))

/-! ## The variation of a run -/

/-- `population.mate()` on the population object with the default operators, `Population.py:218-240` (`individuals`
being `None` raises AttributeError at `SimulatedBinaryCrossover.py:45-47`); `draw` gives the draws of each call. -/
noncomputable def mateAll {O F C U : Type} (lo hi : Fin n → ℝ) (draw : Nat → MateDraw n) (clock : Nat)
    (p : Pop (Row n) O F C U) : Except Err (Batch (Row n)) :=
  match p.individuals with
  | none => .error .attributeError
  | some inds =>
    match mateDefault lo hi (draw clock) inds none with
    | .error e => .error e
    | .ok off => .ok ⟨2, off⟩

/-- `population.mate(selected_parents)` with two parents, `MOEAD.py:124`. -/
noncomputable def mateTwo {O F C U : Type} (lo hi : Fin n → ℝ) (draw : Nat → MateDraw n) (clock : Nat)
    (p : Pop (Row n) O F C U) (a b : Nat) : Except Err (List (Row n)) :=
  match p.individuals with
  | none => .error .attributeError
  | some inds => mateDefault lo hi (draw clock) inds (some [a, b])

/-- `population.repair`, `Population.py:274-291`, on a decision vector. -/
noncomputable def repairRow (lo hi : Fin n → ℝ) (x : Row n) : Row n := fun i => repair1 (lo i) (hi i) (x i)

/-- `create_new_individuals(design, problem, pop_size)` for the two box designs, `Population.py:121`: an array of
numbers. -/
def boxDesign (lo hi : Fin n → ℝ) (draw : Nat → Nat → List (Fin n → ℝ)) (clock popSize : Nat) :
    Except Err (Batch (Row n)) :=
  .ok ⟨2, (scaleDesign lo hi (draw clock popSize)).map (fun r i => some (r i))⟩

end Verif
