import Mathlib.Data.Real.Basic
import Verif.Model.EA

/-!
# Model of `desdeo_emo/EAs/PPGA.py`: the toroidal lattice of predators and prey, and the EA around it

A location is the pair `(row, column)` of Python integers stored in `preys_loc` / `predators_loc`.  `np.random.randint(n)` is
`d % n` and `choice(l)` is `l[d % len(l)]` for an arbitrary natural number `d` given as an argument, so that every outcome and
only legal outcomes occur.
-/

namespace Verif

/-- A location on the lattice. -/
abbrev Cell := Int × Int

/-- The `Lattice` object, `PPGA.py:206-235`: `h` is `size_y`, `w` is `size_x`; `cell y x` is `lattice[y][x]`, read only inside
the array; `preys` is `preys_loc` (an entry is `None` while its prey is dead and not yet removed). -/
structure Lat where
  h : Nat
  w : Nat
  cell : Int → Int → Int
  preds : List Cell
  preys : List (Option Cell)

/-- Python indexing on an axis of length `n`: negative indices count from the end. -/
def pyIdx (n : Nat) (i : Int) : Option Int :=
  if 0 ≤ i ∧ i < n then some i
  else if -(n : Int) ≤ i ∧ i < 0 then some (i + n)
  else none

/-- `lattice[y][x]`. -/
def Lat.get (L : Lat) (p : Cell) : Except Err Int :=
  match pyIdx L.h p.1, pyIdx L.w p.2 with
  | some y, some x => .ok (L.cell y x)
  | _, _ => .error .indexError

/-- `lattice[y][x] = v`. -/
def Lat.set (L : Lat) (p : Cell) (v : Int) : Except Err Lat :=
  match pyIdx L.h p.1, pyIdx L.w p.2 with
  | some y, some x => .ok { L with cell := fun a b => if a = y ∧ b = x then v else L.cell a b }
  | _, _ => .error .indexError

/-! ## Neighbourhoods -/

/-- `np.roll(arr, shift, axis=0)` on an array with `h` rows. -/
def roll0 (h : Nat) (shift : Int) (arr : Int → Int → Int) : Int → Int → Int := fun i j => arr ((i - shift) % h) j

/-- `np.roll(arr, shift, axis=1)` on an array with `w` columns. -/
def roll1 (w : Nat) (shift : Int) (arr : Int → Int → Int) : Int → Int → Int := fun i j => arr i ((j - shift) % w)

/-- A block of cells: its shape and its entries. -/
structure Block where
  rows : Nat
  cols : Nat
  at' : Int → Int → Int

/-- `Lattice.neighbours`, `PPGA.py:505-527`; the slice `[:n, :n]` is cut at the array's borders. -/
def neighbours (h w : Nat) (arr : Int → Int → Int) (x y : Int) (n : Nat) : Block :=
  ⟨min n h, min n w, roll1 w (-y + 1) (roll0 h (-x + 1) arr)⟩

/-- The entries of a block in row-major order (what boolean indexing of a 2-d array lists). -/
def Block.entries (b : Block) : List Int :=
  (List.range b.rows).flatMap (fun (i : Nat) => (List.range b.cols).map (fun (j : Nat) => b.at' (i : Int) (j : Int)))

/-- `lattice_wrap_idx` on a pair of integers, `PPGA.py:482-503`; Python's `%` has the sign of the (positive) divisor, as
Lean's on integers. -/
def wrapIdx (h w : Nat) (p : Cell) : Cell := ((p.1 % h + h) % h, (p.2 % w + w) % w)

/-- The destination cell, `PPGA.py:297-306` and `431-440`: wrapped only if outside the array. -/
def Lat.dest (L : Lat) (p : Cell) : Cell :=
  if (0 ≤ p.1 ∧ p.1 < L.h) ∧ (0 ≤ p.2 ∧ p.2 < L.w) then p else wrapIdx L.h L.w p

/-! ## Initialisation -/

/-- `np.transpose(np.nonzero(lattice == 0)).tolist()`, `PPGA.py:245,261`: free cells in row-major order. -/
def Lat.free (L : Lat) : List Cell :=
  (List.range L.h).flatMap (fun (y : Nat) =>
    ((List.range L.w).filter (fun (x : Nat) => decide (L.cell (y : Int) (x : Int) = 0))).map (fun (x : Nat) => ((y : Int), (x : Int))))

/-- `random.sample(l, k)`: `k` draws without replacement, ValueError if there are not that many. -/
def sample {α : Type} : List α → List Nat → Except Err (List α)
  | _, [] => .ok []
  | [], _ :: _ => .error .valueError
  | a :: l, d :: ds =>
    let i := d % (a :: l).length
    match sample ((a :: l).eraseIdx i) ds with
    | .error e => .error e
    | .ok r => .ok (((a :: l)[i]?.getD a) :: r)

/-- The placing loop of `init_predators`, `PPGA.py:248-255`. -/
def placePreds (L : Lat) : List Cell → Except Err Lat
  | [] => .ok L
  | p :: ps =>
    match L.set p (-1 * ((L.preds.length : Int) + 1)) with
    | .error e => .error e
    | .ok M => placePreds { M with preds := L.preds ++ [p] } ps

/-- The placing loop of `init_prey`, `PPGA.py:264-270`. -/
def placePreys (L : Lat) : List Cell → Except Err Lat
  | [] => .ok L
  | p :: ps =>
    match L.set p ((L.preys.length : Int) + 1) with
    | .error e => .error e
    | .ok M => placePreys { M with preys := L.preys ++ [some p] } ps

/-- `Lattice.__init__`, `PPGA.py:206-270`; `dPred`, `dPrey` are the draws of the two `sample` calls: one per predator, one per
individual of the population. -/
def Lat.init (h w : Nat) (dPred dPrey : List Nat) : Except Err Lat :=
  let L : Lat := ⟨h, w, fun _ _ => 0, [], []⟩
  match sample L.free dPred with
  | .error e => .error e
  | .ok ps =>
    match placePreds L ps with
    | .error e => .error e
    | .ok L =>
      match sample L.free dPrey with
      | .error e => .error e
      | .ok qs => placePreys L qs

/-! ## Prey -/

/-- Random outcomes of one call of `move_prey`: does prey `k` move (`random() < prob_prey_move`); the two `randint` of its
`i`-th attempt; the `choice` of its mate. -/
structure PreyRand where
  go : Nat → Bool
  dy : Nat → Nat → Nat
  dx : Nat → Nat → Nat
  mate : Nat → Nat

/-- Move the prey `k` at `p` to `q`, `PPGA.py:308-313`. -/
def Lat.movePreyTo (L : Lat) (k : Nat) (p q : Cell) : Except Err Lat :=
  match L.set q ((k : Int) + 1) with
  | .error e => .error e
  | .ok M =>
    match M.set p 0 with
    | .error e => .error e
    | .ok M => .ok { M with preys := M.preys.set k (some q) }

/-- One attempt of prey `k` to move, `PPGA.py:286-313`. -/
def Lat.preyTry (L : Lat) (k : Nat) (dy dx : Nat) : Except Err Lat :=
  match L.preys[k]? with
  | none => .error .indexError
  | some none => .error .typeError
  | some (some p) =>
    let b := neighbours L.h L.w L.cell p.1 p.2 3
    if b.rows = 0 ∨ b.cols = 0 then .error .valueError
    else
      let dy : Int := ((dy % b.rows : Nat) : Int)
      let dx : Int := ((dx % b.cols : Nat) : Int)
      if b.at' dy dx ≠ 0 then .ok L
      else L.movePreyTo k p (L.dest (dy - 1 + p.1, dx - 1 + p.2))

/-- The attempts of prey `k`, `PPGA.py:284-313`; `left` counts down, attempt numbers count up from `i`. -/
def Lat.preyTries (r : PreyRand) (k : Nat) : Nat → Nat → Lat → Except Err Lat
  | 0, _, L => .ok L
  | left + 1, i, L =>
    match L.preyTry k (r.dy k i) (r.dx k i) with
    | .error e => .error e
    | .ok L => Lat.preyTries r k left (i + 1) L

/-- `mates`, `PPGA.py:315-318`. -/
def Lat.mates (L : Lat) (k : Nat) (p : Cell) : List Int :=
  (neighbours L.h L.w L.cell p.1 p.2 3).entries.filter (fun v => decide (0 < v) && decide (v ≠ (k : Int) + 1))

/-- The pair appended for prey `k`, if any, `PPGA.py:315-324`. -/
def Lat.chooseMate (L : Lat) (r : PreyRand) (k : Nat) : Except Err (List (Int × Int)) :=
  match L.preys[k]? with
  | none => .error .indexError
  | some none => .error .typeError
  | some (some p) =>
    match L.mates k p with
    | [] => .ok []
    | m :: ms => .ok [((k : Int), ((m :: ms)[r.mate k % (m :: ms).length]?.getD m) - 1)]

/-- What happens to prey `k`, `PPGA.py:280-324`. -/
def Lat.preyTurn (r : PreyRand) (maxMoves : Nat) (k : Nat) (L : Lat) : Except Err (Lat × List (Int × Int)) :=
  match (if r.go k then Lat.preyTries r k maxMoves 0 L else .ok L) with
  | .error e => .error e
  | .ok L =>
    match L.chooseMate r k with
    | .error e => .error e
    | .ok m => .ok (L, m)

/-- The loop over the prey, `PPGA.py:282-324`: `left` prey remain, the next one is `k`. -/
def Lat.preyLoop (r : PreyRand) (maxMoves : Nat) : Nat → Nat → Lat → Except Err (Lat × List (Int × Int))
  | 0, _, L => .ok (L, [])
  | left + 1, k, L =>
    match Lat.preyTurn r maxMoves k L with
    | .error e => .error e
    | .ok (L, m) =>
      match Lat.preyLoop r maxMoves left (k + 1) L with
      | .error e => .error e
      | .ok (L, ms) => .ok (L, m ++ ms)

/-- `Lattice.move_prey`, `PPGA.py:272-327`.  The final `raise` leaves the moved prey where they are. -/
def Lat.movePrey (L : Lat) (r : PreyRand) (maxMoves : Nat) : Except Err (List (Int × Int)) × Lat :=
  match Lat.preyLoop r maxMoves L.preys.length 0 L with
  | .error e => (.error e, L)
  | .ok (L, []) => (.error .eaError, L)
  | .ok (L, m) => (.ok m, L)

/-! ## Offspring -/

/-- The attempts to place offspring `i` at `p`, `PPGA.py:351-364`: the location is drawn once, before the attempts. -/
def Lat.placeTries (i : Nat) (p : Cell) : Nat → Lat × List Nat → Except Err (Lat × List Nat)
  | 0, s => .ok s
  | left + 1, (L, placed) =>
    match L.get p with
    | .error e => .error e
    | .ok v =>
      if v ≠ 0 then Lat.placeTries i p left (L, placed)
      else
        match L.set p ((L.preys.length : Int) + 1) with
        | .error e => .error e
        | .ok M => Lat.placeTries i p left ({ M with preys := L.preys ++ [some p] }, placed ++ [i])

/-- The loop of `place_offspring`, `PPGA.py:344-364`: `left` offspring remain, the next one is `i`; `y i`, `x i` are its draws. -/
def Lat.placeLoop (y x : Nat → Nat) (attempts : Nat) : Nat → Nat → Lat × List Nat → Except Err (Lat × List Nat)
  | 0, _, s => .ok s
  | left + 1, i, (L, placed) =>
    if L.h = 0 ∨ L.w = 0 then .error .valueError
    else
      match Lat.placeTries i (((y i % L.h : Nat) : Int), ((x i % L.w : Nat) : Int)) attempts (L, placed) with
      | .error e => .error e
      | .ok s => Lat.placeLoop y x attempts left (i + 1) s

/-- `Lattice.place_offspring`, `PPGA.py:329-366`. -/
def Lat.placeOffspring (L : Lat) (y x : Nat → Nat) (attempts n : Nat) : Except Err (Lat × List Nat) :=
  Lat.placeLoop y x attempts n 0 (L, [])

/-! ## Removal and renumbering -/

/-- `update_lattice`, removing loop, `PPGA.py:467-471`. -/
def Lat.removeAll (L : Lat) : List Nat → Except Err Lat
  | [] => .ok L
  | i :: is =>
    match L.preys[i]? with
    | none => .error .indexError
    | some none => .error .typeError
    | some (some p) =>
      match L.set p 0 with
      | .error e => .error e
      | .ok M => Lat.removeAll { M with preys := M.preys.set i none } is

/-- `update_lattice`, renumbering loop, `PPGA.py:474-479`: the next location gets the number `k + 1`. -/
def Lat.renumber (L : Lat) (k : Nat) : List Cell → Except Err Lat
  | [] => .ok L
  | p :: ps =>
    match L.set p ((k : Int) + 1) with
    | .error e => .error e
    | .ok M => Lat.renumber M (k + 1) ps

/-- `Lattice.update_lattice`, `PPGA.py:458-479`; `selected=None` is the empty list. -/
def Lat.update (L : Lat) (selected : List Nat) : Except Err Lat :=
  match L.removeAll selected with
  | .error e => .error e
  | .ok L =>
    let alive := L.preys.filterMap id
    Lat.renumber { L with preys := alive.map some } 0 alive

/-! ## Predators -/

/-- Random outcomes of one call of `move_predator`: the two `randint` of move `i` of predator `k`. -/
structure PredRand where
  dy : Nat → Nat → Nat
  dx : Nat → Nat → Nat

/-- `predator_pop[k]`, i.e. `np.linspace(0, 1, num=n)[k]`, `PPGA.py:242`. -/
noncomputable def predWeight (n k : Nat) : ℝ := (k : ℝ) / ((n : ℝ) - 1)

/-- `fc` of target `t`, `PPGA.py:397-403`; `obj` gives the first two entries of a fitness row. -/
noncomputable def targetCost {F : Type} (obj : F → ℝ × ℝ) (fits : List F) (wt : ℝ) (t : Int) : Except Err ℝ :=
  match pyIdx fits.length (t - 1) with
  | none => .error .indexError
  | some i =>
    match fits[i.toNat]? with
    | none => .error .indexError
    | some f => .ok (wt * (obj f).1 + (1 - wt) * (obj f).2)

/-- The list `fitness` before sorting, `PPGA.py:393-405`. -/
noncomputable def targetCosts {F : Type} (obj : F → ℝ × ℝ) (fits : List F) (wt : ℝ) : List Int → Except Err (List (ℝ × Int))
  | [] => .ok []
  | t :: ts =>
    match targetCost obj fits wt t with
    | .error e => .error e
    | .ok c =>
      match targetCosts obj fits wt ts with
      | .error e => .error e
      | .ok r => .ok ((c, t) :: r)

/-- Tuple comparison `a <= b`. -/
noncomputable def lexLe (a b : ℝ × Int) : Bool := by
  classical exact decide (a.1 < b.1 ∨ (a.1 = b.1 ∧ a.2 ≤ b.2))

/-- `fitness.sort(); weakest_prey = fitness[-1][1] - 1`, `PPGA.py:405-407` (the code sorts after every append; only the last
sort matters). -/
noncomputable def weakest (l : List (ℝ × Int)) : Option Int := ((l.mergeSort lexLe).getLast?).map (fun p => p.2 - 1)

/-- Predator `k` at `p` kills prey `j` and moves to its place, `PPGA.py:410-426`. -/
def Lat.kill (L : Lat) (k : Nat) (p : Cell) (j : Int) : Except Err (Lat × Nat) :=
  match pyIdx L.preys.length j with
  | none => .error .indexError
  | some j =>
    match L.preys[j.toNat]? with
    | none => .error .indexError
    | some none => .error .typeError
    | some (some q) =>
      match L.set q (-1 * ((k : Int) + 1)) with
      | .error e => .error e
      | .ok M =>
        match M.set p 0 with
        | .error e => .error e
        | .ok M => .ok ({ M with preds := M.preds.set k q, preys := M.preys.set j.toNat none }, j.toNat)

/-- Predator `k` moves from `p` to `q`, `PPGA.py:447-452`. -/
def Lat.movePredTo (L : Lat) (k : Nat) (p q : Cell) : Except Err Lat :=
  match L.set q (-1 * ((k : Int) + 1)) with
  | .error e => .error e
  | .ok M =>
    match M.set p 0 with
    | .error e => .error e
    | .ok M => .ok { M with preds := M.preds.set k q }

/-- The predator's random walk when no prey is near, `PPGA.py:429-452`. -/
def Lat.predWalk (L : Lat) (k : Nat) (p : Cell) (b : Block) (dy dx : Nat) : Except Err Lat :=
  if b.rows = 0 ∨ b.cols = 0 then .error .valueError
  else
    let dy : Int := ((dy % b.rows : Nat) : Int)
    let dx : Int := ((dx % b.cols : Nat) : Int)
    if b.at' dy dx < 0 then .ok L else L.movePredTo k p (L.dest (dy - 1 + p.1, dx - 1 + p.2))

/-- One move of predator `k`, `PPGA.py:383-452`: the lattice and the prey killed, if any. -/
noncomputable def Lat.predTurn {F : Type} (obj : F → ℝ × ℝ) (fits : List F) (wt : ℝ) (radius : Nat) (L : Lat) (k : Nat)
    (dy dx : Nat) : Except Err (Lat × List Nat) :=
  match L.preds[k]? with
  | none => .error .indexError
  | some p =>
    let b := neighbours L.h L.w L.cell p.1 p.2 radius
    match b.entries.filter (fun v => decide (0 < v)) with
    | [] =>
      match L.predWalk k p b dy dx with
      | .error e => .error e
      | .ok L => .ok (L, [])
    | t :: ts =>
      match targetCosts obj fits wt (t :: ts) with
      | .error e => .error e
      | .ok cs =>
        match weakest cs with
        | none => .error .indexError
        | some j =>
          match L.kill k p j with
          | .error e => .error e
          | .ok (L, j) => .ok (L, [j])

/-- The moves of predator `k`, `PPGA.py:383-452`: `left` moves remain, the next one is `i`. -/
noncomputable def Lat.predMoves {F : Type} (obj : F → ℝ × ℝ) (fits : List F) (wt : ℝ) (radius : Nat) (r : PredRand) (k : Nat) :
    Nat → Nat → Lat → Except Err (Lat × List Nat)
  | 0, _, L => .ok (L, [])
  | left + 1, i, L =>
    match Lat.predTurn obj fits wt radius L k (r.dy k i) (r.dx k i) with
    | .error e => .error e
    | .ok (L, d) =>
      match Lat.predMoves obj fits wt radius r k left (i + 1) L with
      | .error e => .error e
      | .ok (L, ds) => .ok (L, d ++ ds)

/-- The loop over the predators, `PPGA.py:381-452`: `left` predators remain, the next one is `k`; `n` is the size of the
predator population. -/
noncomputable def Lat.predLoop {F : Type} (obj : F → ℝ × ℝ) (fits : List F) (n radius moves : Nat) (r : PredRand) :
    Nat → Nat → Lat → Except Err (Lat × List Nat)
  | 0, _, L => .ok (L, [])
  | left + 1, k, L =>
    match Lat.predMoves obj fits (predWeight n k) radius r k moves 0 L with
    | .error e => .error e
    | .ok (L, d) =>
      match Lat.predLoop obj fits n radius moves r left (k + 1) L with
      | .error e => .error e
      | .ok (L, ds) => .ok (L, d ++ ds)

/-! ## The EA -/

variable {X O F C U : Type}

/-- Constructor arguments, `PPGA.py:76-115`. -/
structure PPGACfg where
  targetPop : Nat
  nPred : Nat
  preyMaxMoves : Nat
  attempts : Nat
  killInterval : Nat
  maxRank : Int
  radius : Nat

/-- External and random components; the first argument of the random ones is the clock. -/
structure PPGAOps (X O F C U : Type) where
  prey : Nat → PreyRand
  placeY : Nat → Nat → Nat
  placeX : Nat → Nat → Nat
  pred : Nat → PredRand
  /-- `population.mate(mating_pop)`, `PPGA.py:131` -/
  mate : Nat → Pop X O F C U → List (Int × Int) → Except Err (Batch X)
  /-- `problem.evaluate` -/
  evaluate : Nat → Batch X → Except Err (Results O F C U)
  /-- `fast_non_dominated_sort`: one boolean row per front -/
  nds : List F → List (List Bool)
  /-- the first two entries of a fitness row -/
  obj : F → ℝ × ℝ

/-- `rank`, `PPGA.py:175-178`: the entries of `argwhere(fronts)` come front by front; an individual in no front keeps what
`int(inf)` left, a negative number, written -1 here. -/
def ranks (fronts : List (List Bool)) (n : Nat) : List Int :=
  fronts.zipIdx.foldl (fun r f => (whereIdx f.1).foldl (fun r i => r.set i (f.2 : Int)) r) (List.replicate n (-1))

/-- `PPGA.select`, `PPGA.py:156-180`. -/
def ppgaSelect (nds : List F → List (List Bool)) (fits : List F) (maxRank : Int) : List Nat :=
  whereIdx ((ranks (nds fits) fits.length).map (fun r => decide (maxRank < r)))

/-- `predator_max_moves`, `PPGA.py:373-376`: ZeroDivisionError without predators, TypeError without individuals; `int`
truncates towards zero, and `range` of a negative number is empty. -/
def predMaxMoves (p : Pop X O F C U) (targetPop nPred : Nat) : Except Err Nat :=
  match p.individuals with
  | none => .error .typeError
  | some inds =>
    if nPred = 0 then .error .zeroDivisionError
    else .ok (Int.tdiv ((inds.length : Int) - targetPop) nPred).toNat

/-- State of the PPGA object: the record `EA` with the lattice in place of a selection operator. -/
abbrev PPGA (X O F C U : Type) := EA X O F C U Unit Lat Unit

/-- `Lattice.move_predator`, `PPGA.py:368-456`, on the EA's lattice and population (one shared object).  Errors inside the
loop cannot happen in a consistent state (theorem `c48_hunt`); the partial effects before them are not modelled. -/
noncomputable def ppgaHunt (po : PPGAOps X O F C U) (pc : PPGACfg) (s : PPGA X O F C U) : EARes Unit X O F C U Unit Lat Unit :=
  match predMaxMoves s.pop pc.targetPop pc.nPred with
  | .error e => (.error e, s)
  | .ok moves =>
    match Lat.predLoop po.obj s.pop.fitness pc.nPred pc.radius moves (po.pred s.clock) s.sel.preds.length 0 s.sel with
    | .error e => (.error e, s)
    | .ok (L, dead) =>
      let s := { s with sel := L, clock := s.clock + 1 }
      match s.pop.delete (dead.map (fun (i : Nat) => (i : Int))) with
      | (.error e, p) => (.error e, { s with pop := p })
      | (.ok _, p) =>
        match L.update [] with
        | .error e => (.error e, { s with pop := p })
        | .ok L => (.ok (), { s with pop := p, sel := L })

/-- Killing every `kill_interval` generations, `PPGA.py:147-151`.  `x % 0` is ZeroDivisionError. -/
def ppgaKill (po : PPGAOps X O F C U) (pc : PPGACfg) (s : PPGA X O F C U) : EARes Unit X O F C U Unit Lat Unit :=
  if pc.killInterval = 0 then (.error .zeroDivisionError, s)
  else if s.gen % pc.killInterval = 0 then
    let selected := ppgaSelect po.nds s.pop.fitness pc.maxRank
    match s.sel.update selected with
    | .error e => (.error e, s)
    | .ok L =>
      let s := { s with sel := L }
      match s.pop.delete (selected.map (fun (i : Nat) => (i : Int))) with
      | (.error e, p) => (.error e, { s with pop := p })
      | (.ok _, p) => (.ok (), { s with pop := p })
  else (.ok (), s)

/-- Placing and adding the offspring, `PPGA.py:133-145`.  The two masks (`mask[placed] = False`, `[~mask]`) keep exactly the placed rows. -/
def ppgaAdd (po : PPGAOps X O F C U) (pc : PPGACfg) (s : PPGA X O F C U) (off : Batch X) : EARes Unit X O F C U Unit Lat Unit :=
  match s.sel.placeOffspring (po.placeY s.clock) (po.placeX s.clock) pc.attempts off.rows.length with
  | .error e => (.error e, s)
  | .ok (L, placed) =>
    let s := { s with sel := L, clock := s.clock + 1 }
    let mask := setMask (List.replicate off.rows.length true) placed false
    let off : Batch X := ⟨off.ndim, compress (mask.map (fun b => !b)) off.rows⟩
    let r := s.pop.add off (po.evaluate s.clock off)
    let s := { s with pop := r.2, clock := s.clock + 1, trueEvals := s.trueEvals + off.rows.length }
    match r.1 with
    | .error e => (.error e, s)
    | .ok _ => (.ok (), { s with gen := s.gen + 1, genIter := s.genIter + 1, fe := s.fe + off.rows.length })

/-- `PPGA._next_gen`, `PPGA.py:117-154`. -/
noncomputable def ppgaNextGen (po : PPGAOps X O F C U) (pc : PPGACfg) (s : PPGA X O F C U) : EARes Unit X O F C U Unit Lat Unit :=
  let r := s.sel.movePrey (po.prey s.clock) pc.preyMaxMoves
  let s := { s with sel := r.2, clock := s.clock + 1 }
  match r.1 with
  | .error e => (.error e, s)
  | .ok mating =>
    match po.mate s.clock s.pop mating with
    | .error e => (.error e, { s with clock := s.clock + 1 })
    | .ok off =>
      match ppgaAdd po pc { s with clock := s.clock + 1 } off with
      | (.error e, s) => (.error e, s)
      | (.ok _, s) =>
        match ppgaKill po pc s with
        | (.error e, s) => (.error e, s)
        | (.ok _, s) => ppgaHunt po pc s

/-- `PPGA.__init__`, `PPGA.py:76-115`: the lattice is 60 by 60; no evaluations are counted. -/
def ppgaConstruct (pc : PPGACfg) (nIter nGen : Nat) (dPred dPrey : Nat → Nat) (initial : Option (Pop X O F C U)) :
    Except Err (PPGA X O F C U) :=
  match initial with
  | none => .error .eaError
  | some p =>
    match p.individuals with
    | none => .error .typeError
    | some inds =>
      match Lat.init 60 60 ((List.range pc.nPred).map dPred) ((List.range inds.length).map dPrey) with
      | .error e => .error e
      | .ok L =>
        .ok { cfg := ⟨false, none, nIter, nGen, 0, false, false, false⟩, clock := 0, pop := p, vec := (), sel := L, prob := (),
              iter := 0, gen := 0, genIter := 0, fe := 0, reqId := none, itype := none, typeSet := false, allowRead := false,
              archive := [], nd := none, trueEvals := 0, log := [] }

/-- `BaseEA.iterate` on a PPGA object, `BaseEA.py:138-152`: `manage_preferences` and `requests` do nothing (`PPGA.py:182-183`,
`BaseEA.py:284-285`). -/
noncomputable def ppgaIterate (po : PPGAOps X O F C U) (pc : PPGACfg) (s : PPGA X O F C U) : EARes Unit X O F C U Unit Lat Unit :=
  match EA.loop (ppgaNextGen po pc) s.cfg.nGen { s with genIter := 0 } with
  | (.error e, s) => (.error e, s)
  | (.ok _, s) => (.ok (), { s with iter := s.iter + 1 })

/-- Any number of `iterate` calls; exceptions are caught by the user, who goes on with the state left behind. -/
noncomputable def ppgaRun (po : PPGAOps X O F C U) (pc : PPGACfg) : Nat → PPGA X O F C U → PPGA X O F C U
  | 0, s => s
  | n + 1, s => ppgaRun po pc n (ppgaIterate po pc s).2

end Verif
