import Mathlib.Analysis.SpecialFunctions.Log.Basic
import Mathlib.Algebra.BigOperators.Group.Finset.Basic
import Verif.Model.EvoNets
import Verif.Model.PPGA

/-!
# Model of whole trainings: `EvoNN.fit`, `EvoDN2.fit` with the default algorithm, and what `predict` then does

The data frame conversions at the top of the two `fit` methods and the plotting calls are not modelled.  `np.linalg.lstsq` and the loss functions are
parameters.
-/

open scoped BigOperators
open Classical

namespace Verif

section train
variable {X O F C U : Type}

/-- The defaults of `PPGA.__init__`, `PPGA.py:76-91`; `fit` passes only the problem and the population (`EvoNN.py:92`, `EvoDN2.py:112`). -/
def ppgaDefaults : PPGACfg := ⟨100, 50, 10, 10, 7, 20, 3⟩

/-- `while evolver.continue_evolution(): evolver.iterate()`, `EvoNN.py:98-105`, `EvoDN2.py:116-123`; the first argument bounds the number of iterations. -/
noncomputable def ppgaDrive (po : PPGAOps X O F C U) (pc : PPGACfg) : Nat → PPGA X O F C U → EARes Unit X O F C U Unit Lat Unit
  | 0, s => (.ok (), s)
  | fuel + 1, s =>
    if s.continueEvolution then
      match ppgaIterate po pc s with
      | (.error e, s) => (.error e, s)
      | (.ok _, s) => ppgaDrive po pc fuel s
    else (.ok (), s)

/-- The constructor call with a population size, `PPGA.py:76-91`: `BioGP.fit` passes its own (`BioGP.py:403-409`). -/
def ppgaFor (target : Nat) : PPGACfg := { ppgaDefaults with targetPop := target }

/-- The evolution inside `fit`, `EvoNN.py:91-106`, `EvoDN2.py:111-124`, `BioGP.py:403-418`: the evolver at the end.  The defaults are 10 iterations of 10
generations (`PPGA.py:82-83`); `BioGP.fit` passes the same numbers. -/
noncomputable def evolveTo (target : Nat) (po : PPGAOps X O F C U) (dPred dPrey : Nat → Nat) (p : Pop X O F C U) : Except Err (PPGA X O F C U) :=
  match ppgaConstruct (ppgaFor target) 10 10 dPred dPrey (some p) with
  | .error e => .error e
  | .ok s =>
    match ppgaDrive po (ppgaFor target) 10 s with
    | (.error e, _) => .error e
    | (.ok _, s) => .ok s

/-- The same with the default population size, `EvoNN.py:92`, `EvoDN2.py:112`. -/
noncomputable def evolve (po : PPGAOps X O F C U) (dPred dPrey : Nat → Nat) (p : Pop X O F C U) : Except Err (PPGA X O F C U) :=
  evolveTo 100 po dPred dPrey p

end train

/-- The random outcomes of one evolution, and the external sorting. -/
structure EvolveRand where
  dPred : Nat → Nat
  dPrey : Nat → Nat
  prey : Nat → PreyRand
  placeY : Nat → Nat → Nat
  placeX : Nat → Nat → Nat
  pred : Nat → PredRand
  nds : List (ℝ × ℝ) → List (List Bool)

/-! ## EvoNN -/

section nn
variable {r c : Nat}

/-- The regressor's data and settings, `EvoNN.py:34-67` (`self.X`, `self.y` from `fit`, 82-83).  `act = none`: an unknown activation function.  `lstsq` is
`np.linalg.lstsq(_, _)[0]`. -/
structure NNData (r c : Nat) where
  X : List (Fin r → ℝ)
  y : List ℝ
  act : Option (ℝ → ℝ)
  lstsq : List (Fin (c + 1) → ℝ) → List ℝ → Fin (c + 1) → ℝ
  loss : List ℝ → List ℝ → ℝ

/-- `self.activate(np.dot(X, first_layer[1:, :]) + first_layer[0])`, one sample, `EvoNN.py:151-152`. -/
noncomputable def nnHidden (act : ℝ → ℝ) (n : NNet (r + 1) c ℝ) (x : Fin r → ℝ) : Fin c → ℝ :=
  fun j => act ((∑ i : Fin r, x i * n i.succ j) + n 0 j)

/-- `calculate_linear`, `EvoNN.py:183-207`: a column of ones in front, then least squares. -/
noncomputable def nnLast (d : NNData r c) (act : ℝ → ℝ) (n : NNet (r + 1) c ℝ) : Fin (c + 1) → ℝ :=
  d.lstsq (d.X.map (fun x => Fin.cons 1 (nnHidden act n x))) d.y

/-- `np.dot(activated_layer, last_layer[1:, :]) + last_layer[0]`, one sample, `EvoNN.py:163`. -/
noncomputable def nnOutput (last : Fin (c + 1) → ℝ) (h : Fin c → ℝ) : ℝ := (∑ j : Fin c, h j * last j.succ) + last 0

/-- The predictions on the training data, `EvoNN.py:129-131,238` (last layer fitted to them). -/
noncomputable def nnTrainPred (d : NNData r c) (act : ℝ → ℝ) (n : NNet (r + 1) c ℝ) : List ℝ :=
  d.X.map (fun x => nnOutput (nnLast d act n) (nnHidden act n x))

/-- The two objectives of one network, `EvoNN.py:128-133`. -/
noncomputable def nnObjectives (d : NNData r c) (act : ℝ → ℝ) (n : NNet (r + 1) c ℝ) : ℝ × ℝ :=
  (d.loss d.y (nnTrainPred d act n), (nnComplexity n : ℝ))

/-- `surrogateProblem.evaluate` with `EvoNN._model_performance`, `Problem.py:12-14`, `EvoNN.py:111-138`. -/
noncomputable def nnEvaluate (d : NNData r c) (b : Batch (NNet (r + 1) c ℝ)) : Except Err (Results (ℝ × ℝ) (ℝ × ℝ) Unit Unit) :=
  if b.ndim = 3 ∨ b.ndim = 2 then
    match d.act with
    | none => if b.rows = [] then .ok ⟨[], [], none, none⟩ else .error .modelError
    | some act => .ok ⟨b.rows.map (nnObjectives d act), b.rows.map (nnObjectives d act), none, none⟩
  else .error .unboundLocalError

/-- `SurrogatePopulation.mate` with `EvoNNRecombination`, `Population.py:234-235`, `evonn_xover_mutation.py:137-242`.  Each generation takes five steps of the
clock, so `clock / 5` is the generation counter (theorem `c85_clock`); the total number of generations is 100, the mutation strength 1. -/
noncomputable def nnMate (mt : MutType) (draw : Nat → Nat → NNDraw (r + 1) c ℝ) (clock : Nat)
    (p : Pop (NNet (r + 1) c ℝ) (ℝ × ℝ) (ℝ × ℝ) Unit Unit) (mating : List (Int × Int)) : Except Err (Batch (NNet (r + 1) c ℝ)) :=
  match p.individuals with
  | none => .error .attributeError
  | some pop =>
    match nnDo mt (clock / 5) 100 (1 - ((clock / 5 : ℕ) : ℝ) / 100) (draw clock) pop (.pairs (mating.map (fun q => (q.1.toNat, q.2.toNat)))) with
    | .error e => .error e
    | .ok off => .ok ⟨3, off⟩

/-- The parts of PPGA while it trains an EvoNN. -/
noncomputable def nnOps (d : NNData r c) (mt : MutType) (draw : Nat → Nat → NNDraw (r + 1) c ℝ) (e : EvolveRand) :
    PPGAOps (NNet (r + 1) c ℝ) (ℝ × ℝ) (ℝ × ℝ) Unit Unit :=
  ⟨e.prey, e.placeY, e.placeX, e.pred, nnMate mt draw, fun _ b => nnEvaluate d b, e.nds, id⟩

/-- Number of non-zero weights of both layers, `EvoNN.py:240`. -/
noncomputable def nnWeights (d : NNData r c) (act : ℝ → ℝ) (n : NNet (r + 1) c ℝ) : Nat :=
  nnComplexity n + ((List.finRange (c + 1)).filter (fun j => nnLast d act n j ≠ 0)).length

/-- `aicc`, `EvoNN.py:241-244` (numpy's `-inf` for a perfect fit is not modelled). -/
noncomputable def nnAICc (d : NNData r c) (act : ℝ → ℝ) (n : NNet (r + 1) c ℝ) : ℝ :=
  let k : ℝ := nnWeights d act n
  let N : ℝ := d.y.length
  let rss := ((nnTrainPred d act n).zipWith (fun p y => (p - y) ^ 2) d.y).sum
  2 * k + N * Real.log (rss / N) + 2 * k * (k + 1) / (N - k - 1)

/-- The attributes `fit` writes and `predict` reads, `EvoNN.py:60-67`. -/
structure NNReg (r c : Nat) where
  population : Option (Pop (NNet (r + 1) c ℝ) (ℝ × ℝ) (ℝ × ℝ) Unit Unit)
  first : Option (NNet (r + 1) c ℝ)
  last : Option (Fin (c + 1) → ℝ)
  aicc : Option ℝ
  trained : Bool

/-- `EvoNN.select` and the last line of `fit`, `EvoNN.py:106-109,227-258`: `nnSelect` decides, the layers of the network chosen are stored. -/
noncomputable def nnFinish (d : NNData r c) (act : ℝ → ℝ) (crit : Criterion) (p : Pop (NNet (r + 1) c ℝ) (ℝ × ℝ) (ℝ × ℝ) Unit Unit) (s : NNReg r c) :
    Except Err Unit × NNReg r c :=
  let pop := p.individuals.getD []
  let scores := pop.zipWith (fun n o => (⟨nnWeights d act n, nnAICc d act n, o.1⟩ : NNScore ℝ)) p.objectives
  let res := nnFitEnd crit d.y.length scores ⟨none, s.aicc, s.trained⟩
  match res.2.chosen with
  | none => (res.1, { s with population := some p })
  | some i =>
    (res.1, { population := some p, first := pop[i]?, last := (pop[i]?).map (nnLast d act), aicc := res.2.aicc, trained := res.2.trained })

/-- `EvoNN.fit`, `EvoNN.py:68-109`. -/
noncomputable def nnFit (d : NNData r c) (crit : Criterion) (mt : MutType) (popSize : Nat) (u : Nat → Fin r → Fin c → ℝ)
    (zero : Nat → Fin (r + 1) → Fin c → Bool) (draw : Nat → Nat → NNDraw (r + 1) c ℝ) (e : EvolveRand) (s : NNReg r c) :
    Except Err Unit × NNReg r c :=
  if d.X.length ≠ d.y.length then (.error .modelError, s)
  else
    let initial : Batch (NNet (r + 1) c ℝ) := ⟨3, nnCreate u zero popSize⟩
    match (Pop.new 0).add initial (nnEvaluate d initial) with
    | (.error err, _) => (.error err, s)
    | (.ok _, p) =>
      match evolve (nnOps d mt draw e) e.dPred e.dPrey p, d.act with
      | .error err, _ => (.error err, s)
      | .ok _, none => (.error .modelError, s)
      | .ok t, some act => nnFinish d act crit t.pop s

/-- `EvoNN.predict(X)` for one sample, `EvoNN.py:140-167`. -/
noncomputable def nnPredictAt (act : ℝ → ℝ) (s : NNReg r c) (x : Fin r → ℝ) : Except Err ℝ :=
  if s.trained = false then .error .modelError
  else
    match s.first, s.last with
    | some f, some l => .ok (nnOutput l (nnHidden act f x))
    | _, _ => .error .typeError

end nn

/-! ## EvoDN2 -/

/-- The regressor's data and settings, `EvoDN2.py:29-74`.  The activation function is a known one. -/
structure DNData where
  X : List (List ℝ)
  y : List ℝ
  nVars : Nat
  act : ℝ → ℝ
  lstsq : List (List ℝ) → List ℝ → List ℝ
  loss : List ℝ → List ℝ → ℝ

/-- The penultimate outputs of all samples, `EvoDN2.py:158-174`. -/
noncomputable def dnPenult (d : DNData) (subsets : List (List Nat)) (n : DNet ℝ) : Except Err (List (List ℝ)) :=
  d.X.mapM (fun x => feedForward d.act x subsets n)

/-- A row of penultimate outputs times the last layer: `np.dot(previous_layer_output, linear_layer)` with the column of ones, `EvoDN2.py:193-199`; the
same as line 218-220 (`last[0]` is the bias). -/
noncomputable def dnOutput (last : List ℝ) (row : List ℝ) : ℝ :=
  ((List.range row.length).map (fun k => row.getD k 0 * last.getD (k + 1) 0)).sum + last.getD 0 0

/-- `_calculate_linear(...)[1]`, `EvoDN2.py:176-200`. -/
noncomputable def dnLast (d : DNData) (rows : List (List ℝ)) : List ℝ := d.lstsq (rows.map (fun row => 1 :: row)) d.y

/-- `_calculate_linear(...)[0]`, `EvoDN2.py:176-200`. -/
noncomputable def dnTrainPred (d : DNData) (rows : List (List ℝ)) : List ℝ := rows.map (dnOutput (dnLast d rows))

/-- The objectives of one network in a batch of several, `EvoDN2.py:144-150`. -/
noncomputable def dnObjectives (d : DNData) (subsets : List (List Nat)) (n : DNet ℝ) : Except Err (ℝ × ℝ) :=
  match dnPenult d subsets n with
  | .error e => .error e
  | .ok rows => .ok (d.loss d.y (dnTrainPred d rows), dnComplexity subsets n)

/-- `surrogateProblem.evaluate` with `EvoDN2._model_performance`, `Problem.py:12-14`, `EvoDN2.py:129-156`.  A batch of one is taken for a network and its subnets
for layers: `layer[1:, :]` on a list raises TypeError.  An empty batch is taken for a network without subnets: one row of objectives. -/
noncomputable def dnEvaluate (d : DNData) (subsets : List (List Nat)) (b : Batch (DNet ℝ)) : Except Err (Results (ℝ × ℝ) (ℝ × ℝ) Unit Unit) :=
  match b.rows with
  | [] =>
    match dnObjectives d subsets [] with
    | .error e => .error e
    | .ok row => .ok ⟨[row], [row], none, none⟩
  | [_] => .error .typeError
  | rows =>
    match rows.mapM (dnObjectives d subsets) with
    | .error e => .error e
    | .ok l => .ok ⟨l, l, none, none⟩

/-- `SurrogatePopulation.mate` with `EvoDN2Recombination`, `Population.py:234-235`, `evodn2_xover_mutation.py:138-234`. -/
noncomputable def dnMate (draw : Nat → Nat → Nat → Nat → DNDraw ℝ) (clock : Nat) (p : Pop (DNet ℝ) (ℝ × ℝ) (ℝ × ℝ) Unit Unit)
    (mating : List (Int × Int)) : Except Err (Batch (DNet ℝ)) :=
  match p.individuals with
  | none => .error .attributeError
  | some pop =>
    match dnDo 100 (draw clock) pop (.pairs (mating.map (fun q => (q.1.toNat, q.2.toNat)))) with
    | .error e => .error e
    | .ok off => .ok ⟨2, off⟩

/-- The parts of PPGA while it trains an EvoDN2. -/
noncomputable def dnOps (d : DNData) (subsets : List (List Nat)) (draw : Nat → Nat → Nat → Nat → DNDraw ℝ) (e : EvolveRand) :
    PPGAOps (DNet ℝ) (ℝ × ℝ) (ℝ × ℝ) Unit Unit :=
  ⟨e.prey, e.placeY, e.placeX, e.pred, dnMate draw, fun _ b => dnEvaluate d subsets b, e.nds, id⟩

/-- The attributes `fit` writes and `predict` reads, `EvoDN2.py:54-74`. -/
structure DNReg where
  subsets : Option (List (List Nat))
  population : Option (Pop (DNet ℝ) (ℝ × ℝ) (ℝ × ℝ) Unit Unit)
  subnets : Option (DNet ℝ)
  last : Option (List ℝ)
  complexity : Option ℝ
  trained : Bool

/-- `EvoDN2.select` and the last line of `fit`, `EvoDN2.py:124-127,222-234`. -/
noncomputable def dnFinish (d : DNData) (subsets : List (List Nat)) (minError : Bool) (p : Pop (DNet ℝ) (ℝ × ℝ) (ℝ × ℝ) Unit Unit) (s : DNReg) :
    Except Err Unit × DNReg :=
  let s := { s with population := some p }
  match dnSelect minError (p.objectives.map Prod.fst) with
  | .error e => (.error e, s)
  | .ok i =>
    match (p.individuals.getD [])[i]? with
    | none => (.error .indexError, s)
    | some n =>
      let s := { s with subnets := some n }
      match dnPenult d subsets n with
      | .error e => (.error e, s)
      | .ok rows => (.ok (), { s with last := some (dnLast d rows), complexity := some (dnComplexity subsets n), trained := true })

/-- `EvoDN2.fit`, `EvoDN2.py:75-127`. -/
noncomputable def dnFit (d : DNData) (minError : Bool) (popSize numSubnets maxLayers maxNodes : Nat) (sample : Nat → List Nat) (choose : Nat → Nat)
    (rnd : DNRand ℝ) (draw : Nat → Nat → Nat → Nat → DNDraw ℝ) (e : EvolveRand) (s : DNReg) : Except Err Unit × DNReg :=
  if d.X.length ≠ d.y.length then (.error .modelError, s)
  else
    match fitSubsets d.nVars numSubnets sample choose s.subsets with
    | .error err => (.error err, s)
    | .ok subsets =>
      let s := { s with subsets := some subsets }
      match dnCreate rnd popSize numSubnets maxLayers maxNodes subsets with
      | .error err => (.error err, s)
      | .ok nets =>
        match (Pop.new 0).add ⟨2, nets⟩ (dnEvaluate d subsets ⟨2, nets⟩) with
        | (.error err, _) => (.error err, s)
        | (.ok _, p) =>
          match evolve (dnOps d subsets draw e) e.dPred e.dPrey p with
          | .error err => (.error err, s)
          | .ok t => dnFinish d subsets minError t.pop s

/-- `EvoDN2.predict(X)` for one sample, `EvoDN2.py:215-220`; without `fit` the attribute `subnets` does not exist. -/
noncomputable def dnPredictAt (d : DNData) (s : DNReg) (x : List ℝ) : Except Err ℝ :=
  match s.subnets, s.subsets, s.last with
  | some n, some subsets, some last =>
    match feedForward d.act x subsets n with
    | .error e => .error e
    | .ok row => .ok (dnOutput last row)
  | none, _, _ => .error .attributeError
  | _, _, _ => .error .typeError

end Verif
