import Mathlib.Algebra.Order.Ring.Abs
import Mathlib.Algebra.BigOperators.Group.List.Basic
import Verif.Model.BioGP
import Verif.Model.MOEAD
import Verif.Model.NSGA3

/-!
# Model of the neural network surrogates: `surrogatemodels/EvoNN.py`, `surrogatemodels/EvoDN2.py` and their recombination operators

Weights lie in a commutative ring `K` (ordered where sizes matter).  Random draws are arguments: the connections chosen without
replacement are a predicate on positions, normally distributed factors an arbitrary table.  Training by least squares, the losses and
plotting are external.
-/

namespace Verif

/-! ## EvoNN -/

/-- One individual: the first layer, row 0 the bias, one column per hidden node (`EvoNN.py:209-225`). -/
abbrev NNet (r c : Nat) (K : Type) := Fin r → Fin c → K

variable {r c : Nat} {K : Type}

/-- Assignment to one column of a copy. -/
def setCol (a : NNet r c K) (j : Fin c) (v : Fin r → K) : NNet r c K := fun i k => if k = j then v i else a i k

/-- The crossover loop over the columns, `evonn_xover_mutation.py:163-168`; `draw j` is `random() < ProC`. -/
def swapCols (draw : Fin c → Bool) (a b : NNet r c K) : NNet r c K × NNet r c K :=
  (List.finRange c).foldl (fun s j => if draw j then (setCol s.1 j (fun i => s.2 i j), setCol s.2 j (fun i => s.1 i j)) else s) (a, b)

/-- Gaussian mutation of one offspring, `evonn_xover_mutation.py:175-197`: `hit` are the chosen connections, `val` the normal draws times
the mutation strength. -/
def gaussMut [Add K] [Mul K] (hit : Fin r → Fin c → Bool) (val : Fin r → Fin c → K) (a : NNet r c K) : NNet r c K :=
  fun i j => if hit i j then a i j + a i j * val i j else a i j

/-- Self-adapting mutation, `evonn_xover_mutation.py:206-235`: `factor` is `mutation_strength * (1 - cur_gen / total_gen)`. -/
def selfAdaptMut [Add K] [Mul K] [Sub K] (hit : Fin r → Fin c → Bool) (factor : K) (s0 s1 a : NNet r c K) : NNet r c K :=
  fun i j => if hit i j then a i j + factor * (s1 i j - s0 i j) else a i j

/-- The `mutation_type` argument. -/
inductive MutType | gaussian | selfAdapting | other
deriving DecidableEq

/-- The random draws for one pair of mates. -/
structure NNDraw (r c : Nat) (K : Type) where
  swap : Fin c → Bool
  mut1 : Fin r → Fin c → Bool
  val1 : Fin r → Fin c → K
  mut2 : Fin r → Fin c → Bool
  val2 : Fin r → Fin c → K
  /-- the two individuals of each self-adapting mutation -/
  pick1 : Nat × Nat
  pick2 : Nat × Nat

/-- The two individuals drawn by `np.random.choice(np.nonzero(pop)[0], 2)`, `evonn_xover_mutation.py:207-209`: any two with a non-zero
weight; ValueError if there is none. -/
def drawTwo [Zero K] [DecidableEq K] (pop : List (NNet r c K)) (p : Nat × Nat) : Except Err (NNet r c K × NNet r c K) :=
  let live := pop.filter (fun n => decide (∃ i j, n i j ≠ 0))
  match pick live p.1, pick live p.2 with
  | .ok x, .ok y => .ok (x, y)
  | _, _ => .error .valueError

/-- One pair of mates, `evonn_xover_mutation.py:158-240`.  `negative`: is `std_dev` negative (then `np.random.normal` raises)? -/
def nnPair [Add K] [Mul K] [Sub K] [Zero K] [DecidableEq K] (mt : MutType) (negative : Bool) (factor : K) (pop : List (NNet r c K))
    (d : NNDraw r c K) (a b : NNet r c K) : Except Err (NNet r c K × NNet r c K) :=
  let s := swapCols d.swap a b
  match mt with
  | .gaussian => if negative then .error .valueError else .ok (gaussMut d.mut1 d.val1 s.1, gaussMut d.mut2 d.val2 s.2)
  | .selfAdapting =>
    match drawTwo pop d.pick1, drawTwo pop d.pick2 with
    | .ok x, .ok y => .ok (selfAdaptMut d.mut1 factor x.1 x.2 s.1, selfAdaptMut d.mut2 factor y.1 y.2 s.2)
    | _, _ => .error .valueError
  | .other => .ok s

/-- The loop over the pairs. -/
def nnPairs [Add K] [Mul K] [Sub K] [Zero K] [DecidableEq K] (mt : MutType) (negative : Bool) (factor : K) (pop : List (NNet r c K))
    (draw : Nat → NNDraw r c K) : Nat → List (Nat × Nat) → Except Err (List (NNet r c K))
  | _, [] => .ok []
  | k, p :: ps =>
    match pop[p.1]?, pop[p.2]? with
    | some a, some b =>
      match nnPair mt negative factor pop (draw k) a b with
      | .error e => .error e
      | .ok o =>
        match nnPairs mt negative factor pop draw (k + 1) ps with
        | .error e => .error e
        | .ok os => .ok (o.1 :: o.2 :: os)
    | _, _ => .error .indexError

/-- How the mates are given: nothing (then all, shuffled), a flat list of ids, or pairs. -/
inductive Mates | all (shuffled : List Nat) | flat (ids : List Nat) | pairs (ps : List (Nat × Nat))

/-- `evonn_xover_mutation.py:141-155`, `evodn2_xover_mutation.py:142-156`: flat ids are paired with themselves. -/
def Mates.toPairs : Mates → List (Nat × Nat)
  | .all ids => selfPairs ids
  | .flat ids => selfPairs ids
  | .pairs ps => ps

/-- `EvoNNRecombination.do`, `evonn_xover_mutation.py:137-242`; `factor` stands for
`mutation_strength * (1 - cur_gen / total_gen)`. -/
def nnDo [Add K] [Mul K] [Sub K] [Zero K] [DecidableEq K] (mt : MutType) (cur total : Nat) (factor : K) (draw : Nat → NNDraw r c K)
    (pop : List (NNet r c K)) (mates : Mates) : Except Err (List (NNet r c K)) :=
  if total = 0 then .error .zeroDivisionError
  else nnPairs mt (decide (total < cur)) factor pop draw 0 mates.toPairs

/-- `np.count_nonzero(first_layer)`, the second objective, `EvoNN.py:133,137`. -/
def nnComplexity [Zero K] [DecidableEq K] (n : NNet r c K) : Nat :=
  ((List.finRange r).map (fun i => ((List.finRange c).filter (fun j => n i j ≠ 0)).length)).sum

/-- `EvoNN._create_individuals`, `EvoNN.py:209-225`: uniform weights `u`, a bias row of ones on top, then `zero` connections (anywhere,
bias included) set to zero. -/
def nnCreate [Zero K] [One K] (u : Nat → Fin r → Fin c → K) (zero : Nat → Fin (r + 1) → Fin c → Bool) (popSize : Nat) :
    List (NNet (r + 1) c K) :=
  (List.range popSize).map (fun n => fun i j => if zero n i j then 0 else Fin.cases 1 (fun k => u n k j) i)

/-- The design "EvoNN" of `create_new_individuals`, `CreateIndividuals.py:59-87`: zeros first, then the bias row. -/
def nnDesign [Zero K] [One K] (u : Nat → Fin r → Fin c → K) (zero : Nat → Fin r → Fin c → Bool) (popSize : Nat) :
    List (NNet (r + 1) c K) :=
  (List.range popSize).map (fun n => fun i j => Fin.cases 1 (fun k => if zero n k j then 0 else u n k j) i)

/-- `model_selection_criterion`. -/
inductive Criterion | minError | akaike | other
deriving DecidableEq

/-- What `select` knows of an individual when it computes its AICc: the number of non-zero weights `k` of both layers (`EvoNN.py:240`),
the value of `aic + ...` (a function of the residuals, which are external), its training error. -/
structure NNScore (K : Type) where
  k : Nat
  aicc : K
  error : K

/-- The loop computing `aicc` of each individual, `EvoNN.py:233-245`: the last divisor is `num_samples - k - 1`, an integer. -/
def aiccLoop (samples : Nat) : List (NNScore K) → Except Err (List K)
  | [] => .ok []
  | s :: ss =>
    if samples = s.k + 1 then .error .zeroDivisionError
    else
      match aiccLoop samples ss with
      | .error e => .error e
      | .ok l => .ok (s.aicc :: l)

/-- The attributes of the regressor that `select` and `fit` write. -/
structure NNState (K : Type) where
  chosen : Option Nat
  aicc : Option K
  trained : Bool

/-- `EvoNN.select`, `EvoNN.py:227-258`.  `selected = np.argmin(aicc)` is applied to the last number, not to `aicc_array`: it is 0.  With
criterion "min_error" `aicc_array` is empty at line 258.  The chosen first layer is stored before the last line. -/
def nnSelect [LinearOrder K] (crit : Criterion) (samples : Nat) (pop : List (NNScore K)) (s : NNState K) : Except Err Unit × NNState K :=
  match crit with
  | .minError =>
    match argminL (pop.map (fun p => p.error)) with
    | .error e => (.error e, s)
    | .ok i => (.error .indexError, { s with chosen := some i })
  | .akaike =>
    match aiccLoop samples pop with
    | .error e => (.error e, s)
    | .ok [] => (.error .unboundLocalError, s)
    | .ok (a :: _) => (.ok (), { s with chosen := some 0, aicc := some a })
  | .other => (.error .unboundLocalError, s)

/-- The end of `EvoNN.fit`, `EvoNN.py:106-109`. -/
def nnFitEnd [LinearOrder K] (crit : Criterion) (samples : Nat) (pop : List (NNScore K)) (s : NNState K) : Except Err Unit × NNState K :=
  match nnSelect crit samples pop s with
  | (.error e, s) => (.error e, s)
  | (.ok _, s) => (.ok (), { s with trained := true })

/-- `EvoNN.predict(X)`: which individual's layers it uses, `EvoNN.py:140-167`. -/
def nnPredict (s : NNState K) : Except Err (Option Nat) := if s.trained then .ok s.chosen else .error .modelError

/-! ## EvoDN2 -/

/-- One weight matrix, row 0 the bias; `w` is its `ravel()`. -/
structure Layer (K : Type) where
  rows : Nat
  cols : Nat
  w : List K
deriving DecidableEq

/-- Entry of a matrix. -/
def Layer.at [Zero K] (l : Layer K) (i j : Nat) : K := l.w.getD (i * l.cols + j) 0

/-- `a.ravel()[p] = b.ravel()[p]` for the positions satisfying `p`. -/
def takeFrom (p : Nat → Bool) (a b : List K) : List K := a.mapIdx (fun k x => if p k then (b[k]?).getD x else x)

/-- Crossover of two layers, `evodn2_xover_mutation.py:176-186`: `ex` are the exchanged positions, drawn below the smaller size. -/
def crossLayers (ex : Nat → Bool) (a b : Layer K) : Layer K × Layer K :=
  let p := fun k => ex k && decide (k < min a.w.length b.w.length)
  ({ a with w := takeFrom p a.w b.w }, { b with w := takeFrom p b.w a.w })

/-- Gaussian mutation of a layer, `evodn2_xover_mutation.py:192-207,213-228`. -/
def mutLayer [Add K] [Mul K] (hit : Nat → Bool) (val : Nat → K) (l : Layer K) : Layer K :=
  { l with w := l.w.mapIdx (fun k x => if hit k then x + x * val k else x) }

/-- Random draws for one layer of one subnet. -/
structure DNDraw (K : Type) where
  ex : Nat → Bool
  mut1 : Nat → Bool
  val1 : Nat → K
  mut2 : Nat → Bool
  val2 : Nat → K

/-- The loop over the layers of a subnet, `evodn2_xover_mutation.py:173-231`: beyond the last layer of the shorter subnet the indexing
raises IndexError, which is caught, and only the longer one is mutated. -/
def dnSubnet [Add K] [Mul K] (d : Nat → DNDraw K) : Nat → List (Layer K) → List (Layer K) → List (Layer K) × List (Layer K)
  | _, [], [] => ([], [])
  | k, a :: as, [] => (mutLayer (d k).mut1 (d k).val1 a :: (dnSubnet d (k + 1) as []).1, [])
  | k, [], b :: bs => ([], mutLayer (d k).mut2 (d k).val2 b :: (dnSubnet d (k + 1) [] bs).2)
  | k, a :: as, b :: bs =>
    let x := crossLayers (d k).ex a b
    let t := dnSubnet d (k + 1) as bs
    (mutLayer (d k).mut1 (d k).val1 x.1 :: t.1, mutLayer (d k).mut2 (d k).val2 x.2 :: t.2)

/-- An individual: a list of subnets, each a list of layers (`EvoDN2.py:236-269`). -/
abbrev DNet (K : Type) := List (List (Layer K))

/-- The loop over the subnets of a pair, `evodn2_xover_mutation.py:168-231`: over those of the first mate; IndexError if the second has
fewer. -/
def dnPair [Add K] [Mul K] (d : Nat → Nat → DNDraw K) : Nat → DNet K → DNet K → Except Err (DNet K × DNet K)
  | _, [], bs => .ok ([], bs)
  | _, _ :: _, [] => .error .indexError
  | k, a :: as, b :: bs =>
    match dnPair d (k + 1) as bs with
    | .error e => .error e
    | .ok t => .ok ((dnSubnet (d k) 0 a b).1 :: t.1, (dnSubnet (d k) 0 a b).2 :: t.2)

/-- The loop over the pairs. -/
def dnPairs [Add K] [Mul K] (draw : Nat → Nat → Nat → DNDraw K) (pop : List (DNet K)) : Nat → List (Nat × Nat) → Except Err (List (DNet K))
  | _, [] => .ok []
  | k, p :: ps =>
    match pop[p.1]?, pop[p.2]? with
    | some a, some b =>
      match dnPair (draw k) 0 a b with
      | .error e => .error e
      | .ok o =>
        match dnPairs draw pop (k + 1) ps with
        | .error e => .error e
        | .ok os => .ok (o.1 :: o.2 :: os)
    | _, _ => .error .indexError

/-- `EvoDN2Recombination.do`, `evodn2_xover_mutation.py:138-234` (a negative `std_dev` is set to 0 there, so `np.random.normal` does not
raise; numpy's conversion of nested lists to an object array is not modelled). -/
def dnDo [Add K] [Mul K] (total : Nat) (draw : Nat → Nat → Nat → DNDraw K) (pop : List (DNet K)) (mates : Mates) : Except Err (List (DNet K)) :=
  if total = 0 then .error .zeroDivisionError else dnPairs draw pop 0 mates.toPairs

/-- One layer for one sample, `EvoDN2.py:167,169`: product with the rows below the bias, plus bias, activated; ValueError when the
dimensions differ. -/
def layerOut [Zero K] [Add K] [Mul K] (act : K → K) (l : Layer K) (feed : List K) : Except Err (List K) :=
  if feed.length + 1 = l.rows then
    .ok ((List.range l.cols).map (fun j => act (((List.range feed.length).map (fun k => feed.getD k 0 * l.at (k + 1) j)).sum + l.at 0 j)))
  else .error .valueError

/-- The layers of a subnet, `EvoDN2.py:165-169`. -/
def subnetOut [Zero K] [Add K] [Mul K] (act : K → K) : List (Layer K) → List K → Except Err (List K)
  | [], feed => .ok feed
  | l :: ls, feed =>
    match layerOut act l feed with
    | .error e => .error e
    | .ok o => subnetOut act ls o

/-- The output part of `_feed_forward` for one sample `x`, `EvoDN2.py:158-174`: `subsets[i]` selects the inputs of subnet `i`. -/
def feedForward [Zero K] [Add K] [Mul K] (act : K → K) (x : List K) : List (List Nat) → DNet K → Except Err (List K)
  | _, [] => .ok []
  | [], _ :: _ => .error .indexError
  | sub :: subs, net :: nets =>
    match takeRows x sub with
    | none => .error .indexError
    | some feed =>
      match subnetOut act net feed with
      | .error e => .error e
      | .ok o =>
        match feedForward act x subs nets with
        | .error e => .error e
        | .ok os => .ok (o ++ os)

/-- `np.dot(subnet_complexity, np.abs(layer[1:, :]))` for a matrix, `EvoDN2.py:168`. -/
def absDot [Ring K] [Lattice K] (A : Nat → Nat → K) (l : Layer K) : Nat → Nat → K :=
  fun i j => ((List.range (l.rows - 1)).map (fun k => A i k * |l.at (k + 1) j|)).sum

/-- The matrix `subnet_complexity` after the layers, `EvoDN2.py:164-168`; `none` is the number 1 it starts with. -/
def complexityMatrix [Ring K] [Lattice K] : List (Layer K) → Option (Nat → Nat → K) → Option (Nat → Nat → K)
  | [], A => A
  | l :: ls, none => complexityMatrix ls (some (fun i j => |l.at (i + 1) j|))
  | l :: ls, some A => complexityMatrix ls (some (absDot A l))

/-- `np.sum(subnet_complexity)`, `EvoDN2.py:170`, of a subnet with `n` inputs. -/
def subnetComplexity [Ring K] [Lattice K] (n : Nat) (ls : List (Layer K)) : K :=
  match complexityMatrix ls none with
  | none => 1
  | some A => ((List.range n).map (fun i => ((List.range ((ls.getLast?.map (fun l => l.cols)).getD 0)).map (fun j => A i j)).sum)).sum

/-- The complexity part of `_feed_forward`, `EvoDN2.py:159-173`. -/
def dnComplexity [Ring K] [Lattice K] (subsets : List (List Nat)) (n : DNet K) : K :=
  (List.zipWith (fun sub net => subnetComplexity sub.length net) subsets n).sum

/-- Random draws of the design: number of layers (from 1 to `max_layers - 1`), nodes of each layer, weights, zeros. -/
structure DNRand (K : Type) where
  layers : Nat → Nat → Nat
  nodes : Nat → Nat → Nat → Nat
  u : Nat → Nat → Nat → Nat → K
  zero : Nat → Nat → Nat → Nat → Bool

/-- One layer of the design, `EvoDN2.py:247-261`: uniform weights, some set to zero, a bias row of ones on top. -/
def dnLayer [Zero K] [One K] (inN outN : Nat) (u : Nat → K) (zero : Nat → Bool) : Layer K :=
  ⟨inN + 1, outN, List.replicate outN 1 ++ (List.range (inN * outN)).map (fun k => if zero k then 0 else u k)⟩

/-- The layers of one subnet, `EvoDN2.py:244-263`: each as wide as the one before is tall. -/
def dnLayers [Zero K] [One K] (nodes : Nat → Nat) (u : Nat → Nat → K) (zero : Nat → Nat → Bool) : Nat → Nat → Nat → List (Layer K)
  | 0, _, _ => []
  | n + 1, k, inN => dnLayer inN (nodes k) (u k) (zero k) :: dnLayers nodes u zero n (k + 1) (nodes k)

/-- `EvoDN2._create_individuals`, `EvoDN2.py:236-269` (and `CreateIndividuals.py:99-131`): `np.random.randint(1, max_layers)` excludes
`max_layers` and raises ValueError if nothing is left, so does `random.randint(2, max_nodes)`.  IndexError if there are fewer subsets
than subnets. -/
def dnCreate [Zero K] [One K] (rnd : DNRand K) (popSize numSubnets maxLayers maxNodes : Nat) (subsets : List (List Nat)) :
    Except Err (List (DNet K)) :=
  if popSize = 0 ∨ numSubnets = 0 then .ok (List.replicate popSize [])
  else if maxLayers ≤ 1 then .error .valueError
  else if subsets = [] then .error .indexError
  else if maxNodes < 2 then .error .valueError
  else if subsets.length < numSubnets then .error .indexError
  else
    .ok ((List.range popSize).map (fun i => (subsets.take numSubnets).zipIdx.map (fun p =>
      dnLayers (fun k => 2 + rnd.nodes i p.2 k % (maxNodes - 1)) (fun k => rnd.u i p.2 k) (fun k => rnd.zero i p.2 k)
        (1 + rnd.layers i p.2 % (maxLayers - 1)) 0 p.1.length)))

/-- The loop making sure that every variable is used, `EvoDN2.py:99-101`, over the given variables; `choose v` is
`randint(0, num_subnets - 1)`. -/
def coverVars (choose : Nat → Nat) : List Nat → List (List Nat) → Except Err (List (List Nat))
  | [], subs => .ok subs
  | v :: vs, subs =>
    if subs.any (fun s => s.contains v) then coverVars choose vs subs
    else if subs.length = 0 then .error .valueError
    else coverVars choose vs (subs.modify (choose v % subs.length) (fun s => s ++ [v]))

/-- The subsets made or kept by `fit` for data with `nVars` variables, `EvoDN2.py:89-101`.  `sample i` is
`random.sample(range(n_vars), n)`, with `n` drawn from 1 to `n_vars` (ValueError if there are no variables). -/
def fitSubsets (nVars numSubnets : Nat) (sample : Nat → List Nat) (choose : Nat → Nat) (subsets : Option (List (List Nat))) :
    Except Err (List (List Nat)) :=
  match subsets with
  | some s => .ok s
  | none =>
    if nVars = 0 ∧ 0 < numSubnets then .error .valueError
    else coverVars choose (List.range nVars) ((List.range numSubnets).map sample)

/-- `EvoDN2.select`, `EvoDN2.py:222-234`: the individual chosen, given the training errors. -/
def dnSelect [LinearOrder K] (minError : Bool) (errors : List K) : Except Err Nat := if minError then argminL errors else .error .modelError

end Verif
