import Verif.Model.EvoNets
import Verif.Model.BioGPTrain

/-!
# Model of the module functions `mate` and `mutate` of the surrogates' recombination modules

`recombination/evonn_xover_mutation.py:5-119`, `recombination/evodn2_xover_mutation.py:6-122`, `recombination/biogp_xover.py:7-84` and
`recombination/biogp_mutation.py:5-78`.  Beside the classes (`Model/EvoNets`, `Model/BioGPTrain`) each module has these functions, which take the individuals as a
list, the settings as a dictionary, and choose mates in another way.  Indices of mates are natural numbers (a negative one would count from the end).
-/

namespace Verif

/-- `mating_pop` when it is None: every individual with a random one, `biogp_xover.py:40-43`, `evonn_xover_mutation.py:36-39`,
`evodn2_xover_mutation.py:37-40`; `draw i` is the outcome of `np.random.randint`. -/
def matingPop (n : Nat) (draw : Nat → Nat) (mates : Option (List (Nat × Nat))) : List (Nat × Nat) :=
  mates.getD ((List.range n).map (fun i => (i, draw i % n)))

/-- The loop over the pairs: copies of the two mates, the operator, both results appended, `biogp_xover.py:47-84`, `evonn_xover_mutation.py:43-119`,
`evodn2_xover_mutation.py:47-117`.  The first argument of the operator counts the pairs. -/
def pairLoop {A : Type} (f : Nat → A → A → Except Err (A × A)) (pop : List A) : Nat → List (Nat × Nat) → Except Err (List A)
  | _, [] => .ok []
  | k, p :: ps =>
    match pop[p.1]?, pop[p.2]? with
    | some a, some b =>
      match f k a b with
      | .error e => .error e
      | .ok o =>
        match pairLoop f pop (k + 1) ps with
        | .error e => .error e
        | .ok os => .ok (o.1 :: o.2 :: os)
    | _, _ => .error .indexError

/-- `std_dev`, `evonn_xover_mutation.py:32-34`, `evodn2_xover_mutation.py:33-35`: not below zero. -/
noncomputable def stdDev (cur total : ℝ) : ℝ :=
  open Classical in
  let s := (5 / 3) * (1 - cur / total)
  if s < 0 then 0 else s

/-- The draws of one pair with the values of `np.random.normal(0, std_dev, n) * mut_strength`: standard normal numbers times both,
`evonn_xover_mutation.py:62,71`. -/
def NNDraw.scaled {r c : Nat} (d : NNDraw r c ℝ) (sd strength : ℝ) : NNDraw r c ℝ :=
  { d with val1 := fun i j => sd * d.val1 i j * strength, val2 := fun i j => sd * d.val2 i j * strength }

/-- `mate` of `evonn_xover_mutation.py:5-119` (`mutation_type` None is "gaussian"). -/
noncomputable def nnMateFn {r c : Nat} (mt : MutType) (cur total : ℝ) (strength : ℝ) (draw : Nat → NNDraw r c ℝ) (partner : Nat → Nat)
    (pop : List (NNet r c ℝ)) (mates : Option (List (Nat × Nat))) : Except Err (List (NNet r c ℝ)) :=
  open Classical in
  if total = 0 then .error .zeroDivisionError
  else
    pairLoop (fun k a b => nnPair mt false (strength * (1 - cur / total)) pop ((draw k).scaled (stdDev cur total) strength) a b) pop 0
      (matingPop pop.length partner mates)

/-- The draws of one layer scaled, `evodn2_xover_mutation.py:81-83,101-103`. -/
def DNDraw.scaled (d : DNDraw ℝ) (sd strength : ℝ) : DNDraw ℝ :=
  { d with val1 := fun k => sd * d.val1 k * strength, val2 := fun k => sd * d.val2 k * strength }

/-- `mate` of `evodn2_xover_mutation.py:6-122`: only Gaussian mutation is known; any other type gives no offspring at all (`:119-120`). -/
noncomputable def dnMateFn (gaussian : Bool) (cur total : ℝ) (strength : ℝ) (draw : Nat → Nat → Nat → DNDraw ℝ) (partner : Nat → Nat)
    (pop : List (DNet ℝ)) (mates : Option (List (Nat × Nat))) : Except Err (List (DNet ℝ)) :=
  open Classical in
  if total = 0 then .error .zeroDivisionError
  else if gaussian then
    pairLoop (fun k a b => dnPair (fun i j => (draw k i j).scaled (stdDev cur total) strength) 0 a b) pop 0 (matingPop pop.length partner mates)
  else .ok []

/-- Which crossover the one draw selects, `biogp_xover.py:34-38,53,67`. -/
noncomputable def xKindFn (pXover r : ℝ) : XKind :=
  open Classical in
  if r ≤ pXover - 1 / 2 then .fair else if r ≤ (pXover - 1 / 2) + 1 / 2 then .standard else .none

/-- `mate` of `biogp_xover.py:7-84`. -/
noncomputable def gpMateFn (pXover r : ℝ) (draw : Nat → Nat × Nat) (partner : Nat → Nat) (inds : List GTree) (mates : Option (List (Nat × Nat))) :
    Except Err (List GTree) :=
  pairLoop (fun k a b => xoverPair (xKindFn pXover r) a b (draw k).1 (draw k).2) inds 0 (matingPop inds.length partner mates)

/-- Which mutation the one draw selects, `biogp_mutation.py:30-35,38,54,66`. -/
noncomputable def mKindFn (pMut r : ℝ) : MKind :=
  open Classical in
  if r ≤ 1 / 3 * pMut then .standard
  else if r ≤ 1 / 3 * pMut + 1 / 3 * pMut then .point
  else if r ≤ (pMut - 1 / 3 * pMut - 1 / 3 * pMut) + 1 / 3 * pMut + 1 / 3 * pMut then .mono
  else .none

/-- The loop of `mutate`, `biogp_mutation.py:37-78`: the individuals are changed in place one after the other, so those before one that raises are changed. -/
def mutateLoop (k : MKind) (c : GPCfg GFn GTerm) (draw : Nat → MutRand) : Nat → List GTree → Except Err Unit × List GTree
  | _, [] => (.ok (), [])
  | i, t :: ts =>
    match mutateTree k c (draw i) t with
    | .error e => (.error e, t :: ts)
    | .ok o => let s := mutateLoop k c draw (i + 1) ts; (s.1, o :: s.2)

/-- `mutate` of `biogp_mutation.py:5-78`: returns None; the second component is the list of individuals afterwards. -/
noncomputable def gpMutateFn (pMut r : ℝ) (c : GPCfg GFn GTerm) (draw : Nat → MutRand) (off : List GTree) : Except Err Unit × List GTree :=
  mutateLoop (mKindFn pMut r) c draw 0 off

end Verif
