# Formal model of desdeo-emo: design

Source: `/repo` (industrial-optimization-group/desdeo-emo, read as text only, never run).
Properties: `properties.jsonl` (C01…). Status per property: `MANIFEST.json`.
Mutation testing log: `seeded/LOG.jsonl`.

## Layout of the Lean development (`lean/Verif`)

* `Model/*.lean` – the model: small total functions mirroring the Python functions branch by
  branch. Each definition cites the file and lines it models and says what is simplified.
* `Spec/*.lean` – small specifications, written without the model's helpers (Pareto dominance,
  lists of records, compositions of a natural number, …).
* `Proofs/*.lean` – helper lemmas.
* `Props/*.lean` – the property theorems, each followed by an `example` showing that a concrete
  non-trivial case meets its hypotheses. Theorems showing that the code *violates* a claim are
  named `…_violated` / `…_counterexample` and are about concrete reachable inputs.

## Modelling conventions

* numpy arrays are `List`s of rows; a row is an abstract type when the code never looks inside,
  a `List` when it does. Column-count mismatches inside one array (ragged arrays) are excluded by
  the row type or by explicit hypotheses.
* Python exceptions are values (`Except Err α`); where the property is about what survives an
  exception, the operation returns the pair (outcome, new state), so partial mutation is visible.
* numpy indexing is modelled with negative indices and IndexError; boolean indexing with the
  length check numpy performs.
* Randomness (np.random.*, random.*) is an explicit argument (the drawn values), universally
  quantified subject only to the range the library guarantees.
* Code that only compares floats is modelled over an arbitrary linear order (so the theorems hold
  for NaN-free floats as such). Code that computes is modelled over ordered fields or ℝ:
  **rounding is not modelled**, except in `Model/Floats` (C109). Where NaN decides control flow (`nanmin`, clipping) the value type is
  `Option` with `none` = NaN.
* `while` loops become recursion on a measure or on fuel, with a theorem that the fuel suffices.
* External code (`desdeo_problem`'s `evaluate`, `desdeo_tools`' `dominates`, `non_dominated`,
  `fast_non_dominated_sort`, scalarisers, indicators, `pyDOE.lhs`, `np.argsort`, `np.linalg.solve`)
  is not in `/repo`. Each is either an arbitrary function parameter, or a parameter with a stated
  contract. For `dominates`/`non_dominated`/`fast_non_dominated_sort` an executable reference
  implementation is also given and proved to meet the contract, so contracts are satisfiable.

## Per property plan

| Property | Modelled | Proof |
|---|---|---|
| C01 alignment | `Population.add/keep/delete/replace` as struct-of-columns with error+state results | refinement to `List Record`, induction over operation histories |
| C02–C05 keep/delete/add/replace | same model | direct list theorems against index-set specs |
| C06 repair | `Population.repair`, NaN as `none` | pointwise clamp spec |
| C07–C09 archive | `check_domination` double loop, `start`, `non_dominated_archive` | loop invariants, induction over batches; counterexample for C09 |
| C10–C12 loop and counters | `iterate`, `continue_*`, `check_FE_count`, generation bodies as parameters with their counter updates | induction; termination by fuel-free recursion on remaining generations |
| C13–C15 interaction protocol | `start`, `set_interaction_type`, `manage_preferences`, requests as a state machine | case analysis + induction over call sequences |
| C16, C17 construction | `BaseDecompositionEA.__init__`, lattice search | decision logic; binomial identities |
| C18 keep_archive | `pre_iteration`, `end` | induction over iterations |
| C19 end() | `end`, `non_dominated` | list filter spec |
| C20–C22 lattice | `_create("Uniform")` through `itertools.combinations` | bijection with compositions; binomial count; monotone search |
| C23–C25 adaptation | `adapt`, `interactive_adapt_1/2/3/4`, `add_edge_vectors` | algebra over ℝ, induction over histories |
| C26 rotation | `rotate`, `householder` | real inner product algebra |
| C27–C32 APD/RVEA | `APD_Select.do`, `_partial_penalty_factor`, `RVEA.__init__` | list reasoning over a linear order with NaN; real arithmetic |
| C33–C36 NSGA-III | `NSGAIII_select.do`, `niching`, `calc_niche_count` | loop invariants, for all random outcomes |
| C37–C39 MOEA/D | `_next_gen`, `MOEAD_select` | induction over subproblems |
| C40–C44 variation and designs | SBX, polynomial mutation, single point operators, `create_new_individuals`, `mate` | real arithmetic (rpow), induction over generations |
| C45–C47 indicator EAs | `BaseIndicatorEA._next_gen`, `IBEA`, `PBEA`, `TournamentSelection` | loop invariant over ordered additive groups |
| C48–C49 PPGA | `Lattice` | state invariant over all operations |
| C55–C56 PPGA hunting, killing | `Lattice.move_predator`, `PPGA.select`, `_next_gen`, constructor, `iterate` | loop specifications composed into a run invariant |
| C50 BioGP | `Node` trees | structural induction |
| C57–C59 BioGP operators | `BioGP_xover`, `BioGP_mutation`, pruning loop of `calculate_linear` | positions in trees (`at?`, `put`) |
| C51 remove_duplicate | numpy `unique`/`delete` as index computations | list reasoning; counterexample |
| C52 IOPIS | `update_ideal`, `reevaluate_fitness` | fold invariant, induction over call histories |
| C60 model management | `ikrvea_mm` with `argpartition` as contract | list reasoning for every partition; violation for every partition |
| C61 IOPIS preferences | `IOPISProblem.__init__`, `manage_preferences` | case analysis |
| C62 RVEA runs | `EA` loop with `apdDo`, `mateAll`, `RV` filled in (`Model/Runs.lean`) | invariant `Alive` over histories of calls |
| C63 NSGA-III runs | the same with `nsgaDo` | invariant; deviation for small initial populations |
| C64 preference in force | the loop again | exchange of the selection operator: one that agrees on the given vectors cannot be told apart |
| C65 EvoNN recombination | `EvoNNRecombination.do`, the designs; matrices over a ring, draws as predicates | induction over `Bred` histories |
| C66 EvoNN selection | `EvoNN.select`, end of `fit`, `predict`; AICc values external | case analysis; two violations of the documentation |
| C67 EvoDN2 architectures | `_create_individuals`, `EvoDN2Recombination.do`, `_feed_forward` on ragged networks | invariant (dimensions) over `Bred` histories |
| C68 EvoDN2 subsets | `fit`'s subset construction | induction over the covering loop |
| C69 EvoDN2 complexity | `_feed_forward`'s complexity, `select` | relational induction over the layers (two samples at once) |
| C70 selection types | `_calculate_fitness` inside the two selections | unfolding: equality of two runs |
| C71 neighbouring angles | `neighbouring_angles` over ℝ | permutation and order of the sorted cosines; Cauchy-Schwarz |
| C53 rotate_toward | `rotate_toward` over ℝ | trigonometry, inner product algebra |
| C54 NSGA-III nadir | `get_nadir_point`, `get_extreme_points_c` with `linalg.solve` as oracle | component-wise order reasoning |
| C72 IOPIS EAs | constructors and calls of `EAs/IOPIS.py` | invariant over all histories: nothing ever runs |
| C73 TournamentEA, IK_RVEA | `_next_gen`, `BioGP.fit`'s loop, constructor | unfolding; loop with a body that raises |
| C74 MOEA/D runs | `EA` loop with `moeadNextGen`, `moeadAdapt`, `moeadRespond` (`Model/MoeadRun.lean`) | invariants `Kept`, `FreshVec` over histories of calls; loop whose body always raises |
| C75 BioGP prediction | `nodePredict`, `gpPredict` with views and fresh arrays (`Model/BioGPPredict.lean`) | mutual induction over trees: frame after prediction, values without zeros, simulation row by row; concrete violations |
| C76 BioGP fitting | `calculateLinear`, `modelPerformance`; least squares and QR ratios are oracles | C75 lemmas, C59 pruning; count of function nodes via `subNodes`; concrete violation |
| C77 focused vectors | `FRV.construct`, `shearRow`, `rotateN`, `signs` (`Model/Focused.lean`); rows that numpy fills with NaN are `none` | shear geometry over ℝ, rigidity of the reflections (C26), angle by arccos |
| C78 slow adaptation | `FRV.slowAdapt`, `rotateTowardN` | turn by exactly five degrees (C26/C53 lemmas), invariant over call histories, induction on the number of steps; concrete NaN and LinAlgError cases |
| C79 elitism of the indicator EAs | `fitnessAssign`, `envUpdate`, `envLoop` (C45), the indicator a parameter with the contract `RespectsDominance`; the additive epsilon indicator (desdeo_tools, not in /repo) is defined in the specification | a dominating member has the larger fitness (cancel the common terms of the two sums), so the worst dominates nobody; induction over removals; concrete violation with real exponentials |
| C80 runs of IBEA/PBEA | `indConstruct`, `indCalls`, `mateChosen` | invariant over call histories (sizes, bounds, complete records, uncertainty column), progress from C45/C46/C40; small populations: C46 |
| C81 NSGA-III coverage | `nsgaSelect` inside `EA.nextGen`, `construct`, `EA.calls` | front-sort contract + C33/C34 per generation, composed by induction over `Gens`; violation: pigeonhole on a front larger than pop_size |
| C82 RVEA elitism within a vector | `apdDo` | dominance makes the translated length smaller, so a larger distance can only come from the angle; violations by evaluating concrete populations |
| C83 other APD selections | `Model/APDVariants` (`plainLoop`, `plainSelect`, `uncertainApdDo`, `iopisApdDo`, `clippedPenalty`) | `OnePerVector` specification proved from the loop; running ideal by induction over the sequence of selections |
| C84 IOPIS NSGA-III selection | `iopisNsgaDo` (scalarise, then the NSGA-III operator) | reduction to C33/C34 on the scalarised rows; running ideal by induction over calls |
| C85 whole trainings of EvoNN / EvoDN2 | `nnFit`, `dnFit`, `evolve` (100 PPGA generations on the surrogate problem), `nnPredictAt`, `dnPredictAt`; `lstsq`, loss and activation are parameters | invariant over generations (records bred from the initial ones, each with its own objectives) + analysis of the failing exits |
| C86 interactions of newRV | `Model/NewRV` (`FRV.interactV2`, `FRV.interactV3`, `distTranslate`, `sphereRow`); NaN rows are `none` | `Pulled` (explicit combination of vector and preference) from rigidity of the rotation and its inverse; injectivity of pulling; induction over the history |
| C87 training of BioGP | `Model/BioGPTrain` (`gpFit`, `gpFinish`, `gpEvaluate`, `gpMate`, `gpCreate`) on top of `Model/BioGPPredict`, `Model/Training` and `Model/PPGA`; the columns rewritten so far are an argument (`c87_data` shows that nothing else happens to the data), `np.linalg.lstsq` and the error reduction test are oracles | invariant over all generations: `LooseInd` (an expression tree with possibly dead nodes below terminals) and `FitOf`; dead nodes are trimmed without effect on predictions; concrete trainings by `stillRand` |
| C88 animations | `Model/Animate` (`animateInit`, `animateNext`, `animateRun`): the traces, frames and steps of the slider; styling left out; lists and data frames (which fail for 2 and 3 objectives) are not modelled | case analysis on the number of columns; induction over the history of calls |
| C89 functions `mate`/`mutate` | `Model/FunctionMating`: the module functions beside the classes: default mates, `std_dev`, the loop over the pairs, in-place mutation; the pair operators are those of `Model/EvoNets` and `Model/BioGP` | induction over the pairs; reduction to the class's operators (C57, C58, C65, C67) |
| C90 shared arrays | `Model/Sharing`: the same `Population` methods over a heap of arrays (allocation, in-place writes), MOEA/D's add-repair-replace-delete step; arguments that are views of the population's own arrays are not modelled | refinement of `Model/Population` under separation of the columns; induction over histories; frame property of every turn |
| C91 shown population | `Model/Reports`: the EA of `Model/EA` with plot, request contents and archive tables (pandas frames: labels and rows; MultiIndex for nested names); the `dimensions_data` frame is not modelled | the shown rows are computed from the state; no call but a started iteration changes the objectives |
| C92 archive tables | `Model/Reports`, names as strings or lists of strings | refinement: under plain names the reporting EA simulates the plain one, tables correspond to the archive of rows; counting labels for nested names |
| C93 units, origins, min/max | `Model/Answers` (the four `manage_*` bodies made concrete) on top of `Model/Runs`; `Proofs/Image` | simulation: the second EA is the image of the first under renaming of rows (proved for every method of the EA by case analysis, for histories by induction); equivariance of APD, niching, adaptation, scalarisation and indicator; counterexamples for preferred solutions, for IBEA's units and for PBEA on maximised objectives (Tchebycheff, PBI, achievement function and indicators are written down in `Spec/Scalarizing`, `desdeo_tools` not being in the repository) |
| C94 answers steer the search | `Model/Answers`, `Model/RefVectors`, `Model/EA`; `Spec/Steering` (angle between vectors) | geometry: adding x to a longer y turns it by at most arcsin(|x|/|y|), from (x·y+|x|²)² ≥ 0; lifted to runs by an induction over histories (what the vector operations keep) and C64 (in force during the iteration); explicit run for the violation |
| C95 distributions of the operators | `Model/Recombination`; `Spec/Distribution` (probability of a draw = Lebesgue measure on [0,1)) | the set of draws with the stated effect is an interval (inverse of the real power, for the two halves of each operator), so its measure is the closed form; reachability: an interval of draws per gene, of length at least a constant by superadditivity of powers, then product measure |
| C96 who reads the constraints | `Model/EA`, `Model/Runs`, `Model/MoeadRun`, `Model/IndicatorRun`, `Model/APD`; `Spec/Constraints` | noninterference: both runs have the same image under erasing (or totalling) the constraint rows, by the simulation lemmas of `Proofs/Image` and `Proofs/ImageMore` |
| C97 bookkeeping and grouping | `Model/EA`, `Model/Runs`, `Model/MoeadRun`; `Spec/Bookkeeping` | simulation: the object with other archives and flags (`dress`), or with another grouping of the generations (`regroup`), goes through every call alike; the driver loop equals `n_iterations * n_gen_per_iter` generations; NSGA-III and MOEA/D read only the planar vectors (and neighbourhoods), which `adapt` leaves alone; IBEA and PBEA have no vectors (`c97_indicator_grouping`) |
| C98 only the evaluated points | `Model/EA`, `Model/MOEAD`, `Model/MoeadRun`; `Spec/BlackBox` | simulation on two problems: the log of evaluations only grows, and a step whose log holds no vector of `D` is the same step on both (`SeesOnly`), through generations, iterations, calls and construction; the missed optimum is any vector of an infinite set outside the finite log. The indicator-based EAs (`Model/Indicator`) in `Props/IndicatorMore` |
| C99 handing over the population | `Model/IndicatorRun`, `Model/MoeadRun`, `Model/EA`; `Spec/HandOver` | simulation between the undivided run and the new object, whose components draw with the clock shifted (`since`): every generation `Carries` the relation `Continues`; the driver loops are generations (C97). Deviations from C54's hyperplane, C39's neighbourhoods and C63. The budget (which starts anew) and saved non-dominated solutions (which are per object) are excluded |
| C100 every region is sampled | `Model/EA`, `Model/MOEAD`, `Model/Indicator`, `Model/Recombination`; `Spec/Search` (mean value over uniform draws as an upper integral, chance of missing over `G` rounds) | per round: intervals of draws (C95) that put the first child into the box whatever the parents are; induction over the rounds on iterated upper integrals, so that no measurability of the EA is needed; NaN in the population ends the claim (`c100_nan_stays`) |
| C101 neural surrogates bounded, sensitivity | `Model/Activation` (`activate`), `nnPredictAt`, `dnPredictAt`, `dnComplexity` | derivative bound of the sigmoid (tanh by rescaling); relational induction over the layers with the very matrix whose entries sum to the complexity |
| C102 no worse than the mean | `Model/Activation` (`lossFunction`; sklearn's metrics as in their documentation, two samples or more), `nnFit`, `dnFit`, `gpFit` | the constant mean is one of the candidates of the least squares problem (bias column); `lstsq` by contract, satisfiable (`nn_solver_exists`, `c85_least_squares_solvable`) |
| C103 | `tournament` (Model/Indicator) under uniform draws; `Spec/Lottery`: `odds` (equally likely outcomes), `Lots` (k different numbers, an injection), `ways` | the winner is above `t` iff all aspirants are: count injections into the set above `t`; independence by a product over the rounds; single individuals by subtracting two such counts |
| C104 archive converges | `EA.nextGen` with `mateAll` (Model/EA, Model/Recombination), archive attribute; `Spec/Convergence` (`Approximates`), `Spec/Search` (`chanceOfMissing`) | compactness: finitely many boxes such that hitting each suffices; C100 for each box; union bound for things that stay found; C07 as an invariant of the generations; MOEA/D (`Props/ConvergenceMoead`): the same on the system whose failed rounds are absorbing |
| C105 order independence | `apdDo`, `endResult`, `archiveRun`, `indReduce` (Model/APD, Dominance, Indicator); `Spec/Order` (`Contender`, `WorstNeverTied`) | the selected row of each vector characterised by membership only (C29), `end()` and archive as filters (C19, C09), removal of the worst commutes with permutations by induction |
| C106 constructor calls | `Model/Constructors` (signatures, parents' calls, kept attributes, Python's argument binding), `construct`; `Spec/Calls` (`Receives`, `LegalCall`) | binding of arguments by induction on the parameters; where a parameter of an ancestor comes from is computed along the chain (`source`) and shown right by induction on the chain; the run by C10 |
| C107 evaluation that raises | `EA.nextGen`, `EA.iterate`, `EA.calls` with evaluation as an oracle that may raise at any moment; `Spec/Retry` (`OnlyTimePassed`, `SameButIteration`, `SameWork`, `renumber`: the outside world with some answers left out) | a generation of an object in the invariant of C62/C63 returns or stops in evaluation; then induction on the attempts, building the renumbering from the end; for RVEA with one generation per iteration, idempotence of adaptation and of the record |
| C108 evaluation that raises in IBEA, PBEA, MOEA/D | `indNextGen`, `indIterate`, `indCalls`, `moeadBody`; `Spec/RetryMore` (`renumberInd`) | a generation of an object in the invariant of C80/C74 returns or stops in evaluation; IBEA: the interrupted object is one environmental selection ahead (`HalfAhead`), which is idempotent since IBEA's indicator does not depend on the population; induction on the attempts as for C107. Not claimed for PBEA, whose indicator is normalised by the least ASF value of the population and so changes when the population has been reduced. MOEA/D: decomposition of the loop at the subproblem that raised |
| C109 bounds in floating point | `Model/Floats`: crossover, mutation, repair, designs over an arithmetic `FArith` about which nothing is assumed (NaN is `none`, only comparisons are fixed); `roundedArith r`; `Spec/Floats` (`Representable`, `IsRounding`: nearest, any tie rule, subnormals, no overflow) | the final clip only compares, so C44's induction over runs carries over; designs: rounding is monotone and fixes floats, and `u * fl(hi - lo)` rounds to at most `hi - lo`, by cases on whether the rounded width is subnormal, a power of two or neither; `c109_exact_arithmetic_agrees` ties the model to `Model/Recombination` |
| C110 NaN fitness | `Model/NaNSelect`: `APD_Select.do` on rows whose entries may be NaN (`none`), numpy's propagation rules for amin, norm, dot, argmax, nanmin; `Model/MOEAD` already compares with NaN | a NaN column minimum makes every translated row NaN, `argmax` gives vector 0 to all, every apd is NaN, so only the constraint filter can leave somebody; an empty population is invariant over all calls (`Gone`); MOEA/D: comparisons with NaN are false, induction over steps and generations; `c110_same_without_nan` ties the model to `Model/APD` |
| C111 NaN indicator values | `Model/NaNIndicator`: `Model/Indicator` with terms that may be NaN, `np.argmin` returning the first NaN, the two-entry sort asking only `<`; conditional on the indicator returning NaN (the indicators are desdeo_tools code: the default `epsilon_indicator` may ignore a NaN objective, PBEA's `np.min` of the ASF values does not) | a NaN summand makes the sum NaN (induction over the inner loop), an all-NaN column always gives index 0 (induction over the while loop); `c111_same_without_nan`, `c111_same_generation` tie the model to `Model/Indicator` |
| C112 NaN in NSGA-III | `Model/NaNNsga`: `NSGAIII_select.do` on rows whose entries may be NaN; the niching loop is `niching` itself with distances in `WithBot ℝ`, NaN below all numbers because `np.argmin` returns the first NaN; `dominatesN` is the reference implementation of desdeo_tools' `dominates` on floats | a NaN ideal makes every normalised row, hence every distance, NaN and every niche 0 (induction); niching with one niche and equal distances is the first of each shuffle (`luckyDraws`, induction on the rounds); invariance over call histories; `c112_same_without_nan` ties the model to `Model/NSGA3` through the strictly monotone embedding of ℝ |
| C113 infinite fitness | `Model/InfSelect`: `adapt` and `APD_Select.do` on floats that are NaN, `inf`, `-inf` or a number (`Option EReal`; `inf - inf`, `0 * inf`, `inf / inf`, `0 / 0` are NaN) | one value that is no number makes the range of the population infinite or NaN, hence every scaled vector NaN there after normalisation; NaN vectors give everybody vector 0 and a NaN distance, and then `Gone` as in C110. Non-interference: a row with an `inf` normalises to a NaN, goes to vector 0 with a NaN distance, which `nanmin` ignores; sub-populations of the full list are those of the list without failed rows, renamed (`Places`) |
| C114 failed simulations in IBEA | `Model/InfIndicator`: the additive epsilon indicator (reference implementation of desdeo_tools) and IBEA's term on floats with infinities; the loop is that of `Model/Indicator` | the losses of a failed individual are all 1, those of others to it 0, so its fitness `-(n-1)` is the strict minimum; induction over `RemovesWorst` (C45); with C46 for the tournament |
| C115 failed simulations in MOEA/D | `Model/InfMoead`: PBI (reference implementation of desdeo_tools, in both orders of subtraction) and Tchebycheff on floats with infinities; the generation is that of `Model/MOEAD` | one infinite or NaN entry makes `d1` infinite or NaN and the entry of the second distance `inf - inf`; comparisons with NaN are false; induction over steps and generations with `moeadStep_spec` (C38) |
| C116 failed simulations in NSGA-III | `Model/InfNsga`: the operator of C33-C36 on floats with infinities and NaN, same structure as `Model/NaNNsga` | totality and the form of the result as in C33; a row below infinity dominates a failed one, so it is in an earlier front; with an infinite nadir point every row normalises to the origin, all distances are 0, and the niching loop is the lottery of C112; on numbers the operator is proved equal to that of C33-C36 (`c116_same_on_numbers`); an infinite entry of a normalised row minus its infinite projection is NaN, `argmin` takes the first NaN, and NaN is the least distance (`c116_infinite_taken_first`) |

## Trusted base

* Lean 4.33.0's kernel, and Mathlib as installed (only its definitions matter for statements).
* Axioms: at most `propext`, `Classical.choice`, `Quot.sound`; the list for every theorem of
  `MANIFEST.json` is in `AXIOMS.md`, generated by `tools/axioms.py` from `#print axioms`. No axioms are
  added, no compiled evaluation is used.
* The reading of `/repo` embodied in `Model/*.lean` (nothing is executed), including the reading of
  numpy's and Python's semantics (indexing, broadcasting, truth of arrays, exceptions).
* The contracts of external code listed below.

### External code and what is assumed of it

* `problem.evaluate`, `problem.update_preferences` etc. (`desdeo_problem`): arbitrary functions of a
  clock and the decision vectors (so a problem may behave differently at every call, or raise); where
  needed, that a successful evaluation returns one row per decision vector (`EvalOK`).
* `fast_non_dominated_sort` (`desdeo_tools`): `IsFrontSort` – the fronts partition the rows, each front
  is the set of rows not dominated among those left. An executable one is given and proved to be one.
* `non_dominated`, `dominates`: modelled (`/repo` has its own `utilities/non_dominated.py`); the
  `desdeo_tools` version is assumed to agree.
* `np.linalg.solve` and `np.linalg.lstsq`: parameters; where a theorem needs more, `solve` returns a solution or
  raises LinAlgError, `SolvesLeastSquares` for `lstsq` (proved satisfiable).
* `np.argsort`, `np.lexsort`: any permutation that sorts; where ties matter, all results are covered.
* random draws: any values in the range the library guarantees.
* preference classes of `desdeo_tools.interaction`: identity, class and response only; their validation
  is not modelled (a response reaching the EA is valid).
* losses (`mean_squared_error`, `r2_score`, user functions): arbitrary functions of targets and predictions.
* numpy versions: `np.int` (NSGA-III niching) needs numpy < 1.24, comparing an array with `[]` (`newRV`)
  needs numpy < 1.25; the model assumes such a version.

## What is modelled

| file of `/repo/desdeo_emo` | modelled | not modelled |
|---|---|---|
| `EAs/BaseEA.py` | all (`Model/EA`, `Runs`, `Reports`, `Interaction`) | `post_iteration` (empty) |
| `EAs/BaseIndicatorEA.py`, `IBEA.py`, `PBEA.py` | loops, selection, mating, requests (`Indicator*`); constructors' arguments (`Constructors`) | – |
| `EAs/RVEA.py` | defaults, checks, penalty functions, surrogates' operator; constructor's arguments (`Constructors`) | – |
| `EAs/NSGAIII.py` | through `BaseEA` and the selection operator; constructor's arguments (`Constructors`) | – |
| `EAs/MOEAD.py` | all | – |
| `EAs/PPGA.py` | all (`PPGA`, 60 x 60 torus, predators, killing) | plotting |
| `EAs/TournamentEA.py`, `IKRVEA.py`, `IOPIS.py` | enough to prove that they cannot run (C72, C73) and model management; constructors' arguments (`Constructors`) | bodies that can never be reached |
| `EAs/slowRVEA.py` | – | imports a package that does not exist (`pyrvea`) |
| `population/Population.py`, `CreateIndividuals.py`, `SurrogatePopulation.py` | all methods; arrays as values (`Population`) and as shared objects (`Sharing`) | assignment of attributes |
| `population/Population_old.py` | – | imports a package that does not exist (`pyrvea`) |
| `problem/IOPIS.py` | evaluation, ideal, requests, preferences | the text of the request |
| `recombination/*` | all operators, classes and functions | default arguments |
| `selection/*` | all operators | `NSGAIII_select._calculate_fitness` and the unused penalty helpers |
| `surrogatemodels/*` | creation, evaluation, breeding, training, selection, prediction (`EvoNets`, `Training`, `BioGP*`) | conversion of data frames, plotting, the tables of activation functions |
| `utilities/ReferenceVectors.py`, `newRV.py`, `model_management.py`, `non_dominated.py` | all | `main` |
| `utilities/plotlyanimate.py` | data, frames, slider, file (`Animate`) | styling, buttons; list and data frame input |
| `utilities/symmetric_vectors.py`, `IsNotebook.py` | – | a script, and a test of the environment |

Floating point rounding is modelled only in `Model/Floats` (C109). Infinite fitness values are modelled for RVEA (C113), elsewhere only as members of an abstract ordered set of values. Nowhere modelled: overflow; pandas frames except as tables of rows;
numba compilation; threads (the code has none); memory aliasing except in `Model/Sharing` (C90).

## What the code does that its users would not expect

Each of these is a theorem (with the hypotheses met by a reachable case) or is noted at the definition:

* **Runs that cannot happen.** Interactive indicator EAs raise in `start()` (`c47_start_always_raises`);
  the IOPIS EAs never complete a generation (C72), nor does `TournamentEA`, and `IK_RVEA` cannot be
  constructed (C73); a decomposition EA built from an initial population and set interactive never starts
  (`c16_interactive_from_population_never_starts`); MOEA/D with a population size that is not a lattice
  size, or one neighbour, never completes a generation (`c74_*_never_completes`); its second interactive turn
  fails (`c74_interactive_second_turn_violated`); explicit `n_survive` is unusable (`c33_`, `c84_`);
  one objective makes the lattice search endless (`c21_one_objective_never_ends`); nested names stop a run
  (`c92_nested_*`).
* **NaN and infinities.** An infinite fitness value at the beginning of an iteration ends an RVEA run, during one it does no harm (C113).
  One NaN fitness value empties RVEA's population in the same generation, and no generation completes after it
  (`c110_one_nan_ends_the_run`); MOEA/D keeps an individual with a NaN value for ever and stops changing altogether once the
  ideal point is NaN (`c110_moead_*`); IBEA and PBEA keep the newest individuals once every fitness is NaN
  (`c111_newest_survive`, `c111_parents_lost`); NSGA-III fills its last front by lot for the rest of the run, whatever the
  preferences (`c112_nothing_else_matters`), and dominance becomes cyclic (`c112_dominance_cycle`).  That crossover and mutation can produce NaN is `c44_offspring_can_be_nan`.
* **Trainings that cannot happen.** EvoNN with "min_error" (`c66_min_error_never_trains`); EvoDN2 with fewer than
  2 or at least 3550 networks or when few offspring are placed (`c85_evodn2_*_violated`); BioGP with its default
  arguments (`c87_default_raises`).
* **Archives and counters.** Members of the non-dominated archive may dominate each other across batches
  (`c09_mutual_nondominance_violated`); a second `start()` resets the archive; with surrogates the counter is not the
  number of true evaluations (`c12_surrogate_counter_violated`); `remove_duplicate` drops or raises for repeated rows
  (`c51_*`); model management can evaluate the wrong candidates (`c60_wrong_candidates_violated`).
* **Selection.** RVEA may drop a dominator (`c82_*_violated`), and dies with small populations where noted
  (`c80_small_population_violated`, C63); NSGA-III may lose parts of a big front (`c81_big_front_violated`); a fall-back
  nadir is the worst of the population because of swapped arguments (`c54_fallback_is_worst_of_population`);
  tournaments can pick the worse of two (`c46_worse_of_two_wins`); the other APD selections ignore
  constraints, alpha, or accept negative times (`c83_*_violated`); NSGA-III, MOEA/D, IBEA and PBEA never read the constraints
  (`c96_nsga_may_end_infeasible` and the other `c96_` theorems); indicator selection can drop a non-dominated individual
  first (`c79_dominated_first_violated`); PBEA's `min_asf` is stale.
* **Preferences.** MOEA/D keeps stale neighbourhoods after a preference; raw objectives of preferred solutions are
  mixed with fitness (`c93_preferred_solution_violated`), so with maximised objectives they steer to the opposite end (C94); after a failed iteration requests show another
  population (`c91_after_failed_iteration_violated`); `newRV`, the cone and slow adaptation have the corner
  cases of `c77_`, `c78_`, `c86_*_violated`.
* **Operators.** Bounded polynomial mutation can produce NaN (`c44_offspring_can_be_nan`); BioGP's small mutation breaks trees
  (`c58_point_breaks`), the second removal when pruning is wrong (`c59_second_removal_wrong`), crossover and mono mutation
  exceed `max_depth`; depth 0 gives depth 1 (C50); EvoDN2's crossover mixes biases and weights
  (`c67_bias_becomes_connection`), its `mate` function returns no offspring for other mutation types (C89);
  EvoNN's Gaussian mutation raises past the planned number of generations (class, not function).
* **Surrogates.** EvoNN's AICc criterion picks the first network (`c66_akaike_selects_the_first`) and can divide by zero;
  BioGP's `predict` writes into the caller's data (`c75_*_violated`), its recorded error and complexity need
  not be those of the model kept (`c87_*_violated`), it ignores `complexity_scalar`; refits keep old subsets or terminals
  (`c87_refit_other_columns`, C68); `surrogateProblem.evaluate` returns one array as both objectives and fitness.
* **Populations.** A failed evaluation leaves columns out of step where noted (C01, `c48_failed_evaluation_desyncs`); `replace` writes
  into arrays handed out (`c90_direct_replace_violated`).
* **Animations.** A single objective cannot be animated (`c88_unplottable`); frames can share a name
  (`c88_names_violated`).

## How the theorems were tested

`seeded/LOG.jsonl` has one line per wrong program tried: the model edited as a realistic bug would change the code, the
claim that becomes false, the theorems that failed, and what was tightened when none did. `tools/seedlog.py` writes it from
the results of the batches; `tools/tightened.json` records the tightenings.
