{"id": "C01", "title": "Population columns stay aligned over any history", "statement": "After any sequence of add, keep, delete and replace calls (each add/replace given an evaluation with one row per offspring), population.individuals, .objectives, .fitness and (when present) .constraint and .uncertainity have the same number of rows, and row k of each belongs to the same individual: the population behaves exactly like one list of complete records.", "quantifier": "every sequence of population operations, every evaluation result, every problem with or without constraints/uncertainty", "why_tests_cant": "a misalignment only shows after particular operation orders; the space of histories is unbounded", "anchors": ["desdeo_emo/population/Population.py::Population.add", "desdeo_emo/population/Population.py::Population.keep", "desdeo_emo/population/Population.py::Population.delete", "desdeo_emo/population/Population.py::Population.replace"]}
{"id": "C02", "title": "keep(indices) keeps exactly the named individuals", "statement": "keep(indices) leaves exactly the individuals whose position is named (negative positions count from the end), once each and in their original order, no matter how indices is ordered or repeated; if any index is out of range it raises IndexError and the population is unchanged.", "quantifier": "every population and every index list (any order, duplicates, negatives, out of range)", "why_tests_cant": "tests try a few index lists; the claim is about all of them, including the failure path", "anchors": ["desdeo_emo/population/Population.py::Population.keep"]}
{"id": "C03", "title": "delete(indices) removes exactly the named individuals and is the complement of keep", "statement": "delete(indices) leaves exactly the individuals keep(indices) would have dropped, in order; keep and delete with the same list split the population into two disjoint parts that together are the whole; deleting everything makes the population empty so that the next add starts afresh with only the new individuals.", "quantifier": "every population and index list, including the list naming everybody", "why_tests_cant": "quantifies over all index lists and all populations; the delete-everybody corner changes the representation", "anchors": ["desdeo_emo/population/Population.py::Population.delete", "desdeo_emo/population/Population.py::Population.keep"]}
{"id": "C04", "title": "add appends and never disturbs existing members", "statement": "After add(offspring) the previous individuals with their values are still there in the first positions unchanged, followed by the offspring in order with exactly the values the evaluation returned; if evaluation raises, nothing changes.", "quantifier": "every population, every offspring batch (single vector or matrix), every evaluation result", "why_tests_cant": "must hold for every batch size and shape and for the failing evaluation", "anchors": ["desdeo_emo/population/Population.py::Population.add"]}
{"id": "C05", "title": "replace changes only the named individuals", "statement": "replace(indices, individual, evaluation) makes every named position hold the given individual with its evaluation and leaves every other position, and the size, unchanged.", "quantifier": "every population and every valid index list", "why_tests_cant": "unbounded populations and index lists", "anchors": ["desdeo_emo/population/Population.py::Population.replace"]}
{"id": "C06", "title": "repair puts a decision vector inside the variable bounds", "statement": "For lower<=upper bounds, repair(x) returns the vector whose every component is the bound value nearest to x's component: components inside stay as they are, others move to the violated bound; repairing twice is the same as once. Components that are NaN are not repaired.", "quantifier": "every decision vector and every pair of bound vectors", "why_tests_cant": "real-valued inputs cannot be enumerated", "anchors": ["desdeo_emo/population/Population.py::Population.repair"]}
{"id": "C07", "title": "The non-dominated archive covers everything evaluated", "statement": "With save_non_dominated, at any time after start(), every solution evaluated since (initial population and all offspring) is in the archive or is dominated by (the fitness of) an archive member.", "quantifier": "every initial population and every sequence of generations and offspring batches", "why_tests_cant": "coverage can be lost only along particular eviction orders over a long history", "anchors": ["desdeo_emo/EAs/BaseEA.py::BaseEA.non_dominated_archive", "desdeo_emo/EAs/BaseEA.py::BaseEA.start", "desdeo_emo/utilities/non_dominated.py::check_domination"]}
{"id": "C08", "title": "No Pareto-optimal solution is ever lost from the archive", "statement": "Every evaluated solution that no other evaluated solution dominates is in the archive at the end, and every archive member is a solution that really was evaluated, carried with its own individual/objective/fitness values.", "quantifier": "every history of evaluated batches", "why_tests_cant": "quantifies over all histories", "anchors": ["desdeo_emo/EAs/BaseEA.py::BaseEA.non_dominated_archive", "desdeo_emo/utilities/non_dominated.py::check_domination"]}
{"id": "C09", "title": "Archive members dominate each other only within one batch", "statement": "If one member of the non-dominated archive dominates another, both were evaluated in the same batch of offspring; so when every batch is itself mutually non-dominated, in particular in MOEA/D, which archives one offspring at a time, the archive is exactly the set of non-dominated solutions among everything evaluated. The unrestricted claim that the archive is always mutually non-dominated is false of the code: a batch (1,1),(3,3) after an archive (2,2) leaves both.", "quantifier": "every history of evaluated batches", "why_tests_cant": "the violating batch needs a specific dominance pattern; the positive part is an invariant over unbounded histories", "anchors": ["desdeo_emo/utilities/non_dominated.py::check_domination", "desdeo_emo/EAs/BaseEA.py::BaseEA.non_dominated_archive"]}
{"id": "C10", "title": "Without an evaluation budget, iterate runs exactly n_gen_per_iter generations", "statement": "With total_function_evaluations = 0 each successful iterate() runs exactly n_gen_per_iter generations and the driver loop `while continue_evolution(): iterate()` performs exactly n_iterations iterations and n_iterations*n_gen_per_iter generations, then stops; the generation and iteration counters equal the true numbers.", "quantifier": "all n_iterations, n_gen_per_iter, all algorithms' generation bodies, all starting populations", "why_tests_cant": "termination and exact counting for all parameter values", "anchors": ["desdeo_emo/EAs/BaseEA.py::BaseEA.iterate", "desdeo_emo/EAs/BaseEA.py::BaseEA.continue_iteration", "desdeo_emo/EAs/BaseEA.py::BaseEA.continue_evolution", "desdeo_emo/EAs/BaseEA.py::BaseEA.check_FE_count"]}
{"id": "C11", "title": "The evaluation budget stops the run, within one generation of overshoot", "statement": "With total_function_evaluations = L > 0 no generation starts when the counted evaluations exceed L, so the final count is at most L plus the size of one generation's offspring; no run can stop early while budget and generations remain. The documented 'upper limit' itself can be exceeded.", "quantifier": "every L, every sequence of offspring batch sizes", "why_tests_cant": "depends on the whole sequence of batch sizes", "anchors": ["desdeo_emo/EAs/BaseEA.py::BaseEA.check_FE_count", "desdeo_emo/EAs/BaseEA.py::BaseEA.continue_iteration", "desdeo_emo/EAs/BaseEA.py::BaseDecompositionEA._next_gen"]}
{"id": "C12", "title": "The function-evaluation counter equals the number of true evaluations", "statement": "For an EA built from a problem (no surrogates) the evaluation counter always equals the number of decision vectors passed to problem.evaluate, for decomposition EAs and for MOEA/D alike; with use_surrogates it stays at the initial population size although no true evaluation happened; with initial_population it starts at 0.", "quantifier": "every run (all generations, all batch sizes), both surrogate settings", "why_tests_cant": "counter agreement over unbounded runs", "anchors": ["desdeo_emo/EAs/BaseEA.py::BaseDecompositionEA.__init__", "desdeo_emo/EAs/BaseEA.py::BaseDecompositionEA._next_gen", "desdeo_emo/EAs/MOEAD.py::MOEA_D._next_gen", "desdeo_emo/EAs/BaseIndicatorEA.py::BaseIndicatorEA._next_gen"]}
{"id": "C13", "title": "A rejected preference leaves the run untouched", "statement": "If iterate(preference) raises because the preference is not acceptable (wrong request id, wrong class, interaction type not set), then population, reference vectors, counters, archives are exactly as before the call, and the same call sequence can continue.", "quantifier": "every EA state and every unacceptable preference object", "why_tests_cant": "all states times all bad preferences", "anchors": ["desdeo_emo/EAs/BaseEA.py::BaseEA.iterate", "desdeo_emo/EAs/BaseEA.py::BaseEA.manage_preferences", "desdeo_emo/selection/SelectionBase.py::InteractiveDecompositionSelectionBase.manage_preferences"]}
{"id": "C14", "title": "Only the preference object answering the latest request is accepted", "statement": "In interactive mode with location Selection, iterate(p) with p not None passes preference handling only if p carries the id of the most recent request and p's class is the one of the current interaction type; preferred-ranges requests return no object so they can never be answered. The class belongs to the name given to set_interaction_type (Reference point, Preferred solutions, Non-preferred solutions, Preferred ranges), and a request the user is given is of that class.", "quantifier": "every sequence of start/iterate/set_interaction_type calls and every preference object", "why_tests_cant": "protocol property over unbounded call sequences", "anchors": ["desdeo_emo/selection/SelectionBase.py::InteractiveDecompositionSelectionBase.manage_preferences", "desdeo_emo/selection/SelectionBase.py::InteractiveDecompositionSelectionBase.request_preferences", "desdeo_emo/selection/SelectionBase.py::InteractiveDecompositionSelectionBase.request_preferred_ranges"]}
{"id": "C15", "title": "start() refuses an interactive run whose interaction type is not set", "statement": "An interactive EA's start() succeeds only after a valid set_interaction_type call. (The 'type set' flag alone is not reliable: a rejected type or merely reading allowable_interaction_types sets it; start() then still fails, but with ValueError instead of the documented eaError.) An interactive EA made from an MOProblem or DataProblem does start after set_interaction_type with any of the four keys; one made from a problem of another class (not IOPISProblem) never does.", "quantifier": "every sequence of set_interaction_type / allowable_interaction_types / start calls", "why_tests_cant": "call-order property over unbounded sequences", "anchors": ["desdeo_emo/EAs/BaseEA.py::BaseEA.start", "desdeo_emo/EAs/BaseEA.py::BaseEA.set_interaction_type", "desdeo_emo/EAs/BaseEA.py::BaseEA.allowable_interaction_types", "desdeo_emo/selection/SelectionBase.py::InteractiveDecompositionSelectionBase.set_interaction_type"]}
{"id": "C16", "title": "Decomposition EAs need exactly one of problem and initial_population", "statement": "Constructing a decomposition EA raises eaError when both or neither of problem and initial_population are given, otherwise succeeds in getting a population; an interactive EA constructed from initial_population can never be started.", "quantifier": "every combination of constructor arguments", "why_tests_cant": "full argument space incl. subsequent call histories", "anchors": ["desdeo_emo/EAs/BaseEA.py::BaseDecompositionEA.__init__"]}
{"id": "C17", "title": "Default population size equals the number of reference vectors", "statement": "When neither population_size nor lattice_resolution is given, and also when only lattice_resolution is given, the population size is binom(res+m-1, m-1) and the selection operator's reference vector set created for that size has exactly the same number of vectors (one per individual), for every number of objectives m>=2.", "quantifier": "every number of objectives and every lattice resolution >= 1", "why_tests_cant": "unbounded m and resolution", "anchors": ["desdeo_emo/EAs/BaseEA.py::BaseDecompositionEA.__init__", "desdeo_emo/utilities/ReferenceVectors.py::ReferenceVectors.__init__", "desdeo_emo/utilities/ReferenceVectors.py::ReferenceVectors._create"]}
{"id": "C18", "title": "keep_archive records the population at each iteration start and at the end", "statement": "With keep_archive, after any number of iterations the archive holds for each generation number at which an iteration started the population as it was then with its iteration number, and end() adds the final one; if an iteration runs no generation (budget used up) its entry overwrites the previous one with the same generation number.", "quantifier": "every run with any number of iterations, with and without budget", "why_tests_cant": "history property over unbounded runs", "anchors": ["desdeo_emo/EAs/BaseEA.py::BaseEA.pre_iteration", "desdeo_emo/EAs/BaseEA.py::BaseEA.end"]}
{"id": "C19", "title": "end() returns exactly the non-dominated solutions of the final population", "statement": "end() returns, in population order, exactly those (individual, objectives) rows whose objectives (sign-adjusted for maximization) are not dominated by another row; the result is never empty for a non-empty population; feasibility plays no role.", "quantifier": "every final population", "why_tests_cant": "all populations of any size", "anchors": ["desdeo_emo/EAs/BaseEA.py::BaseDecompositionEA.end", "desdeo_emo/population/Population.py::Population.non_dominated_objectives"]}
{"id": "C20", "title": "The uniform reference vectors are the full simplex lattice", "statement": "For m>=2 objectives and resolution r>=1 the planar reference vectors are exactly the points (k1/r,...,km/r) with natural k summing to r, each exactly once: binom(r+m-1,m-1) vectors.", "quantifier": "every m >= 2 and r >= 1", "why_tests_cant": "unbounded m and r; combinatorial identity", "anchors": ["desdeo_emo/utilities/ReferenceVectors.py::ReferenceVectors._create"]}
{"id": "C21", "title": "Lattice resolution is the largest that fits the requested number", "statement": "Given number_of_vectors N >= m >= 2 and no resolution, the chosen resolution r is the largest with binom(r+m-1,m-1) <= N, so at most N vectors are created and asking for an exact lattice size returns that many; the search terminates. (For one objective the search never terminates; for N < m the resolution is 0.)", "quantifier": "every N and m", "why_tests_cant": "unbounded search loop; termination", "anchors": ["desdeo_emo/utilities/ReferenceVectors.py::ReferenceVectors.__init__"]}
{"id": "C22", "title": "Reference vectors are normalised", "statement": "After creation and after every adaptation the spherical vectors have Euclidean length 1 (unless the vector is zero, which stays zero) and planar vectors with nonzero sum have coordinate sum 1.", "quantifier": "every vector set, every adaptation", "why_tests_cant": "real-valued inputs", "anchors": ["desdeo_emo/utilities/ReferenceVectors.py::ReferenceVectors.normalize", "desdeo_emo/utilities/ReferenceVectors.py::ReferenceVectors.adapt"]}
{"id": "C23", "title": "Adaptation is idempotent and history independent", "statement": "Adapting the (spherical) reference vectors to a fitness matrix gives a result depending only on the initial vectors and that matrix's column ranges: adapting twice equals adapting once and earlier preferences or adaptations leave no trace in the spherical vectors; the planar vectors however are not reset by adaptation, so after a preference they stay focused and can even have a different count.", "quantifier": "every sequence of adapt / interactive adaptation calls and fitness matrices", "why_tests_cant": "history independence over unbounded call sequences", "anchors": ["desdeo_emo/utilities/ReferenceVectors.py::ReferenceVectors.adapt", "desdeo_emo/utilities/ReferenceVectors.py::ReferenceVectors.iteractive_adapt_3", "desdeo_emo/utilities/ReferenceVectors.py::ReferenceVectors.add_edge_vectors", "desdeo_emo/selection/SelectionBase.py::InteractiveDecompositionSelectionBase.manage_preferences"]}
{"id": "C24", "title": "Interactive adaptation produces the documented number of vectors and includes the edge vectors", "statement": "After an accepted reference point the set has N+m vectors, after k (not all) preferred solutions k*N+m, after all preferred N+m, where N is the initial number of vectors; preferred-solution/reference point vectors are the convex blend t*v+(1-t)*z of initial vectors and the preference direction before normalisation; the m axis vectors are always among them.", "quantifier": "every preference and every prior history", "why_tests_cant": "all histories; counts must not depend on history", "anchors": ["desdeo_emo/utilities/ReferenceVectors.py::ReferenceVectors.interactive_adapt_1", "desdeo_emo/utilities/ReferenceVectors.py::ReferenceVectors.iteractive_adapt_3", "desdeo_emo/utilities/ReferenceVectors.py::ReferenceVectors.add_edge_vectors"]}
{"id": "C25", "title": "Non-preferred solutions remove exactly the nearby vectors", "statement": "After non-preferred solutions z (not all solutions) are given, the vectors are exactly the current ones whose planar form is at distance at least 0.2 from every given solution (L1-normalised), in order, followed by the m axis vectors; giving all solutions resets to the initial set plus axes. (If a None preference was given since the last accepted one, spherical and planar sets have different sizes and the call raises IndexError.)", "quantifier": "every vector set and every set of non-preferred solutions", "why_tests_cant": "all real inputs", "anchors": ["desdeo_emo/utilities/ReferenceVectors.py::ReferenceVectors.interactive_adapt_2"]}
{"id": "C26", "title": "Rotation of vectors is a rigid motion taking the start to the target direction", "statement": "rotate(a,b,V) preserves all lengths and inner products of the vectors in V and maps the direction of a to the direction of b, for nonzero a,b that are neither equal in direction nor opposite (where the code divides by zero).", "quantifier": "every dimension and all real vectors", "why_tests_cant": "real-valued inputs, all dimensions", "anchors": ["desdeo_emo/utilities/ReferenceVectors.py::rotate", "desdeo_emo/utilities/ReferenceVectors.py::householder", "desdeo_emo/utilities/ReferenceVectors.py::normalize"]}
{"id": "C27", "title": "RVEA selection returns valid, distinct individuals, at most one per reference vector", "statement": "APD selection returns distinct in-range indices, at most one for each reference vector, hence at most as many as vectors, and each returned individual is associated with (has its largest cosine at) its vector; with no NaN values every reference vector that has an associated individual contributes exactly one.", "quantifier": "every population, every reference vector set, every penalty", "why_tests_cant": "all real-valued populations of any size", "anchors": ["desdeo_emo/selection/APD_Select_constraints.py::APD_Select.do"]}
{"id": "C28", "title": "RVEA prefers feasible individuals per reference vector", "statement": "Among the individuals associated with a reference vector, if any is feasible (all constraint values <= 0) the selected one is feasible; if none is, the selected one has minimal total constraint violation.", "quantifier": "every population with constraints", "why_tests_cant": "all real-valued constraint matrices", "anchors": ["desdeo_emo/selection/APD_Select_constraints.py::APD_Select.do"]}
{"id": "C29", "title": "RVEA picks the smallest angle-penalised distance", "statement": "Among the admissible individuals of a reference vector the selected one has the smallest angle penalised distance |f|(1+p*theta/gamma), and is the first such in population order.", "quantifier": "every population and vector set", "why_tests_cant": "all real-valued inputs", "anchors": ["desdeo_emo/selection/APD_Select_constraints.py::APD_Select.do"]}
{"id": "C30", "title": "The RVEA ideal point only improves and bounds all fitness", "statement": "The ideal point kept by the RVEA selection is, after every selection, component-wise <= its previous value and <= every fitness row seen so far and equals the running minimum of initial ideal, problem ideal and fitness rows; translated fitness is non-negative.", "quantifier": "every sequence of selections", "why_tests_cant": "invariant over unbounded history", "anchors": ["desdeo_emo/selection/APD_Select_constraints.py::APD_Select.do"]}
{"id": "C31", "title": "RVEA time penalty lies in range and follows the documented schedule", "statement": "The penalty factor used is m*clamp(t,0,1)^alpha, between 0 and m and non-decreasing in t; t is generation/total generations ('original'), evaluations/budget ('function_count') or generation within iteration/generations per iteration ('interactive'); in interactive mode it is 0 at the first generation of each iteration and (contrary to the documentation) strictly below 1 at the last one.", "quantifier": "every counter value and alpha >= 0", "why_tests_cant": "all real/integer inputs", "anchors": ["desdeo_emo/selection/APD_Select_constraints.py::APD_Select._partial_penalty_factor", "desdeo_emo/EAs/RVEA.py::RVEA._time_penalty_original", "desdeo_emo/EAs/RVEA.py::RVEA._time_penalty_interactive", "desdeo_emo/EAs/RVEA.py::RVEA._time_penalty_function_count"]}
{"id": "C32", "title": "RVEA constructor chooses the documented default penalty and rejects bad ones", "statement": "With no time_penalty_component the choice is interactive / function_count / original according to interact and budget; a float gives the constant; anything else makes construction fail (with UnboundLocalError rather than eaError) and a float outside (0,1) is silently accepted.", "quantifier": "every value of the argument", "why_tests_cant": "all argument values", "anchors": ["desdeo_emo/EAs/RVEA.py::RVEA.__init__"]}
{"id": "C33", "title": "NSGA-III selection returns exactly pop_size distinct individuals", "statement": "If the combined population has at least pop_size individuals, NSGA-III selection returns exactly pop_size distinct in-range indices, whatever the random choices; the niching loop always terminates without error. If it has fewer, the result is empty and the whole population is lost.", "quantifier": "every population, every outcome of random choices", "why_tests_cant": "all random outcomes, sizes and front structures", "anchors": ["desdeo_emo/selection/NSGAIII_select.py::NSGAIII_select.do", "desdeo_emo/selection/NSGAIII_select.py::NSGAIII_select.niching"]}
{"id": "C34", "title": "NSGA-III selection is elitist", "statement": "Every individual of a front better than the last accepted one is selected, and only individuals of the accepted fronts are; consequently no selected individual is dominated by an unselected one; if the first front fits in pop_size it is kept completely.", "quantifier": "every population and random outcome", "why_tests_cant": "all populations and random outcomes", "anchors": ["desdeo_emo/selection/NSGAIII_select.py::NSGAIII_select.do"]}
{"id": "C35", "title": "NSGA-III niching is fair", "statement": "At each step niching takes an individual from a candidate niche with the smallest current count, and when that count is zero takes one with the smallest distance to the niche's reference direction; the final niche counts equal initial counts plus the selected members of the niche.", "quantifier": "every niche assignment, distance vector and random outcome", "why_tests_cant": "loop invariant over unbounded steps and random outcomes", "anchors": ["desdeo_emo/selection/NSGAIII_select.py::NSGAIII_select.niching", "desdeo_emo/selection/NSGAIII_select.py::NSGAIII_select.calc_niche_count"]}
{"id": "C36", "title": "NSGA-III ideal and worst points are running extremes", "statement": "After every selection the kept ideal (worst) point is the component-wise minimum (maximum) of all fitness rows seen and the initial ideal (minus infinity).", "quantifier": "every sequence of selections", "why_tests_cant": "invariant over unbounded history", "anchors": ["desdeo_emo/selection/NSGAIII_select.py::NSGAIII_select.do"]}
{"id": "C37", "title": "MOEA/D keeps the population size and evaluates pop_size offspring per generation", "statement": "One MOEA/D generation evaluates exactly pop_size new vectors (one per subproblem), leaves the number of individuals unchanged, and raises if the population is larger than the number of reference vectors.", "quantifier": "every population, random parent choice and scalarization", "why_tests_cant": "all populations and random outcomes", "anchors": ["desdeo_emo/EAs/MOEAD.py::MOEA_D._next_gen", "desdeo_emo/selection/MOEAD_select.py::MOEAD_select.do"]}
{"id": "C38", "title": "MOEA/D never makes a subproblem worse", "statement": "In each subproblem step, for every subproblem the scalarised value of its individual (with the weights and ideal point used in the step) does not increase; only neighbours of the current subproblem are changed, and exactly those for which the offspring is strictly better. Over any number of generations with the same ideal point no subproblem ends worse off.", "quantifier": "every population, scalarization, neighbourhood and offspring", "why_tests_cant": "all real-valued inputs", "anchors": ["desdeo_emo/selection/MOEAD_select.py::MOEAD_select.do", "desdeo_emo/population/Population.py::Population.replace", "desdeo_emo/population/Population.py::Population.delete"]}
{"id": "C39", "title": "MOEA/D neighbourhoods are the nearest reference vectors", "statement": "At construction and after every adaptation, each subproblem's neighbourhood consists of distinct valid vector indices, n_neighbors of them (or all if fewer), such that no excluded vector is nearer than an included one; it includes the subproblem itself when vectors are distinct; parents are chosen from it and are distinct. (An accepted interactive preference replaces the vectors but not the neighbourhoods, so until the next adaptation they are those of the old vectors and the appended edge vectors have none.)", "quantifier": "every set of reference vectors and n_neighbors", "why_tests_cant": "all inputs, unstable sort ties", "anchors": ["desdeo_emo/selection/MOEAD_select.py::MOEAD_select.__init__", "desdeo_emo/selection/MOEAD_select.py::MOEAD_select.adapt_RVs", "desdeo_emo/selection/MOEAD_select.py::MOEAD_select.choose_parents"]}
{"id": "C40", "title": "SBX crossover pairs consecutive members and preserves pair sums", "statement": "SBX produces one offspring per mating id (plus one if odd, pairing the last with the first); the two offspring of a pair have component-wise the same sum as their parents and lie symmetric about their midpoint; where the spread factor is 1 the offspring are the parents; with no ids every individual takes part exactly once (first of shuffle twice if odd).", "quantifier": "every population, id list and random draw", "why_tests_cant": "all real inputs and random outcomes", "anchors": ["desdeo_emo/recombination/SimulatedBinaryCrossover.py::SBX_xover.do"]}
{"id": "C41", "title": "Bounded polynomial mutation keeps variables in bounds", "statement": "For offspring inside the bounds (lower<upper) the mutated value is inside the bounds for every random draw even before clipping, and is a number; for any offspring every result component that is not NaN is within bounds (NaN can arise only from an offspring value outside the bounds); components not chosen for mutation and inside bounds are unchanged.", "quantifier": "every offspring matrix, bounds, random draws, distribution index", "why_tests_cant": "all real inputs and random outcomes", "anchors": ["desdeo_emo/recombination/BoundedPolynomialMutation.py::BP_mutation.do"]}
{"id": "C42", "title": "Single-point crossover and mutation keep binary genomes binary", "statement": "Single-point crossover exchanges the tails of the two parents (gene-wise the pair of values is preserved), mutation flips exactly one gene per offspring; binary individuals give binary offspring; applying the same mutation twice restores the input.", "quantifier": "every pair of genomes and crossover/mutation point", "why_tests_cant": "all lengths and points", "anchors": ["desdeo_emo/recombination/SinglePointCrossoverMutation.py::SinglePoint_Xover.crossover", "desdeo_emo/recombination/SinglePointCrossoverMutation.py::SinglePoint_Xover.do", "desdeo_emo/recombination/SinglePointCrossoverMutation.py::SinglePoint_Mutation.do"]}
{"id": "C43", "title": "Initial designs lie within the variable bounds", "statement": "Random and LHS designs give pop_size vectors inside [lower, upper] for all random draws in [0,1); an LHS sample has, per variable, exactly one value in each of the pop_size equal slices.", "quantifier": "every bounds vector, population size and random draw", "why_tests_cant": "all real draws", "anchors": ["desdeo_emo/population/CreateIndividuals.py::create_new_individuals"]}
{"id": "C44", "title": "Every offspring produced for evaluation is within bounds", "statement": "In every generation with the default operators every offspring component passed to the problem that is a number lies within its bounds, whatever the parents and draws; hence over any history of calls from construction every individual in the population and the archives is within bounds, and the problem is never asked about a number outside them (two problems agreeing inside the bounds give identical runs). NaN components are possible even from parents inside the bounds, and repair does not remove them.", "quantifier": "every run of any length, all random draws", "why_tests_cant": "invariant over unbounded runs", "anchors": ["desdeo_emo/population/Population.py::Population.mate", "desdeo_emo/recombination/SimulatedBinaryCrossover.py::SBX_xover.do", "desdeo_emo/recombination/BoundedPolynomialMutation.py::BP_mutation.do"]}
{"id": "C45", "title": "IBEA environmental selection keeps fitness consistent and restores pop_size", "statement": "During environmental selection the stored indicator fitness of the remaining individuals always equals the fitness computed from scratch on the remaining population, each removed individual has the smallest current fitness, and the loop ends with exactly pop_size individuals (or immediately if there are fewer).", "quantifier": "every population and indicator function", "why_tests_cant": "loop invariant over unbounded sizes and arbitrary indicators", "anchors": ["desdeo_emo/EAs/IBEA.py::IBEA._fitness_assignment", "desdeo_emo/EAs/IBEA.py::IBEA._environmental_selection", "desdeo_emo/EAs/BaseIndicatorEA.py::BaseIndicatorEA._next_gen"]}
{"id": "C46", "title": "Tournament selection returns valid parents, one per individual, winners of their tournament", "statement": "Tournament selection returns as many parents as individuals, each a valid index having the smallest stored fitness among its distinct aspirants; the last individual never takes part; with too few individuals it raises.", "quantifier": "every fitness array and random draw", "why_tests_cant": "all random outcomes and sizes", "anchors": ["desdeo_emo/selection/TournamentSelection.py::TournamentSelection.do", "desdeo_emo/selection/TournamentSelection.py::TournamentSelection._tour_select"]}
{"id": "C47", "title": "Interactive indicator EAs double their limits at each accepted preference", "statement": "Each accepted preference doubles n_iterations and the evaluation budget, so after any number k of accepted interactive iterations continue_evolution() by iteration count is still true; a missing or wrong preference raises eaError and changes nothing.", "quantifier": "every sequence of iterations", "why_tests_cant": "unbounded history", "anchors": ["desdeo_emo/EAs/BaseIndicatorEA.py::BaseIndicatorEA.manage_preferences"]}
{"id": "C48", "title": "PPGA lattice and population stay consistent", "statement": "At all times each prey's recorded location holds its number, each predator's its negative number, every other cell is empty, no two share a cell, and the number of prey equals the population size, through initialisation, prey moves, offspring placement, killing and predator moves.", "quantifier": "every history and random outcome", "why_tests_cant": "invariant over unbounded histories and random outcomes", "anchors": ["desdeo_emo/EAs/PPGA.py::Lattice.init_predators", "desdeo_emo/EAs/PPGA.py::Lattice.init_prey", "desdeo_emo/EAs/PPGA.py::Lattice.move_prey", "desdeo_emo/EAs/PPGA.py::Lattice.place_offspring", "desdeo_emo/EAs/PPGA.py::Lattice.update_lattice", "desdeo_emo/EAs/PPGA.py::Lattice.move_predator"]}
{"id": "C49", "title": "PPGA neighbourhood is the toroidal 3x3 block", "statement": "neighbours(arr,x,y) returns the 3x3 block centred at (x,y) with wrap-around at all borders; a chosen mate is another live prey within distance one; a moved prey lands on a previously empty cell adjacent (toroidally) to the old one.", "quantifier": "every lattice size >= 3 and position", "why_tests_cant": "all positions and sizes incl. borders", "anchors": ["desdeo_emo/EAs/PPGA.py::Lattice.neighbours", "desdeo_emo/EAs/PPGA.py::Lattice.lattice_wrap_idx", "desdeo_emo/EAs/PPGA.py::Lattice.move_prey"]}
{"id": "C50", "title": "BioGP random trees respect depth and arity", "statement": "Trees produced by the grow and full methods have depth at most max_depth, every function node has exactly its arity of children, terminals have none; enumerating the nodes visits every node exactly once with its correct depth.", "quantifier": "every max_depth, primitive set and random draw", "why_tests_cant": "recursive structures of unbounded size", "anchors": ["desdeo_emo/surrogatemodels/BioGP.py::Node.grow_tree", "desdeo_emo/surrogatemodels/BioGP.py::Node.get_sub_nodes"]}
{"id": "C51", "title": "remove_duplicate finds exactly the new rows when the archive has no duplicates", "statement": "If the archive rows are distinct, remove_duplicate(X, archive) returns the indices of the first occurrences in X of rows not in the archive. (With duplicate archive rows it returns wrong indices or raises.)", "quantifier": "every X and archive", "why_tests_cant": "all matrices; depends on duplicates pattern", "anchors": ["desdeo_emo/utilities/model_management.py::remove_duplicate"]}
{"id": "C52", "title": "IOPIS problem keeps the ideal as the best value seen", "statement": "After each re-evaluation the IOPIS problem's ideal vector is component-wise the best (respecting maximisation) of the previous ideal and all objective vectors given, hence over any history never gets worse; after each re-evaluation ideal_fitness is the best of the mapped previous ideal and the fitness rows of that call, so it exceeds none of them (that fitness is computed before the map is updated, so evaluating the same objectives again can give other values).", "quantifier": "every history of re-evaluations", "why_tests_cant": "unbounded history", "anchors": ["desdeo_emo/problem/IOPIS.py::IOPISProblem.update_ideal", "desdeo_emo/problem/IOPIS.py::IOPISProblem.reevaluate_fitness"]}
{"id": "C53", "title": "rotate_toward turns by exactly the requested angle", "statement": "rotate_toward(a,b,V,degrees) for non-parallel a,b and a positive angle applies one rigid motion to all vectors of V. If the angle between a and b is below the requested angle the direction of a is taken exactly to the direction of b and reached is True; otherwise reached is False, the direction of a is turned by exactly the requested angle and the remaining angle to b decreases by exactly that angle.", "quantifier": "every dimension, all non-parallel real vectors, every positive number of degrees", "why_tests_cant": "An identity over all real vectors and angles; a test samples finitely many.", "anchors": ["desdeo_emo/utilities/ReferenceVectors.py: rotate_toward, rotate, householder"]}
{"id": "C54", "title": "NSGA-III normalisation is well defined", "statement": "In every NSGA-III selection the nadir point used to normalise lies component-wise between the ideal point and the worst point kept by the operator, whatever the linear solver returns, so normalised fitness values are never negative; the extreme points are one fitness row per objective taken from the first front or from earlier extreme points, each of least weighted Chebyshev value; when the linear system cannot be solved the nadir is taken from the worst values of the whole population, not of the first front as documented.", "quantifier": "every population, first front, operator state and solver outcome", "why_tests_cant": "all real inputs and all solver outcomes", "anchors": ["desdeo_emo/selection/NSGAIII_select.py::NSGAIII_select.get_nadir_point", "desdeo_emo/selection/NSGAIII_select.py::NSGAIII_select.get_extreme_points_c", "desdeo_emo/selection/NSGAIII_select.py::NSGAIII_select.associate_to_niches"]}
{"id": "C55", "title": "PPGA predators kill the worst prey in reach, never below the target size", "statement": "In move_predator a predator with live prey in its neighbourhood kills exactly one of them, the one with the largest weighted sum of the first two fitness values under the predator's own weight, and takes its cell; with no prey in reach it kills nobody and stays or moves to an empty cell in reach. The population loses exactly the individuals of the killed prey, and never falls below min(current size, target_pop_size) by hunting. Without predators or individuals move_predator raises and changes nothing.", "quantifier": "every consistent lattice, every fitness matrix, every random outcome, every target size and number of predators", "why_tests_cant": "all lattices and random walks; the numbering of dead prey within one call depends on the whole history of kills", "anchors": ["desdeo_emo/EAs/PPGA.py::Lattice.move_predator"]}
{"id": "C56", "title": "PPGA kills exactly the individuals beyond max_rank", "statement": "PPGA.select returns exactly the individuals whose non-dominated front has a number above max_rank, each once; with max_rank >= 0 nobody non-dominated is selected, and a selected individual ends a chain of at least max_rank+1 dominations. Every kill_interval generations exactly those individuals lose their record and their lattice cell; in other generations nobody is removed by this step.", "quantifier": "every fitness matrix, every front sort, every max_rank and kill_interval", "why_tests_cant": "all dominance structures", "anchors": ["desdeo_emo/EAs/PPGA.py::PPGA.select", "desdeo_emo/EAs/PPGA.py::PPGA._next_gen"]}
{"id": "C57", "title": "BioGP crossover exchanges subtrees and keeps trees proper", "statement": "Both crossovers return, for two proper individuals, two proper individuals (a linear root over exactly max_subtrees expressions with correct arities): each is its parent with one subtree of the other parent grafted in, nothing else changed, and together they have as many nodes as the parents. Height-fair crossover never makes an offspring deeper than the deeper parent; standard crossover can exceed max_depth (bounded by the sum of the depths less one). With one-dimensional mating ids every individual is crossed with itself and every second id ignored.", "quantifier": "every pair of individuals and every random choice", "why_tests_cant": "recursive structures of unbounded size, all choices", "anchors": ["desdeo_emo/recombination/biogp_xover.py::BioGP_xover.do"]}
{"id": "C58", "title": "BioGP mutation keeps trees proper (except small mutation)", "statement": "Standard mutation replaces one subtree by a newly grown one, keeps the individual proper and no deeper than before or max_depth. Mono-parental mutation exchanges two disjoint subtrees, or replaces a subtree by one of its own subtrees, keeps the individual proper and never adds nodes; it raises ValueError exactly when there are fewer than two nodes below the root. Small mutation never changes the shape; it keeps the individual proper unless a function node fails the first draw and passes the second: such a node becomes a terminal that keeps its children.", "quantifier": "every individual and every random outcome", "why_tests_cant": "recursive structures of unbounded size, all random outcomes", "anchors": ["desdeo_emo/recombination/biogp_mutation.py::BioGP_mutation.do"]}
{"id": "C59", "title": "BioGP pruning keeps max_subtrees subtrees but can drop the wrong ones", "statement": "calculate_linear keeps exactly max_subtrees expressions whatever the error reduction ratios. With no ratio below the limit nothing changes, with exactly one exactly that subtree is replaced by a new one appended at the end; with two or more the second removal hits the subtree after the bad one: the bad subtree stays and a good one is lost.", "quantifier": "every individual, every vector of ratios, every random outcome", "why_tests_cant": "all lists of subtrees and ratio patterns", "anchors": ["desdeo_emo/surrogatemodels/BioGP.py::LinearNode.calculate_linear"]}
{"id": "C60", "title": "Kriging-assisted model management evaluates exactly u new solutions", "statement": "ikrvea_mm evaluates nothing when there is no new solution, raises ValueError when there are at most 2u new solutions (or u is 0), and otherwise sends exactly u pairwise different current solutions that are not in the archive to the true functions. (They are not the promised ones: positions among the 2u candidates are used as positions among all new solutions.)", "quantifier": "every population, archive without repeated rows, reference point, uncertainty and every valid argpartition outcome", "why_tests_cant": "argpartition order is unspecified; all populations and archives", "anchors": ["desdeo_emo/utilities/model_management.py::ikrvea_mm"]}
{"id": "C61", "title": "IOPIS problem preference protocol", "statement": "Constructing an IOPISProblem raises ValueError exactly for a PIS_type outside the three names; manage_preferences raises TypeError and changes nothing for a preference of the wrong class (and always for Classification); an accepted preference rebuilds the map from the population's ideal and nadir in minimisation form and leaves the problem's ideal, nadir and recorded fitness untouched. Over any history of re-evaluations, accepted and rejected preferences, the fitness is computed under the preference accepted last.", "quantifier": "every problem state, population and preference object", "why_tests_cant": "all states and objects", "anchors": ["desdeo_emo/problem/IOPIS.py::IOPISProblem.__init__", "desdeo_emo/problem/IOPIS.py::IOPISProblem.manage_preferences"]}
{"id": "C62", "title": "RVEA never loses its whole population", "statement": "For an RVEA made from a problem with at least two fitnesses and the default variation operators: over any history of start, set_interaction_type and iterate calls (with or without preferences, whatever they raise) the population is never empty; every completed generation leaves at least one and at most as many individuals as there are reference vectors, all of them former individuals or offspring with their own evaluation. Without interaction and without save_non_dominated, iterate() returns whenever the problem's evaluation does, and the number of vectors never changes.", "quantifier": "every problem meeting the evaluation contract, every random draw, every history of calls", "why_tests_cant": "unbounded histories; arbitrary fitness values and random draws", "anchors": ["desdeo_emo/EAs/BaseEA.py::BaseDecompositionEA", "desdeo_emo/selection/APD_Select_constraints.py::APD_Select.do", "desdeo_emo/EAs/RVEA.py::RVEA"]}
{"id": "C63", "title": "NSGA-III keeps exactly pop_size individuals through a run", "statement": "For an NSGA-III made from a problem: over any history of calls the population has at least pop_size individuals, and every completed generation leaves exactly pop_size of the former individuals and offspring. (Deviation: given an initial population with fewer than about half of its pop_size attribute, the first generation deletes every individual.)", "quantifier": "every problem meeting the evaluation contract, every valid front sort, every random draw, every history of calls", "why_tests_cant": "unbounded histories; arbitrary fitness values and random draws", "anchors": ["desdeo_emo/EAs/NSGAIII.py::NSGAIII", "desdeo_emo/selection/NSGAIII_select.py::NSGAIII_select.do", "desdeo_emo/EAs/BaseEA.py::BaseDecompositionEA"]}
{"id": "C64", "title": "An accepted preference governs the whole iteration", "statement": "In an interactive EA the reference vectors made from an accepted preference are the ones every selection of that iteration uses and the ones left afterwards (no fitness adaptation overrides them); without a preference, or without interaction, they are the vectors adapted to the fitness at the beginning of the iteration; with an IOPIS problem an accepted preference re-evaluates the fitness of the whole population first and the vectors are adapted to that.", "quantifier": "every EA state, preference, number of generations and outcome of variation, evaluation and selection", "why_tests_cant": "every generation of every iteration and every state", "anchors": ["desdeo_emo/EAs/BaseEA.py::BaseEA.iterate", "desdeo_emo/EAs/BaseEA.py::BaseDecompositionEA.pre_iteration", "desdeo_emo/EAs/BaseEA.py::BaseEA.manage_preferences", "desdeo_emo/selection/SelectionBase.py"]}
{"id": "C65", "title": "EvoNN recombination: nodes are inherited, dead connections stay dead", "statement": "EvoNNRecombination.do returns two offspring per pair of mates, or raises ValueError for Gaussian mutation past the generation budget. Crossover exchanges whole hidden nodes. A connection that no network of the population has never comes back over any history of recombination and selection; with Gaussian mutation each node of each later network is connected only where that node was in one initial network, and two offspring never have more connections together than their parents. Ids given as a flat list or not at all are mated with themselves: there is no crossover.", "quantifier": "every population, mutation type, random draw and history of recombinations and selections", "why_tests_cant": "unbounded histories and arbitrary random draws", "anchors": ["desdeo_emo/recombination/evonn_xover_mutation.py::EvoNNRecombination.do", "desdeo_emo/surrogatemodels/EvoNN.py::EvoNN._create_individuals", "desdeo_emo/population/CreateIndividuals.py::create_new_individuals"]}
{"id": "C66", "title": "EvoNN model selection", "statement": "EvoNN.fit with the default criterion returns normally exactly when the final population is not empty and no network has samples-1 non-zero weights; predict then uses the first network of the final population whatever the AICc values are (documented: the one with the least AICc). With criterion 'min_error' fit always raises and the model stays untrained.", "quantifier": "every final population, every value of errors and AICc", "why_tests_cant": "every population of networks and errors", "anchors": ["desdeo_emo/surrogatemodels/EvoNN.py::EvoNN.select", "desdeo_emo/surrogatemodels/EvoNN.py::EvoNN.fit", "desdeo_emo/surrogatemodels/EvoNN.py::EvoNN.predict"]}
{"id": "C67", "title": "EvoDN2 networks stay well-formed through training", "statement": "EvoDN2's initial networks have num_subnets subnets fitting the variable subsets, each with 1 to max_layers-1 layers of 2 to max_nodes nodes. Over any history of recombination and selection each network has exactly the architecture of one of the initial networks, can be evaluated on every sample having the named variables, and any mating of existing networks succeeds with two offspring per pair. Crossover exchanges weights at equal flat positions (so a bias may become a connection between layers of different width).", "quantifier": "every design, random draw, history, activation function and sample", "why_tests_cant": "unbounded histories of random recombinations of ragged networks", "anchors": ["desdeo_emo/surrogatemodels/EvoDN2.py::EvoDN2._create_individuals", "desdeo_emo/surrogatemodels/EvoDN2.py::EvoDN2._feed_forward", "desdeo_emo/recombination/evodn2_xover_mutation.py::EvoDN2Recombination.do"]}
{"id": "C68", "title": "EvoDN2 uses every variable of the first data", "statement": "The first EvoDN2.fit makes num_subnets non-empty subsets without repetition that together name every variable of the data and nothing else. A later fit keeps them: with more variables the new ones are ignored by every prediction, with fewer every evaluation raises.", "quantifier": "every number of variables and subnets, every random draw, every later data", "why_tests_cant": "all random samples; refitting with other data", "anchors": ["desdeo_emo/surrogatemodels/EvoDN2.py::EvoDN2.fit", "desdeo_emo/surrogatemodels/EvoDN2.py::EvoDN2._feed_forward"]}
{"id": "C69", "title": "EvoDN2 complexity and model selection", "statement": "The complexity of a network is never negative; if it is zero the network's output is the same for every sample, whatever the activation; an input whose part of the complexity is zero does not influence the output. fit selects a network of least training error.", "quantifier": "every well-formed network over an ordered ring, every activation function, sample and list of errors", "why_tests_cant": "all networks of any depth and width", "anchors": ["desdeo_emo/surrogatemodels/EvoDN2.py::EvoDN2._feed_forward", "desdeo_emo/surrogatemodels/EvoDN2.py::EvoDN2.select"]}
{"id": "C70", "title": "Surrogate selection types", "statement": "RVEA and NSGA-III selection with selection_type 'optimistic' selects exactly what 'mean' would on a population with fitness minus uncertainty, 'robust' on fitness plus uncertainty; 'mean' never depends on the uncertainty; without uncertainties (or with an unknown type) the selection raises and keeps its state.", "quantifier": "every population, operator state and penalty", "why_tests_cant": "all real fitness and uncertainty matrices", "anchors": ["desdeo_emo/selection/SelectionBase.py::InteractiveDecompositionSelectionBase._calculate_fitness", "desdeo_emo/selection/NSGAIII_select.py::NSGAIII_select._calculate_fitness", "desdeo_emo/selection/APD_Select_constraints.py::APD_Select.do"]}
{"id": "C71", "title": "Neighbouring angle is the angle to the nearest other reference vector", "statement": "For two or more unit reference vectors neighbouring_angles gives for each vector the least angle to another one, zero exactly if the vector occurs twice (then the selection divides by zero), at most a right angle for non-negative vectors; with fewer than two vectors it raises.", "quantifier": "every list of real unit vectors, any dimension", "why_tests_cant": "all real vectors", "anchors": ["desdeo_emo/utilities/ReferenceVectors.py::ReferenceVectors.neighbouring_angles"]}
{"id": "C72", "title": "The IOPIS EAs can never run a generation", "statement": "However an IOPIS_RVEA or IOPIS_NSGAIII object is constructed (from a problem or around a given population, with any arguments and random outcomes), and after any history of calls with exceptions caught: start() raises eaError, and iterate() raises eaError or AttributeError for every preference. No generation or iteration is ever counted, no offspring are evaluated and the population stays the initial one. A preference that answers the latest request is nevertheless taken over (stored, reference vectors adapted) before the iteration raises; any other preference changes nothing.", "quantifier": "every constructor argument and random outcome, every history of calls, every preference", "why_tests_cant": "a test sees one constructor call and one failing call; the claim is that no sequence of calls and no argument makes these classes work", "anchors": ["desdeo_emo/EAs/IOPIS.py: BaseIOPISDecompositionEA, IOPIS_RVEA, IOPIS_NSGAIII", "desdeo_emo/selection/IOPIS_APD.py: IOPIS_APD_Select", "desdeo_emo/selection/IOPIS_NSGAIII.py: IOPIS_NSGAIII_select", "desdeo_emo/EAs/BaseEA.py: start, iterate, pre_iteration"]}
{"id": "C73", "title": "TournamentEA cannot complete a generation and IK_RVEA cannot be constructed", "statement": "Whatever the population and the selection and recombination operators, a generation of TournamentEA raises TypeError and leaves population and counters unchanged; hence the training loop `while continue_evolution(): iterate()` of BioGP raises at once whenever at least one iteration and one generation are asked for, and runs through, with the population untouched, exactly when no generations per iteration are asked for. TournamentEA without a population raises eaError. Constructing an IK_RVEA raises TypeError for all arguments.", "quantifier": "every population, operator, random outcome, number of iterations and generations, and all constructor arguments", "why_tests_cant": "a test sees one population; the claim is over every population and configuration", "anchors": ["desdeo_emo/EAs/TournamentEA.py: TournamentEA", "desdeo_emo/selection/TournamentSelection.py: TournamentSelection.do", "desdeo_emo/surrogatemodels/BioGP.py: BioGP.fit", "desdeo_emo/EAs/IKRVEA.py: IK_RVEA.__init__"]}
{"id": "C74", "title": "Whole runs of MOEA/D", "statement": "A MOEA_D made from a problem, without interaction, with n_neighbors >= 2 and a population size that is the size of a simplex lattice: after any history of calls, whatever they raised, it holds exactly pop_size individuals and pop_size reference vectors, every subproblem has a neighbourhood of its min(n_neighbors, pop_size) nearest vectors, and iterate() returns whenever evaluation does (with save_non_dominated: once start() was called). With a population_size that is not a lattice size, or n_neighbors < 2, no generation ever completes and every iterate() raises; n_parents other than 2 raises in the constructor. In an interactive run the first turn answered with a reference point returns, but leaves pop_size + m vectors next to the old neighbourhoods; the next iterate(None) recomputes the neighbourhoods and, when n_neighbors reaches all vectors, raises for every random outcome.", "quantifier": "every problem, lattice, number of neighbours, random outcome, failing evaluation, history of calls and preference", "why_tests_cant": "a test sees one size and one history; which sizes work, and that no history breaks the population, are claims over all of them", "anchors": ["desdeo_emo/EAs/MOEAD.py: MOEA_D", "desdeo_emo/selection/MOEAD_select.py: MOEAD_select", "desdeo_emo/EAs/BaseEA.py: BaseDecompositionEA", "desdeo_emo/selection/SelectionBase.py: InteractiveDecompositionSelectionBase"]}
{"id": "C75", "title": "BioGP prediction: value of the expressions, and writing into the data", "statement": "For a fitted BioGP model whose trees use columns of the data: predict() returns one value per row; if no column that a tree divides by directly contains a zero, the value is the bias plus the weighted sum of the subtrees' values on that row and the data are untouched; in general predict() replaces the zeros by ones in exactly the columns some subtree divides by (in the caller's data), and nothing else; rows never influence each other; a second prediction on the same data changes nothing more. Violations found: predicting the same point twice can give different answers, and even the first prediction can differ from the expression's value.", "quantifier": "all trees, weights, data frames (any number of rows and columns), all rows", "why_tests_cant": "Tests use a few smooth data sets without zeros; the effect depends on the tree, the position of the division, the order of evaluation and the zero pattern of every column.", "anchors": ["desdeo_emo/surrogatemodels/BioGP.py: Node.predict, BioGP.predict, div"]}
{"id": "C76", "title": "BioGP fitting: error, complexity and the model that is left behind", "statement": "calculate_linear never raises on an individual with max_subtrees expressions over the training columns, keeps it such an individual, and reports the complexity of the tree as it is afterwards (scalar times depth plus the rest times the number of functions); if no subtree is pruned the reported error is the error of the model's own predictions. If a subtree is pruned, the weights stay where they were, so that the remaining subtrees are weighted with other subtrees' weights: the reported error is then not the model's (concrete violation: an exact fit whose individual predicts another column). Batches are fitted in order; a batch of one raises AttributeError.", "quantifier": "all individuals, training sets, solver results, patterns of low ratios, random regrowths", "why_tests_cant": "Whether pruning happens depends on floating point ratios and on the random trees; the mismatch is invisible in the reported error.", "anchors": ["desdeo_emo/surrogatemodels/BioGP.py: LinearNode.calculate_linear, BioGP._model_performance"]}
{"id": "C77", "title": "Focused reference vectors are a five-degree cone around the reference point", "statement": "ReferenceVectors(creation_type='Focused' or 'Sparse_Focused', ref_point=p): the first vector is the direction of p, the others (3^(m-1)-1, resp. 2(m-1), for m objectives) are unit vectors exactly five degrees away from it, the coordinate axes come last, number_of_vectors counts them all, the planar form of each is the vector divided by its sum. Without p the cone is around the vector of ones. If p is a multiple of the last axis (or zero) every vector but the axes is NaN (violation). Neither a resolution nor a number given: ValueError, though neither is used; an unknown creation type: AttributeError.", "quantifier": "any number of objectives, any reference point, both creation types", "why_tests_cant": "The claim is about real geometry for every reference point and every dimension; the degenerate line is a measure-zero set.", "anchors": ["desdeo_emo/utilities/ReferenceVectors.py: shear, rotate, ReferenceVectors.__init__, ReferenceVectors._create, add_edge_vectors, normalize"]}
{"id": "C78", "title": "slow_interactive_adapt turns the cone rigidly, at most five degrees per call", "statement": "slow_interactive_adapt(p), p not on the line of the central vector: all focused vectors are turned by one rigid motion, axes and number stay, the result says whether p was less than five degrees away; then the central vector becomes the direction of p, otherwise it comes exactly five degrees closer. Repeated calls with p at an angle strictly between n and n+1 steps return False n times, then True. After any history of calls with any points the number of vectors is unchanged, the axes are last, and either all focused vectors are NaN or all pairwise angles are those at the start. Violations: once p is reached, a further call with p not of length one makes every focused vector NaN and returns True; p = 0 makes them NaN; p in the opposite direction raises LinAlgError with nothing changed. p equal to the central vector: None, nothing changes. Other creation types: AssertionError.", "quantifier": "all focused reference vector objects, all reference points, all histories of calls", "why_tests_cant": "Histories are unbounded and the geometry is over all reference points.", "anchors": ["desdeo_emo/utilities/ReferenceVectors.py: rotate_toward, ReferenceVectors.slow_interactive_adapt, add_edge_vectors"]}
{"id": "C79", "title": "Indicator-based environmental selection is elitist", "statement": "IBEA and PBEA with an indicator that respects dominance (the default additive epsilon indicator respects Pareto dominance) and kappa > 0: environmental selection keeps members of the population in their order, and no individual it keeps is dominated by one it throws away. It is not the case that dominated individuals are thrown away first: in a population of five with one dominated individual and four to keep, a nondominated one goes and the dominated one stays (violation).", "quantifier": "all populations, sizes, indicators respecting dominance, scalings", "why_tests_cant": "The order of removals depends on sums of exponentials over the whole population; a test sees one population.", "anchors": ["desdeo_emo/EAs/BaseIndicatorEA.py: BaseIndicatorEA._next_gen", "desdeo_emo/EAs/IBEA.py: _fitness_assignment, _environmental_selection", "desdeo_emo/EAs/PBEA.py: _fitness_assignment, _environmental_selection"]}
{"id": "C80", "title": "Whole runs of IBEA and PBEA", "statement": "Construct IBEA or PBEA with population_size N >= 3 and call start, requests and iterate in any order with any arguments, whatever raises: the population always consists of complete records inside the bounds, N of them (before or in the middle of a generation) or N + N + N%2. A generation that returns keeps exactly N, removed worst first, appends N + N%2 evaluated offspring and counts them. As long as problem.evaluate returns, iterate returns: without interaction always (None), with interaction whenever the answer to the last request is given (the next request). With population_size 1 or 2 every iterate raises ValueError and no generation ever completes (violation).", "quantifier": "all problems, bounds, random draws, histories of calls, points of failure", "why_tests_cant": "Histories and random draws are unbounded, and evaluation may fail at any point.", "anchors": ["desdeo_emo/EAs/BaseIndicatorEA.py: BaseIndicatorEA.__init__, _next_gen, manage_preferences, request_preferences", "desdeo_emo/EAs/BaseEA.py: BaseEA.start, iterate", "desdeo_emo/selection/TournamentSelection.py: TournamentSelection.do", "desdeo_emo/population/Population.py: Population.mate, add, delete"]}
{"id": "C81", "title": "NSGA-III: what a generation can and cannot lose", "statement": "At any point of any history of calls on NSGA-III, a generation that returns keeps exactly pop_size records and throws away nobody who dominates a survivor (dominance in the fitness the selection type believes in). If the population together with its offspring has at most pop_size non-dominated members, everybody is equalled or beaten by a survivor; over any number of such generations nothing found is ever lost. If it has more than pop_size different non-dominated rows, something is lost: some row is not equalled or beaten by any survivor, so that without save_non_dominated the front found is not monotone (violation of the expectation that the population only improves).", "quantifier": "all problems, uncertainty columns, selection types, random draws, histories of calls, numbers of generations", "why_tests_cant": "The claim compares the final population with every vector ever evaluated, over unbounded runs and all random draws.", "anchors": ["desdeo_emo/selection/NSGAIII_select.py: NSGAIII_select.do", "desdeo_emo/EAs/NSGAIII.py: NSGAIII", "desdeo_emo/EAs/BaseEA.py: BaseDecompositionEA._next_gen"]}
{"id": "C82", "title": "RVEA: a dominated individual survives only by being closer to the vector", "statement": "When RVEA's selection keeps an individual although another individual associated with the same reference vector (and no less admissible with respect to constraints) dominates it, then the kept one is strictly closer in angle to the vector and the penalty factor is positive; in particular while the penalty is 0 (start of a run) and without constraints nobody is kept who is dominated within its own vector. Two violations of plain elitism: at the end of a run with the lattice of resolution 2 the population (2,1),(2,2) is reduced to the dominated (2,2); and even with penalty 0 a dominator can go and the dominated stay when they are associated with different vectors.", "quantifier": "all reference vectors, penalties >= 0, populations, constraint matrices", "why_tests_cant": "It relates arbitrary populations to arbitrary vectors through real arithmetic; the ordering of angle penalised distances against dominance cannot be covered by samples.", "anchors": ["desdeo_emo/selection/APD_Select_constraints.py: APD_Select.do", "desdeo_emo/EAs/RVEA.py: RVEA"]}
{"id": "C83", "title": "The other APD selections: one best individual per vector, by which fitness", "statement": "APD_Select (without constraints), Optimistic_APD_Select, robust_APD_Select and IOPIS_APD_Select return, for any nonempty population and vectors, exactly one individual for each vector that is nearest to somebody: the first one of least angle penalised distance, and nobody else. The first works on fitness translated by the problem's ideal (or the population's minimum when unknown), the optimistic/robust ones on fitness minus/plus uncertainty translated by the running minimum of everything seen (TypeError without uncertainties), the IOPIS one on scalarised values. The penalty is min(1, t^alpha*m), in [0,1], nondecreasing in time. Violations: a negative time is not rounded to 0, IOPIS ignores its alpha, a population at or below the problem's ideal collapses to one individual, constraints are ignored.", "quantifier": "all vectors, penalties, ideals, populations, uncertainties, scalarisations, sequences of selections, times", "why_tests_cant": "Holds for every population and every history of selections, over the reals.", "anchors": ["desdeo_emo/selection/APD_Select.py: APD_Select.do, _partial_penalty_factor", "desdeo_emo/selection/oAPD.py: Optimistic_APD_Select.do", "desdeo_emo/selection/robust_APD.py: robust_APD_Select.do", "desdeo_emo/selection/IOPIS_APD.py: IOPIS_APD_Select"]}
{"id": "C84", "title": "IOPIS NSGA-III selection: size, elitism, running ideal", "statement": "IOPIS_NSGAIII_select.do, in whatever state earlier calls left it, returns exactly pop_size distinct valid indices from any population of at least pop_size; in terms of the scalarised values nobody outside dominates anybody inside and everybody non-dominated is in if they fit. After any sequence of calls its ideal is the minimum of all scalarised values seen, whatever the reference points were. With an explicit n_survive every call on a nonempty population raises AttributeError.", "quantifier": "all scalarisations, reference points, states, populations, random draws, sequences of calls", "why_tests_cant": "It holds for every population and every history of calls with random niching.", "anchors": ["desdeo_emo/selection/IOPIS_NSGAIII.py: IOPIS_NSGAIII_select"]}
{"id": "C85", "title": "Whole trainings of EvoNN and EvoDN2", "statement": "A fit of EvoNN that returns leaves a trained model: the criterion was akaike_corrected, the population kept was bred over the training from the initial networks, the layers kept are those of its first network, and its recorded objectives are the loss between the targets and what predict now returns on the training data and its number of non-zero weights; an input no initial network is connected to never influences predictions; without self-adapting mutation a hidden node only uses inputs that the same node of one initial network used. A proper fit (default criterion, known activation, 1..3550 networks) can fail only because no two prey are neighbours or because the AICc denominator is zero; Gaussian mutation never runs past its 100-generation plan. A fit of EvoDN2 that returns keeps a network of least recorded error in the final population, with the recorded error being the loss of its predictions and with an initial network's architecture. Given that numpy's lstsq solves least squares, no other upper layer on the stored hidden nodes or subnets has a smaller sum of squared training errors. A fit that raises leaves the trained flag and (with the default criterion) the predictions of the earlier model as they were. Violations: EvoDN2 cannot be trained with fewer than 2 or at least 3550 networks, and dies in any generation placing fewer than two offspring; EvoNN with any criterion but akaike_corrected never trains.", "quantifier": "all data, activation functions, losses, population sizes, random draws of creation, movement, mating, mutation, placement and hunting, regressor states before fit", "why_tests_cant": "A training is 100 generations of random movement, breeding and killing; the claims hold for every outcome of every draw and every data set.", "anchors": ["desdeo_emo/surrogatemodels/EvoNN.py: EvoNN.fit, EvoNN.predict, EvoNN.select", "desdeo_emo/surrogatemodels/EvoDN2.py: EvoDN2.fit, EvoDN2.predict, EvoDN2.select", "desdeo_emo/EAs/PPGA.py: PPGA", "desdeo_emo/surrogatemodels/Problem.py: surrogateProblem"]}
{"id": "C86", "title": "The two interactions of newRV", "statement": "With three objectives, finite unit vectors and a preference not along the third axis, interact_v2 replaces every reference vector by the unit vector between it and the preferred direction whose distance d from the preferred line is divided by 1+5(1/d²-1/S²), S the greatest distance: no angle to the preference grows, the farthest vectors stay, the order of closeness is kept, and over any history of preferences without negative entries a freshly built object keeps as many vectors as it had, all finite, unit, non-negative and different. interact_v3 rebuilds the set from the initial vectors alone: every initial vector with every combination of signs of the first two entries, pulled towards the third axis, the third axis turned onto the preference, negative results dropped; the preferred direction is among them. Neither updates the planar vectors or number_of_vectors. Violations: a preference along the third axis (or one NaN vector, or all vectors on the preferred line) turns every vector into NaN silently; every vector left by interact_v3 is there at least twice; an all-negative preference leaves no vectors; other numbers of objectives are refused.", "quantifier": "all vector sets, preferences, resolutions and histories of interactions", "why_tests_cant": "Real-valued geometry for all vectors, preferences and unboundedly many interactions.", "anchors": ["desdeo_emo/utilities/newRV.py: newRV.interact_v2, newRV.interact_v3, dist_based_translation, rotate"]}
{"id": "C87", "title": "A whole training of BioGP: what the kept model is, what its recorded error and complexity mean, and when fit cannot return", "statement": "If BioGP.fit returns, the model is trained, no single-objective generations were asked for, the crossover probability was at least 1/2 and the criterion known; every kept individual has exactly max_subtrees subtrees over the given functions and terminals, its fitness are its recorded error and complexity, its weights are least-squares optimal for the subtrees it had when it was evaluated and its recorded error is the loss of that model; the model kept is the first of least recorded error and the reported RMSE is that of predict on the training data. Afterwards predict returns, one value per row, for every data frame that has the terminals as columns. A fit that raises leaves the trained flag and the RMSE as they were. With the constructor's default of ten single-objective generations fit always raises (TypeError on proper data); the recorded error need not be the error of the kept model, and the recorded complexity can count nodes that are no longer part of the model (violations, with concrete trainings). The terminal set is fixed by the first fit, so fitting again on other columns raises KeyError.", "quantifier": "for all data, settings, functions, terminals, loss functions, least-squares solvers, random draws of creation, crossover, mutation, regrowth and of the predator-prey lattice, and all earlier states of the regressor", "why_tests_cant": "a training is a hundred generations of random crossover, mutation, in-place pruning and lattice moves; the invariant must hold for every one of these random histories, and the wrong recorded errors only show up for particular histories", "anchors": ["desdeo_emo/surrogatemodels/BioGP.py: BioGP.fit, BioGP.predict, BioGP.select, BioGP._model_performance, BioGP._create_individuals, LinearNode.calculate_linear", "desdeo_emo/recombination/biogp_xover.py: BioGP_xover.do", "desdeo_emo/recombination/biogp_mutation.py: BioGP_mutation.do", "desdeo_emo/EAs/PPGA.py: PPGA", "desdeo_emo/EAs/TournamentEA.py: TournamentEA"]}
{"id": "C88", "title": "Animations show exactly the populations given, one frame per call", "statement": "animate_init_ on an array with two or more objectives returns a figure whose first plot and only frame, named 0, show exactly the data (column j on axis j, row by row; with four or more objectives the ranges of the axes are the smallest that hold the data). Every later animate_next_ appends exactly one frame showing that call's data and one slider step whose label is the frame's name, leaves earlier frames, steps and the first plot alone, and leaves the file equal to the figure; a call without a generation gets the number of frames so far, so that default calls after animate_init_ are numbered 0,1,2,... . One objective: animate_init_ raises UnboundLocalError and nothing is written, animate_next_ silently does nothing. Violation: mixing explicit and default generations can give two frames the same name.", "quantifier": "all data arrays and all histories of calls on a figure", "why_tests_cant": "The claim ranges over all data and unboundedly many calls on one mutable figure.", "anchors": ["desdeo_emo/utilities/plotlyanimate.py: animate_init_, animate_next_, animate_2d_next_, animate_3d_next_, animate_parallel_coords_next_"]}
{"id": "C89", "title": "The recombination functions mate and mutate keep two offspring per pair and the parents' structure", "statement": "The module functions mate (EvoNN, EvoDN2, BioGP) called without mates pair every individual i with a random one; they return, for each pair in order, two offspring. EvoNN: whole columns of the two mates crosswise, each weight then kept or scaled by one plus a number; from the last generation on (also past the budget, where the class raises) crossover only; a connection no network has never comes back over any history; an unknown mutation type means crossover only. EvoDN2: each offspring has its mate's architecture and every weight is some network's weight at the same position, kept or scaled, and kept from the last generation on; an unknown mutation type returns no offspring at all. A budget of zero raises ZeroDivisionError. BioGP mate: the one draw decides for all pairs (above the crossover probability: copies; at most that less one half: height-fair, so not deeper than the deeper mate), offspring of proper individuals are proper and the pair's number of nodes is conserved. BioGP mutate works in place and returns None: one draw selects the kind, above the probability nothing changes, every individual remains loosely proper (properly so except under point mutation), and only the swapping kind can raise, leaving the individuals from that one on untouched.", "quantifier": "all populations, mates, generation counters, probabilities and random draws", "why_tests_cant": "The claims range over all random draws, all populations and unboundedly long histories of recombination.", "anchors": ["desdeo_emo/recombination/evonn_xover_mutation.py: mate", "desdeo_emo/recombination/evodn2_xover_mutation.py: mate", "desdeo_emo/recombination/biogp_xover.py: mate", "desdeo_emo/recombination/biogp_mutation.py: mutate"]}
{"id": "C90", "title": "Shared arrays: a population can be treated as plain values, and arrays handed out never change", "statement": "The columns of a population are references to numpy arrays. Any history of add, keep, delete and replace, with exceptions caught in between, raises the same exceptions and leaves the same contents in every column as the same history on plain values, provided the arrays given to the first add (individuals, objectives, fitness, constraints, uncertainties) exist and are different arrays. Whatever the package's own algorithms do afterwards (add, keep, delete, creating arrays, and whole MOEA/D steps with their in-place repair, replacement and deletion), every array that existed before - a table of the archive, the data of a plot request, an array the caller got from or gave to the population - keeps its contents; a MOEA/D step has the effect it has on values. replace writes only into the arrays the population refers to at that moment. Only a direct call of replace breaks this: the first add keeps the caller's own array, and replace then overwrites rows of it.", "quantifier": "all heaps of arrays, all populations, all histories of calls including failing evaluations and bad indices, all numbers of turns", "why_tests_cant": "Aliasing bugs need an unbounded interleaving of calls and holders of arrays; the claim is about every array that exists and every later history.", "anchors": ["desdeo_emo/population/Population.py: Population.add, keep, delete, replace, repair", "desdeo_emo/EAs/BaseEA.py: BaseEA.pre_iteration, request_plot, BaseDecompositionEA._next_gen", "desdeo_emo/EAs/MOEAD.py: MOEA_D._next_gen"]}
{"id": "C91", "title": "What start and iterate show is the current population, and an answer by number means the solutions shown", "statement": "Whenever start() or iterate() of a decomposition EA returns, the plot contains the objectives of exactly the individuals the population has at that moment, in population order and under the objective names; a request for preferred or non-preferred solutions (and only such a request) states the number of solutions, which is the number plotted. If the user then makes any calls that do not start an iteration (setting types, rejected answers, start again) and answers with solution numbers, the rows the EA picks are exactly the plotted rows with these numbers. Violated after an iterate() that raised in the middle: the old request is still accepted although the population is no longer the one shown.", "quantifier": "all states, components, generation bodies, histories of calls and index answers", "why_tests_cant": "The claim is about every interleaving of calls between a request and its answer and about every population.", "anchors": ["desdeo_emo/EAs/BaseEA.py: BaseEA.start, iterate, BaseDecompositionEA.request_plot, request_preferences, requests", "desdeo_emo/selection/SelectionBase.py: InteractiveDecompositionSelectionBase.request_preferred_solutions, request_non_preferred_solutions, manage_preferred_solutions, manage_non_preferred_solutions"]}
{"id": "C92", "title": "Archive tables carry the right names, and nested names stop the run", "statement": "If variable, objective and fitness names are plain strings, as many as the arrays have columns, building the archive tables and plots never raises and never changes the run, over any history of calls; with distinct names every value of every archived population can be looked up in its table under its own name, entry by entry, and end() returns these tables with the final population. Groups of objective names (vector-valued objectives) are flattened correctly in the archive when the fitness names are plain, but with several groups the plot cannot be built and neither start() nor iterate() ever returns normally. Nested fitness names with several groups make every iterate() and end() raise when an archive is kept, before any generation. With a single vector-valued fitness the objectives are archived under the fitness names (violation).", "quantifier": "all name lists, populations, components, generation bodies and histories of calls", "why_tests_cant": "The claim ranges over all shapes of name lists and all histories.", "anchors": ["desdeo_emo/EAs/BaseEA.py: BaseEA.pre_iteration, end, BaseDecompositionEA.request_plot, requests"]}
{"id": "C93", "title": "Units, origins and min/max: what matters to which EA", "statement": "Write the same problem down in two ways: the fitness of the second is a positive multiple of the first's (one factor for all objectives) plus a constant per objective, and its objectives are any conversion of the first's, for instance negated and maximised instead of minimised. Two RVEA objects with the same settings and random draws, called with the same history in which answers are reference points (the same point in the respective way of writing), run identically: the same requests and exceptions, individuals, reference vectors, counters and archives. The same holds for NSGA-III for constants added (not for the factor). It is false when the answers are preferred solutions: the raw objective values are mixed into the reference vectors, so the same choice moves them elsewhere under other units, other origins, or maximisation. MOEA/D with a scalarisation that is in the unit of the fitness (Tchebycheff, PBI) runs identically too, for factor and constants. IBEA runs identically if kappa is converted along with the unit; with the same kappa it does not: there are populations of which it discards a different individual when all numbers are doubled. PBEA treats maximised objectives differently from minimised negatives: of two individuals with (positive) objectives to be maximised it discards the dominating one, whatever the reference point, while on the negated problem it discards the dominated one.", "quantifier": "every problem (evaluation outcome, including exceptions, constraints, uncertainties), factor, constants and conversion, variation depending on the individuals, random draws, selection type, settings and history of calls", "why_tests_cant": "It compares two whole runs for every problem, offset and history; a test compares a few runs, and floating point noise hides or imitates differences.", "anchors": ["desdeo_emo/selection/SelectionBase.py: manage_reference_point, manage_preferred_solutions, adapt_RVs", "desdeo_emo/selection/APD_Select_constraints.py: APD_Select.do", "desdeo_emo/selection/NSGAIII_select.py: NSGAIII_select.do", "desdeo_emo/utilities/ReferenceVectors.py: adapt, iteractive_adapt_3, interactive_adapt_1", "desdeo_emo/EAs/BaseEA.py: BaseDecompositionEA", "desdeo_emo/selection/MOEAD_select.py: MOEAD_select.do", "desdeo_emo/EAs/IBEA.py: IBEA._fitness_assignment", "desdeo_emo/EAs/PBEA.py: PBEA._fitness_assignment"]}
{"id": "C94", "title": "An accepted answer steers the search to where it points", "statement": "In an interactive RVEA or NSGA-III, at any moment of any run, an accepted answer decides the reference vectors of the whole next iteration, and they point where the answer says. Reference point (not better than the ideal point in any objective, not equal to it): all N vectors are within arcsin(1/4), 14.5 degrees, of the direction of the reference point seen from the ideal point, then come the axes. Preferred solutions (some, by number): N vectors per named solution, within arcsin(1/(4|z|)) of its objective vector z if |z| > 1/4; if |z| < 1/4 the vectors stay within arcsin(4|z|) of their initial places, so the answer has nearly no effect. Non-preferred solutions: exactly the vectors at distance at least 1/5 from all named solutions are kept. VIOLATED for preferred solutions when objectives are maximised: the raw objective vectors are used while selection works with sign-changed fitness relative to the ideal point, so the search can be sent to the opposite end of the front.", "quantifier": "all numbers of objectives and of vectors, all problems, populations and operators, all histories of calls before the answer, all answers of the named kinds", "why_tests_cant": "the bound on the angle must hold for every reference point, every ideal point and every lattice, after any history; tests look at a few vectors after one call", "anchors": ["desdeo_emo/selection/SelectionBase.py:manage_reference_point, manage_preferred_solutions, manage_non_preferred_solutions", "desdeo_emo/utilities/ReferenceVectors.py:iteractive_adapt_3, interactive_adapt_1, interactive_adapt_2, add_edge_vectors", "desdeo_emo/EAs/BaseEA.py:BaseDecompositionEA.manage_preferences"]}
{"id": "C95", "title": "Crossover and mutation draw from the published distributions", "statement": "Simulated binary crossover spreads its children by the Deb-Agrawal law with index DisC: over a uniform draw the children of a pair are at most b<=1 times as far apart as their parents with probability b^(DisC+1)/2 and at least b>=1 times as far apart with probability b^-(DisC+1)/2. Bounded polynomial mutation changes a gene with probability ProM and then moves it below t (above t) with the closed-form bounded polynomial probability of index DisM. As a consequence, one mate call with the default operators can put a child of two parents inside the bounds into any box inside the bounds, with a probability bounded below by a positive number that does not depend on the parents: no region of the decision space becomes unreachable.", "quantifier": "all parents, bounds, distribution indices, boxes, pairs and genes, and all values of every other draw; probabilities are over all values of the draw named", "why_tests_cant": "a distribution is a statement about all draws at once; sampling can only fail to reject it, and unreachable regions cannot be seen by sampling at all", "anchors": ["desdeo_emo/recombination/SimulatedBinaryCrossover.py:SBX_xover.do", "desdeo_emo/recombination/BoundedPolynomialMutation.py:BP_mutation.do", "desdeo_emo/population/Population.py:Population.mate"]}
{"id": "C96", "title": "Which EAs take the constraints of the problem into account", "statement": "NSGA-III, MOEA/D, IBEA and PBEA do not read constraint values: on two problems with the same objectives and whatever constraint values, the same settings, random draws and answers give the same requests, exceptions, individuals, vectors, counters, archive and archive of non-dominated solutions after every history of calls; hence whatever the final population of NSGA-III is, there are constraints violated by exactly those decision vectors under which the run ends the same. RVEA reads of an individual's constraints only the total violation (sum of the positive values): constraints with the same totals give the same run.", "quantifier": "all pairs of problems agreeing in objectives/fitness/uncertainties, all settings, draws, initial designs and histories of calls", "why_tests_cant": "It is a statement about pairs of runs over all constraint functions and all histories; a test compares a few runs.", "anchors": ["desdeo_emo/selection/APD_Select_constraints.py: APD_Select.do (99-114)", "desdeo_emo/selection/NSGAIII_select.py: NSGAIII_select.do", "desdeo_emo/selection/MOEAD_select.py: MOEAD_select.do", "desdeo_emo/EAs/BaseIndicatorEA.py: BaseIndicatorEA._next_gen", "desdeo_emo/EAs/BaseEA.py: BaseDecompositionEA._next_gen, end", "desdeo_emo/population/Population.py: Population"]}
{"id": "C97", "title": "Bookkeeping options and the grouping of generations do not influence the search", "statement": "keep_archive changes nothing but the archive of populations: two objects constructed from the same arguments, one with and one without it, fail alike or go through every history of calls alike (same population, reference vectors, counters, requests, saved non-dominated solutions, evaluated batches, and every call returns or raises the same). The same holds of save_non_dominated once start() has returned. A non-interactive run of NSGA-III, MOEA/D, IBEA or PBEA (while continue_evolution(): iterate()) depends on n_iterations and n_gen_per_iter only through their product: it ends with the same outcome, population, generation and evaluation counts and saved solutions however the generations are grouped, with or without an evaluation budget.", "quantifier": "all problems, variation, evaluation and selection behaviours (also failing ones), all constructor arguments, all histories of start/set_interaction_type/allowable_interaction_types/iterate, all pairs (n_iterations, n_gen_per_iter) with equal product", "why_tests_cant": "two whole runs have to agree for every problem, every stream of random numbers, every history and every factorisation; random seeds make the two runs incomparable in a test unless every draw is controlled", "anchors": ["desdeo_emo/EAs/BaseEA.py:BaseEA.iterate", "desdeo_emo/EAs/BaseEA.py:BaseEA.pre_iteration", "desdeo_emo/EAs/BaseEA.py:BaseDecompositionEA._next_gen", "desdeo_emo/EAs/BaseEA.py:BaseEA.non_dominated_archive", "desdeo_emo/EAs/MOEAD.py:MOEA_D._next_gen", "desdeo_emo/selection/NSGAIII_select.py:NSGAIII_select.do"]}
{"id": "C98", "title": "A run sees the problem only at the points it evaluates", "statement": "For an EA of the decomposition family (RVEA, NSGA-III) for MOEA/D and for the indicator-based EAs (IBEA, PBEA) built from a problem whose evaluation does not raise: if a second problem gives the same results on every batch containing no decision vector of some set D, and no vector of D was evaluated during a history of calls on the first problem, then construction on the second problem gives the same object, every call of the same history returns the same result and leaves the same object. Hence for a problem evaluated vector by vector, after any history there is in any infinite set of decision vectors (such as the box between the bounds) a vector that was never evaluated and is not in the population, to which the problem could give any objectives and fitness whatever without the run being any different: no finite run certifies that what it returns is optimal.", "quantifier": "every problem, every set D of decision vectors, every second problem agreeing off D, every configuration, random stream and history of calls", "why_tests_cant": "It is a statement about all pairs of problems and all histories; a test compares a few runs on a few problems.", "anchors": ["desdeo_emo/EAs/BaseEA.py:BaseDecompositionEA._next_gen", "desdeo_emo/EAs/BaseEA.py:BaseEA.iterate", "desdeo_emo/population/Population.py:Population.add", "desdeo_emo/EAs/MOEAD.py:MOEA_D._next_gen", "desdeo_emo/EAs/BaseIndicatorEA.py:BaseIndicatorEA._next_gen"]}
{"id": "C99", "title": "Handing the population of one EA object to a new one", "statement": "Let an EA that is not interactive and has no evaluation budget run its n_iterations of n_gen_per_iter generations to the end, and let a new EA object of the same class be made with its population as initial_population, in the same process (it goes on with the same random numbers), and run its own n_iterations2 of n_gen_per_iter2 (the first object is then no longer used: the two share the population object). (a) For IBEA, PBEA and MOEA/D the two together are one run: an object made like the first with as many generations as the two runs together ends with the same result, the same population as the second, as many generations and evaluations as the two together and the same batches evaluated in the same order. (b) For NSGA-III the second run is that of the first object continued with the ideal point, worst fitness and extreme points of its selection operator reset. (c) Deviations: that reset is not without effect (NSGA-III normalises the next generation with another nadir); MOEA/D made from a population with fewer than pop_size - 1 members cannot complete a generation; NSGA-III made from a population with too few members loses all of them in its first generation.", "quantifier": "all problems, decision spaces, populations, random draws, numbers of iterations and generations of the two runs, groupings of the undivided run, preferences given (ignored without interaction), n_neighbors, number of objectives", "why_tests_cant": "It compares runs of arbitrary length under arbitrary random numbers; a test compares one stop point of one seeded run, and would have to carry over the generator's state exactly.", "anchors": ["desdeo_emo/EAs/BaseEA.py:386-393 BaseDecompositionEA.__init__ (initial_population)", "desdeo_emo/EAs/BaseIndicatorEA.py:83-90 BaseIndicatorEA.__init__", "desdeo_emo/EAs/MOEAD.py:62-146 MOEA_D.__init__, _next_gen", "desdeo_emo/selection/NSGAIII_select.py:24-119 NSGAIII_select", "desdeo_emo/EAs/BaseEA.py:138-196 BaseEA.iterate, continue_evolution"]}
{"id": "C100", "title": "Sooner or later every region of the decision space is sampled", "statement": "With the default operators, whatever the problem, the selection, the preferences and all other random draws do: the probability that G generations of a decomposition EA or of an indicator-based EA with at least three individuals (or G subproblem rounds of MOEA/D) go by without a vector of a given box inside the bounds being evaluated, the population staying free of NaN, is at most (1-p)^G with a positive p that depends only on the bounds and the box. It goes to zero; in particular, for every continuous objective, a value arbitrarily close to its best value is found with probability tending to one. A population that has lost all numbers of a gene to NaN never recovers them.", "quantifier": "every problem whose evaluations return, every population of numbers inside the bounds, every selection rule, every box / open set, every number of generations, all other random draws", "why_tests_cant": "a statement about probabilities over all infinite continuations of a run, uniformly in the population; a test samples finitely many runs", "anchors": ["desdeo_emo/EAs/BaseEA.py: BaseDecompositionEA._next_gen", "desdeo_emo/EAs/MOEAD.py: MOEA_D._next_gen", "desdeo_emo/population/Population.py: mate", "desdeo_emo/recombination/SimulatedBinaryCrossover.py: SBX_xover.do", "desdeo_emo/recombination/BoundedPolynomialMutation.py: BP_mutation.do", "desdeo_emo/EAs/BaseIndicatorEA.py: BaseIndicatorEA._next_gen"]}
{"id": "C101", "title": "Neural surrogates are bounded and Lipschitz, and EvoDN2's reported complexity bounds its sensitivity", "statement": "The activation functions \"sigmoid\", \"tanh\" and \"relu\" are monotone and never amplify a difference; sigmoid stays in (0, 1), tanh in (-1, 1); any other name is refused. Hence a trained EvoNN or EvoDN2 with sigmoid or tanh never predicts a value farther from the bias of its upper layer than the sum of the absolute upper weights, however far the input is from the training data; if every input moves by at most δ, the prediction of EvoNN moves by at most δ times the sum of the absolute path weights, and that of EvoDN2 by at most δ times its reported complexity times the largest absolute upper weight.", "quantifier": "every trained model (every training, data set, loss, random outcome), all pairs of inputs, all three activation functions", "why_tests_cant": "bounds over all real inputs and all trained weights; a test evaluates finitely many points of finitely many models", "anchors": ["desdeo_emo/surrogatemodels/EvoNN.py: activate, predict", "desdeo_emo/surrogatemodels/EvoDN2.py: activate, _feed_forward, predict"]}
{"id": "C102", "title": "No surrogate of a training population is worse than predicting the mean", "statement": "If np.linalg.lstsq returns least squares solutions: after a fit that returned, the error recorded for every individual of the final population of EvoNN, EvoDN2 or BioGP (BioGP: on data without zeros) is the loss of predictions whose sum of squared errors is at most that of always predicting the mean of the targets, so a recorded \"mse\" lies between 0 and the variance of the targets and a recorded \"neg_r2\" between -1 and 0; constant targets are met exactly. The trained EvoNN and EvoDN2 themselves have a coefficient of determination between 0 and 1 on the training data. The losses \"mse\" and \"neg_r2\" rank predictions of non-constant targets in the same way; unknown loss names are refused at construction.", "quantifier": "every data set with at least one sample, every training that returns, every individual of the final population, every random outcome", "why_tests_cant": "a bound over all trainings and data sets; a test sees one trained population at a time", "anchors": ["desdeo_emo/surrogatemodels/EvoNN.py: fit, calculate_linear, _model_performance", "desdeo_emo/surrogatemodels/EvoDN2.py: fit, _calculate_linear, select", "desdeo_emo/surrogatemodels/BioGP.py: calculate_linear, fit"]}
{"id": "C103", "title": "How likely each individual is to become a parent in a tournament", "statement": "If each tournament draws its aspirants uniformly without repetition (as numpy does), then in a call of tournament selection on m+1 individuals the parents are independent; a parent's stored fitness exceeds t with probability N(N-1)...(N-size+1) / (m(m-1)...(m-size+1)), N the number of individuals other than the last whose fitness exceeds t; an individual with a fitness of its own, other than the last, is parent number i with probability size * N(N-1)...(N-size+2) / (m(m-1)...(m-size+1)), N counting those (other than the last) with a larger fitness, and is expected m+1 times that often among the parents. So with IBEA's and PBEA's binary tournaments the probability 2N/(m(m-1)) falls with the fitness that environmental selection maximises; the individual with the largest fitness among the first m, and the last individual, never become parents.", "quantifier": "every population size, tournament size and fitness array, ties included where stated; all outcomes of the draws, weighted equally", "why_tests_cant": "a statement about the distribution over all random draws, for every size", "anchors": ["desdeo_emo/selection/TournamentSelection.py::TournamentSelection.do", "desdeo_emo/selection/TournamentSelection.py::TournamentSelection._tour_select", "desdeo_emo/EAs/BaseIndicatorEA.py::BaseIndicatorEA._next_gen"]}
{"id": "C104", "title": "The archive closes in on the whole Pareto front", "statement": "With the default operators, continuous objectives on a box and save_non_dominated on: whatever the EA of the decomposition family selects and whatever preferences it is given, the probability that after each of G generations since start() (the population staying free of NaN) some decision vector between the bounds is not matched by an archived solution that is in no objective more than eps worse, is at most N(1-p)^G, with N and p>0 depending on the objectives, the bounds and eps only; it tends to zero for every eps>0. The same holds for MOEA/D with subproblem rounds in place of generations, as long as no round raises. No archived fitness is unattained: every archived vector carries its own fitness.", "quantifier": "all dimensions, continuous objective functions, bounds, margins, populations, selections, preferences, other draws and numbers of generations", "why_tests_cant": "a limit statement about probabilities over all runs and all problems", "anchors": ["desdeo_emo/EAs/BaseEA.py::BaseEA.non_dominated_archive", "desdeo_emo/EAs/BaseEA.py::BaseDecompositionEA._next_gen", "desdeo_emo/recombination/SimulatedBinaryCrossover.py::SBX_xover.do", "desdeo_emo/recombination/BoundedPolynomialMutation.py::BP_mutation.do", "desdeo_emo/EAs/MOEAD.py::MOEA_D._next_gen"]}
{"id": "C105", "title": "The order of the individuals does not matter", "statement": "The same individuals in another order: RVEA's selection succeeds on both or on none, leaves the same ideal point, and the selected individuals agree pair by pair in reference vector, angle penalised distance, feasibility and violation; unless different individuals tie for a vector, exactly the same individuals are selected in the same order. end() returns the same solutions with the same multiplicities. The archive is the same however the evaluations were ordered and batched, as long as no offspring dominates another of its own batch (for MOEA/D always), and can differ otherwise. IBEA's and PBEA's environmental selection keeps the same individuals unless different ones tie for the worst place.", "quantifier": "all populations, permutations of them, reference vectors, constraint values, indicators and batchings", "why_tests_cant": "there are n! orders of n individuals, and the statement is about all of them and all populations", "anchors": ["desdeo_emo/selection/APD_Select_constraints.py::APD_Select.do", "desdeo_emo/EAs/BaseEA.py::BaseDecompositionEA.end", "desdeo_emo/EAs/BaseEA.py::BaseEA.non_dominated_archive", "desdeo_emo/EAs/BaseIndicatorEA.py::BaseIndicatorEA._next_gen"]}
{"id": "C106", "title": "The arguments of a constructor call reach the run", "statement": "RVEA, NSGAIII, MOEA_D, IBEA, PBEA, IOPIS_RVEA, IOPIS_NSGAIII, TournamentEA and PPGA: a call that Python accepts for the documented signature is accepted all the way up the chain of base classes, and any other call raises TypeError; IK_RVEA raises TypeError for every call. In the object returned every documented setting has the value given for it, by position or by keyword, and the documented default otherwise; the settings a class does not offer have fixed values (IOPIS is interactive; IBEA, PBEA, IOPIS, TournamentEA and PPGA keep no archive; TournamentEA and PPGA have no evaluation limit). The loops of RVEA, NSGAIII and MOEA_D compare with exactly these numbers: an object constructed from a problem alone runs 10 iterations of 100 generations. They either go on with the population given, the problem then being None, or create and evaluate as many individuals as population_size says, or else as many as the lattice_resolution has vectors, or else the usual number for the number of objectives.", "quantifier": "all classes, all positional and keyword arguments in all orders and combinations", "why_tests_cant": "there are exponentially many ways to split the arguments between positions, keywords and defaults, and a forwarding mistake shows only in those that set the forgotten one", "anchors": ["desdeo_emo/EAs/BaseEA.py::BaseEA.__init__", "desdeo_emo/EAs/BaseEA.py::BaseDecompositionEA.__init__", "desdeo_emo/EAs/RVEA.py::RVEA.__init__", "desdeo_emo/EAs/NSGAIII.py::NSGAIII.__init__", "desdeo_emo/EAs/MOEAD.py::MOEA_D.__init__", "desdeo_emo/EAs/IBEA.py::IBEA.__init__", "desdeo_emo/EAs/PBEA.py::PBEA.__init__", "desdeo_emo/EAs/IOPIS.py::IOPIS_RVEA.__init__", "desdeo_emo/EAs/IKRVEA.py::IK_RVEA.__init__", "desdeo_emo/EAs/TournamentEA.py::TournamentEA.__init__", "desdeo_emo/EAs/PPGA.py::PPGA.__init__"]}
{"id": "C107", "title": "An evaluation that raises loses nothing, and the run can go on", "statement": "For RVEA and NSGA-III: when a generation raises, what it raises is what the problem's evaluation of the offspring raised, and the EA object is exactly as before that generation (population, reference vectors, selection operator, counters of generations and evaluations, archives, the pending preference request), only time has passed; as soon as evaluation works, the generation returns. An iterate() that raises leaves the object as an iterate() of the generations that were completed would have left it, except that the iteration is not counted. A user who catches the exception and calls iterate() again, however often, therefore gets for NSGA-III the run of an undisturbed object that makes as many generations (same population, counters, saved solutions, evaluated batches), and for RVEA with one generation per iteration the run with the failed calls left out.", "quantifier": "every box-bounded problem, every population size, number of objectives, selection type, every history of calls on the object, every behaviour of the random draws and of the evaluation (raising at any set of moments, with any error), any number of repeated calls; save_non_dominated after a start() that returned, or off", "why_tests_cant": "the claim is about every set of moments at which an evaluation (a simulation, a network call) fails and every pattern of retries; a test fixes one failure in one run", "anchors": ["desdeo_emo/EAs/BaseEA.py:BaseEA.iterate", "desdeo_emo/EAs/BaseEA.py:BaseDecompositionEA._next_gen", "desdeo_emo/population/Population.py:Population.add", "desdeo_emo/selection/APD_Select.py:APD_Select.do", "desdeo_emo/selection/NSGAIII_select.py:NSGAIII_select.do"]}
{"id": "C108", "title": "What an evaluation that raises leaves behind in IBEA, PBEA and MOEA/D", "statement": "IBEA and PBEA: when a generation raises, what it raises is what the problem's evaluation of the offspring raised; environmental selection has then already been made (the worst have been removed until pop_size are left) and nothing else has changed: no generation and no evaluation is counted. IBEA without interaction: a user who catches exceptions and calls iterate() again, however often, gets the run of an undisturbed object that makes as many generations: same counters, same batches evaluated, and the same population or what the next environmental selection leaves of it. MOEA/D without interaction: a generation that raises stops at some subproblem i with the exception of that evaluation, and the object is as after the subproblems before i: population size unchanged, i evaluations counted, their improvements kept, the generation not counted. Deviation: with interaction, every iterate(preference) of IBEA/PBEA that raises in a generation has already doubled n_iterations and total_function_evaluations, and the same preference is accepted again, so k failing attempts multiply the limits by 2^k without an iteration being counted.", "quantifier": "every box-bounded problem, population size (at least three for IBEA/PBEA, a lattice size for MOEA/D), indicator, random draws, history of calls, and every set of moments at which evaluation raises", "why_tests_cant": "the claim is about every set of failing evaluations and every pattern of retries in every history; a test fixes one failure in one run", "anchors": ["desdeo_emo/EAs/BaseIndicatorEA.py:BaseIndicatorEA._next_gen", "desdeo_emo/EAs/BaseIndicatorEA.py:BaseIndicatorEA.manage_preferences", "desdeo_emo/EAs/BaseEA.py:BaseEA.iterate", "desdeo_emo/EAs/MOEAD.py:MOEA_D._next_gen", "desdeo_emo/population/Population.py:Population.add"]}
{"id": "C109", "title": "Variable bounds hold in floating point arithmetic, with rounding", "statement": "Whatever rounding does to the arithmetic of crossover and mutation (any results of + - * / ** whatever, as long as one times a bound is that bound), every offspring of the default operators, and everything `repair` returns, is in every component NaN or within its bounds; so in a run of RVEA, NSGA-III, MOEA/D, IBEA or PBEA the problem is never evaluated outside the bounds. Entries of the random design, computed as u * (upper - lower) + lower with every step rounded to nearest in any binary format with p bits (subnormals included, overflow excluded), are within bounds that are floats whenever 0 <= u <= 1 - 2^-p, which is what np.random.random gives; so after constructing an EA and any history of calls no individual it holds is outside the bounds. A draw of exactly one can leave the bounds in double precision. With exact arithmetic the operators are those of the exact model.", "quantifier": "every precision and exponent range, every rounding to nearest with any tie rule, every arithmetic for the operators, all bounds, parameters, draws, populations and histories of calls", "why_tests_cant": "Rounding errors that push a value out by one unit in the last place occur for very few of the 2^64 values per operand; tests with random bounds do not meet them, and a test passes on one platform's pow only.", "anchors": ["desdeo_emo/population/CreateIndividuals.py: create_new_individuals", "desdeo_emo/recombination/BoundedPolynomialMutation.py: BP_mutation.do", "desdeo_emo/recombination/SimulatedBinaryCrossover.py: SBX_xover.do", "desdeo_emo/population/Population.py: mate, repair"]}
{"id": "C110", "title": "One NaN objective value ends an RVEA run and stays in MOEA/D for good", "statement": "If, when RVEA selects, the fitness of any individual or offspring, the remembered ideal point or the problem's ideal holds a NaN in some objective, then the remembered ideal point is NaN in that objective from then on, whatever is selected from later, and at most one individual is selected: nobody when there are no constraints and at least two individuals, or when two are feasible; the single feasible one when there is exactly one. Without constraints the generation completes with an empty population, and over every later history of calls no further generation completes: every iterate() with generations to do raises. Without NaN the selection is the one of C29 and C62. In MOEA/D an individual whose scalarised value is NaN is never replaced, and once the ideal point is NaN the population never changes again although every generation still evaluates pop_size vectors.", "quantifier": "all numbers of objectives, vectors and individuals, all fitness values and ideal points with a NaN anywhere, all constraint values, all penalty factors and angles, all random draws, all later evaluations and call histories; MOEA/D: all scalarization functions, numbers of generations and offspring", "why_tests_cant": "A test can show one NaN in one population; that no later call, population or preference can undo it, and that it does not matter where the NaN is, quantifies over all populations and histories.", "anchors": ["desdeo_emo/selection/APD_Select_constraints.py:APD_Select.do", "desdeo_emo/selection/MOEAD_select.py:MOEAD_select.do", "desdeo_emo/EAs/BaseEA.py:BaseDecompositionEA._next_gen", "desdeo_emo/EAs/MOEAD.py:MOEA_D._next_gen"]}
{"id": "C111", "title": "One NaN indicator value turns IBEA and PBEA selection into first in, first out", "statement": "If every individual has somebody else against whom its indicator value is NaN (one individual with NaN values in both directions is enough), then every fitness value becomes NaN, and environmental selection removes individuals from the front until pop_size are left: the pop_size most recently added survive whatever their objectives, so when the last batch of offspring is at least pop_size long every parent is lost; the stored fitness values stay NaN; a tournament in which either aspirant's fitness is NaN is won by the one drawn first; and a generation that completes holds exactly the newest pop_size individuals followed by the new offspring. When all values are numbers the selection and the tournament are those of C45 and C46.", "quantifier": "all populations of any size with records of any kind, all indicators, all pop_size > 0, all draws, matings and evaluations", "why_tests_cant": "A test can show one population with one NaN; that the survivors never depend on any objective value quantifies over all populations and indicators.", "anchors": ["desdeo_emo/EAs/BaseIndicatorEA.py:BaseIndicatorEA._next_gen", "desdeo_emo/EAs/IBEA.py:IBEA._fitness_assignment", "desdeo_emo/EAs/PBEA.py:PBEA._environmental_selection", "desdeo_emo/selection/TournamentSelection.py:TournamentSelection._tour_select"]}
{"id": "C112", "title": "One NaN objective value makes NSGA-III choose by lot, for good", "statement": "If any individual's fitness, or the ideal point remembered by the selection operator, holds a NaN in some objective, the remembered ideal point is NaN there after the selection and after every later one, whatever is selected from (a NaN fitness value does the same to the remembered worst point). Then the last front that only fits in part is filled by random draws without replacement: two selections with the same fronts, number of places and random numbers return the same places however much their fitness values, reference vectors (preferences) and history differ. Without NaN the selection is the one of C33-C36 and C54. Dominance passes over components that are NaN in either row: it coincides with the usual one without NaN, but three individuals can dominate each other in a circle, an individual with a NaN can evict an archived one that has a value there, and rows of NaN only are always reported as non-dominated and never evicted from the archive.", "quantifier": "all numbers of objectives, individuals, reference vectors and places, all fitness rows with NaN anywhere, all earlier states, all fronts, all outcomes of shuffles, all linear solvers, all later histories of selections; all archives and new batches", "why_tests_cant": "A test sees one population with a NaN; that no fitness value, reference vector or later call ever matters again quantifies over all of them.", "anchors": ["desdeo_emo/selection/NSGAIII_select.py:NSGAIII_select.do", "desdeo_emo/selection/NSGAIII_select.py:NSGAIII_select.associate_to_niches", "desdeo_emo/selection/NSGAIII_select.py:NSGAIII_select.niching", "desdeo_emo/utilities/non_dominated.py:check_domination"]}
{"id": "C113", "title": "What an infinite objective value does to RVEA", "statement": "Simulations that fail are often reported by an infinite objective value. (1) During an iteration, while the reference vectors and the remembered ideal point are numbers, this is harmless to everybody else: RVEA's selection without constraints returns; the new ideal point is the componentwise least of the old one, the problem's and all finite entries of the fitness rows; and the individuals selected are those that the selection picks when the individuals with an infinite entry are taken out of the population, with one exception: a failed individual is kept in addition if it is the only one that failed and no other individual has the first reference vector as its nearest. If all objectives of the failed ones are infinite, the ideal point too is the one of the population without them. (2) At the beginning of an iteration it is fatal: the reference vectors are scaled by the range of the population, so that if one value in objective i is infinite or NaN, every reference vector is NaN in i afterwards. Then the first generation of that iteration, whatever the values of its offspring, leaves an empty population; a second one raises, and over every later history of calls the population stays empty, no generation is ever counted again and every iterate() with generations to do raises. (3) On numbers all of this is the selection and the adaptation of C22 to C30.", "quantifier": "every population, every set of reference vectors, angles, penalty factor and ideal point, every position and number of infinite entries; every random draw and every later history of calls", "why_tests_cant": "it compares the selection with and without arbitrary subsets of failed individuals for all fitness values, and speaks about all later histories", "anchors": ["desdeo_emo/selection/APD_Select_constraints.py:43-145", "desdeo_emo/utilities/ReferenceVectors.py:221-273", "desdeo_emo/selection/SelectionBase.py:102-104", "desdeo_emo/EAs/BaseEA.py:138-152", "desdeo_emo/EAs/BaseEA.py:420-442"]}
{"id": "C114", "title": "IBEA discards failed simulations first, but breeds from them", "statement": "Let IBEA (default additive epsilon indicator, positive kappa) hold a population in which some individuals failed (infinite in all objectives) and every other one has a value below infinity in some objective. Environmental selection returns, with pop_size survivors or everybody; nobody who has not failed is removed while a failed individual is left: if at most pop_size have not failed they all survive, and if at least that many, no failed one survives and the survivors are exactly those chosen from the population without the failed ones. While a failed individual is in the population its stored fitness is less than that of every one that has not failed; and since the tournament prefers small fitness (C46), of a failed aspirant and one that has not failed the failed one becomes the parent. On numbers the indicator terms are those of C45 and C79.", "quantifier": "every population, number and position of failed individuals, kappa, population size and tournament draw", "why_tests_cant": "it compares the outcome with that on the population without the failed individuals, for all of them", "anchors": ["desdeo_emo/EAs/IBEA.py:84-107", "desdeo_emo/EAs/BaseIndicatorEA.py:106-128", "desdeo_emo/selection/TournamentSelection.py:33-74"]}
{"id": "C115", "title": "MOEA/D with its default scalarization never gets rid of a failed simulation", "statement": "Let MOEA/D use its default scalarization (PBI), and let an individual be failed if some objective is infinite or NaN. Over any number of completed generations, whatever offspring are produced and whatever the ideal point is, every failed individual is the same individual at the same position at the end, however good the offspring of its neighbourhood were, and every other position is held by an individual that has not failed: the failed ones of the initial population stay for ever and failed offspring never enter. With the Tchebycheff scalarization instead, an offspring whose objectives are numbers replaces every neighbour with an infinite objective (and no NaN). On numbers the scalarization is the penalty boundary intersection of the other properties.", "quantifier": "every population, set of failed individuals, reference vectors with non-negative entries, ideal point (infinite or NaN included), theta, neighbourhoods, random draws, offspring and number of generations", "why_tests_cant": "it is a claim about all offspring and all numbers of generations: a test sees some offspring not entering", "anchors": ["desdeo_emo/EAs/MOEAD.py:62-149", "desdeo_emo/selection/MOEAD_select.py:46-106"]}
{"id": "C116", "title": "NSGA-III discards failed simulations first, but they can disable niching", "statement": "Let a simulation that failed be reported by infinity in every objective. NSGA-III's selection returns exactly pop_size different individuals whatever fitness values are infinite or NaN and whatever its internal state; and no failed individual is among them while an individual without NaN that is below infinity somewhere is left out: if at least pop_size have not failed no failed one is selected, if at most pop_size have not failed they all are. But if a population of individuals with numbers contains one failed individual and the extreme points span no hyperplane (so that the worst of the population stands in for the nadir point), then the members taken of the front that fits only in part are drawn by lot: which places are taken depends on nothing but the shuffles, on no fitness value, reference vector, preference or earlier history. On numbers (no reference vector zero) this selection is the one of C33-C36, with the same state afterwards. And an infinite or NaN objective is an advantage in niching: while the ideal and nadir points are numbers, a member of the last front with such an objective is assigned to the first reference vector at distance NaN, and whenever niching turns to that vector while nobody is assigned to it, a member with such an objective is taken if one is still available, however near others are.", "quantifier": "every population, number and position of failed individuals, state of the operator, set of non-zero reference vectors, solver of linear equations and random draw", "why_tests_cant": "it says for all fitness values, vectors and histories that the outcome does not depend on them", "anchors": ["desdeo_emo/selection/NSGAIII_select.py:36-255"]}
