{
 "claims": [
  {
   "property": "C01",
   "status": "proved",
   "theorems": [
    "Verif.Props.c01_population_is_record_list",
    "Verif.Props.c01_columns_same_length",
    "Verif.Props.c01_rows_are_evaluations",
    "Verif.Props.c01_dimension_mismatch_breaks_alignment",
    "Verif.Props.c01_mixed_uncertainty_raises_after_adding"
   ],
   "note": ""
  },
  {
   "property": "C02",
   "status": "proved",
   "theorems": [
    "Verif.Props.c02_keep",
    "Verif.Props.c02_keep_out_of_range",
    "Verif.Props.c02_keep_only_set_matters"
   ],
   "note": ""
  },
  {
   "property": "C03",
   "status": "proved",
   "theorems": [
    "Verif.Props.c03_delete",
    "Verif.Props.c03_delete_out_of_range",
    "Verif.Props.c03_keep_delete_partition",
    "Verif.Props.c03_delete_all_then_add"
   ],
   "note": ""
  },
  {
   "property": "C04",
   "status": "proved",
   "theorems": [
    "Verif.Props.c04_add_appends",
    "Verif.Props.c04_add_failure",
    "Verif.Props.c04_uncertainty_forgotten"
   ],
   "note": ""
  },
  {
   "property": "C05",
   "status": "proved",
   "theorems": [
    "Verif.Props.c05_replace",
    "Verif.Props.c05_replace_out_of_range"
   ],
   "note": ""
  },
  {
   "property": "C06",
   "status": "proved",
   "theorems": [
    "Verif.Props.c06_repair_component",
    "Verif.Props.c06_repair_nan",
    "Verif.Props.c06_repair",
    "Verif.Props.c06_repair_in_bounds"
   ],
   "note": ""
  },
  {
   "property": "C07",
   "status": "proved",
   "theorems": [
    "Verif.Props.c07_archive_covers_everything_evaluated",
    "Verif.Props.c07_archive_of_a_run"
   ],
   "note": ""
  },
  {
   "property": "C08",
   "status": "proved",
   "theorems": [
    "Verif.Props.c08_no_pareto_optimal_solution_lost",
    "Verif.Props.c08_pareto_optimal_is_archived",
    "Verif.Props.c08_update_before_start_raises"
   ],
   "note": ""
  },
  {
   "property": "C09",
   "status": "proved",
   "theorems": [
    "Verif.Props.c09_archive_exact",
    "Verif.Props.c09_archive_mutually_nondominated_moead",
    "Verif.Props.c09_dominated_only_within_a_batch",
    "Verif.Props.c09_counterexample_archive",
    "Verif.Props.c09_mutual_nondominance_violated",
    "Verif.Props.c09_archive_of_a_run",
    "Verif.Props.c09_archive_of_a_moead_run"
   ],
   "note": ""
  },
  {
   "property": "C10",
   "status": "proved",
   "theorems": [
    "Verif.Props.c10_indicator_iterate",
    "Verif.Props.c10_iterate_runs_exactly_n_gen",
    "Verif.Props.c10_driver_runs_all_iterations",
    "Verif.Props.c10_full_run",
    "Verif.Props.c10_ppga"
   ],
   "note": ""
  },
  {
   "property": "C11",
   "status": "proved",
   "theorems": [
    "Verif.Props.c11_indicator_budget",
    "Verif.Props.c11_iterate_respects_budget",
    "Verif.Props.c11_driver_respects_budget",
    "Verif.Props.c11_limit_can_be_exceeded"
   ],
   "note": ""
  },
  {
   "property": "C12",
   "status": "proved",
   "theorems": [
    "Verif.Props.c12_indicator_counter",
    "Verif.Props.c12_indicator_given_population",
    "Verif.Props.c12_iterate_counts_evaluations",
    "Verif.Props.c12_after_construction",
    "Verif.Props.c12_counter_is_number_of_evaluations",
    "Verif.Props.c12_surrogate_counter_violated",
    "Verif.Props.c12_counter_behind_after_exception",
    "Verif.Props.c12_ppga"
   ],
   "note": ""
  },
  {
   "property": "C13",
   "status": "proved",
   "theorems": [
    "Verif.Props.c13_rejected_preference_changes_nothing",
    "Verif.Props.c13_rejected_calls_can_be_erased",
    "Verif.Props.c13_problem_rejection_changes_nothing",
    "Verif.Props.c13_noninteractive_ignores_preference",
    "Verif.Props.c13_unset_type_raises_after_the_work"
   ],
   "note": ""
  },
  {
   "property": "C14",
   "status": "proved",
   "theorems": [
    "Verif.Props.c14_only_latest_request_accepted",
    "Verif.Props.c14_class_belongs_to_the_name",
    "Verif.Props.c14_normal_return_means_accepted",
    "Verif.Props.c14_ranges_request_unanswerable"
   ],
   "note": ""
  },
  {
   "property": "C15",
   "status": "proved",
   "theorems": [
    "Verif.Props.c15_start_needs_valid_type",
    "Verif.Props.c15_start_refuses_unset_type",
    "Verif.Props.c15_valid_type_starts",
    "Verif.Props.c15_flag_unreliable",
    "Verif.Props.c15_constructed_from_problem"
   ],
   "note": ""
  },
  {
   "property": "C16",
   "status": "proved",
   "theorems": [
    "Verif.Props.c16_problem_xor_population",
    "Verif.Props.c16_interactive_from_population_never_starts"
   ],
   "note": ""
  },
  {
   "property": "C17",
   "status": "proved",
   "theorems": [
    "Verif.Props.c17_population_size_is_number_of_vectors",
    "Verif.Props.c17_default_population_size",
    "Verif.Props.c17_explicit_size_is_upper_bound"
   ],
   "note": ""
  },
  {
   "property": "C18",
   "status": "proved",
   "theorems": [
    "Verif.Props.c18_iterate_records_start",
    "Verif.Props.c18_archive_is_log_of_iteration_starts",
    "Verif.Props.c18_no_overwriting_without_budget",
    "Verif.Props.c18_overwritten_when_budget_used_up"
   ],
   "note": ""
  },
  {
   "property": "C19",
   "status": "proved",
   "theorems": [
    "Verif.Props.c19_end_returns_nondominated",
    "Verif.Props.c19_contract_satisfiable"
   ],
   "note": ""
  },
  {
   "property": "C20",
   "status": "proved",
   "theorems": [
    "Verif.Props.c20_uniform_is_simplex_lattice",
    "Verif.Props.c20_one_objective_refused"
   ],
   "note": ""
  },
  {
   "property": "C21",
   "status": "proved",
   "theorems": [
    "Verif.Props.c21_resolution_is_largest_fitting",
    "Verif.Props.c21_count_bounded",
    "Verif.Props.c21_exact_size",
    "Verif.Props.c21_one_objective_never_ends",
    "Verif.Props.c21_nothing_given"
   ],
   "note": ""
  },
  {
   "property": "C22",
   "status": "proved",
   "theorems": [
    "Verif.Props.c22_always_normalised",
    "Verif.Props.c22_planar_on_simplex"
   ],
   "note": ""
  },
  {
   "property": "C23",
   "status": "proved",
   "theorems": [
    "Verif.Props.c23_adapt_scales_initial_vectors",
    "Verif.Props.c23_adapt_idempotent",
    "Verif.Props.c23_adapt_history_independent",
    "Verif.Props.c23_planar_not_reset"
   ],
   "note": ""
  },
  {
   "property": "C24",
   "status": "proved",
   "theorems": [
    "Verif.Props.c24_reference_point",
    "Verif.Props.c24_preferred_solutions",
    "Verif.Props.c24_all_preferred_resets",
    "Verif.Props.c24_none_preferred_raises",
    "Verif.Props.c24_ranges_grow"
   ],
   "note": ""
  },
  {
   "property": "C25",
   "status": "proved",
   "theorems": [
    "Verif.Props.c25_removes_exactly_nearby_vectors",
    "Verif.Props.c25_all_nonpreferred_resets",
    "Verif.Props.c25_sizes_agree_after_preference",
    "Verif.Props.c25_index_error_after_adaptation"
   ],
   "note": ""
  },
  {
   "property": "C26",
   "status": "proved",
   "theorems": [
    "Verif.Props.c26_rotate_is_rigid",
    "Verif.Props.c26_no_division_by_zero",
    "Verif.Props.c26_parallel_divides_by_zero"
   ],
   "note": ""
  },
  {
   "property": "C27",
   "status": "proved",
   "theorems": [
    "Verif.Props.c27_selected_distinct_in_range",
    "Verif.Props.c27_every_occupied_vector_contributes",
    "Verif.Props.c27_selection_total"
   ],
   "note": ""
  },
  {
   "property": "C28",
   "status": "proved",
   "theorems": [
    "Verif.Props.c28_feasible_first"
   ],
   "note": ""
  },
  {
   "property": "C29",
   "status": "proved",
   "theorems": [
    "Verif.Props.c29_least_distance_first",
    "Verif.Props.c29_rvea_selection"
   ],
   "note": ""
  },
  {
   "property": "C30",
   "status": "proved",
   "theorems": [
    "Verif.Props.c30_ideal_after_selection",
    "Verif.Props.c30_ideal_is_running_minimum"
   ],
   "note": ""
  },
  {
   "property": "C31",
   "status": "proved",
   "theorems": [
    "Verif.Props.c31_penalty_range_and_monotone",
    "Verif.Props.c31_interactive_schedule",
    "Verif.Props.c31_original_schedule",
    "Verif.Props.c31_function_count_schedule",
    "Verif.Props.c31_zero_division_cases"
   ],
   "note": ""
  },
  {
   "property": "C32",
   "status": "proved",
   "theorems": [
    "Verif.Props.c32_constructor_choice",
    "Verif.Props.c32_no_eaError_and_out_of_range_accepted"
   ],
   "note": ""
  },
  {
   "property": "C33",
   "status": "proved",
   "theorems": [
    "Verif.Props.c33_exactly_pop_size",
    "Verif.Props.c33_too_few_selects_nobody",
    "Verif.Props.c33_explicit_n_survive_unusable"
   ],
   "note": ""
  },
  {
   "property": "C34",
   "status": "proved",
   "theorems": [
    "Verif.Props.c34_elitist",
    "Verif.Props.c34_sort_contract_satisfiable"
   ],
   "note": ""
  },
  {
   "property": "C35",
   "status": "proved",
   "theorems": [
    "Verif.Props.c35_niching_is_fair",
    "Verif.Props.c35_initial_counts",
    "Verif.Props.c35_perpendicular_distance",
    "Verif.Props.c35_selection_from_last_front_is_fair"
   ],
   "note": ""
  },
  {
   "property": "C36",
   "status": "proved",
   "theorems": [
    "Verif.Props.c36_running_extremes"
   ],
   "note": ""
  },
  {
   "property": "C37",
   "status": "proved",
   "theorems": [
    "Verif.Props.c37_generation_keeps_size_and_evaluates_popSize",
    "Verif.Props.c37_raises_if_more_individuals_than_vectors",
    "Verif.Props.c37_generation_succeeds"
   ],
   "note": ""
  },
  {
   "property": "C38",
   "status": "proved",
   "theorems": [
    "Verif.Props.c38_step_replaces_exactly_beaten_neighbours",
    "Verif.Props.c38_step_never_worse",
    "Verif.Props.c38_generations_never_worse"
   ],
   "note": ""
  },
  {
   "property": "C39",
   "status": "proved",
   "theorems": [
    "Verif.Props.c39_initial_neighbourhoods_nearest",
    "Verif.Props.c39_adapt_recomputes_neighbourhoods",
    "Verif.Props.c39_neighbourhoods_nearest_without_interaction",
    "Verif.Props.c39_neighbourhood_contains_itself",
    "Verif.Props.c39_parents_distinct_neighbours",
    "Verif.Props.c39_preference_leaves_neighbourhoods_stale",
    "Verif.Props.c39_reference_point_breaks_neighbourhoods"
   ],
   "note": ""
  },
  {
   "property": "C40",
   "status": "proved",
   "theorems": [
    "Verif.Props.c40_sbx_pairs_and_sums",
    "Verif.Props.c40_sbx_spread",
    "Verif.Props.c40_sbx_whole_population",
    "Verif.Props.c40_sbx_bad_id_raises"
   ],
   "note": ""
  },
  {
   "property": "C41",
   "status": "proved",
   "theorems": [
    "Verif.Props.c41_mutation_stays_inside_unclipped",
    "Verif.Props.c41_result_within_bounds",
    "Verif.Props.c41_inside_gives_numbers_inside",
    "Verif.Props.c41_unchosen_unchanged",
    "Verif.Props.c41_outside_value_can_become_nan"
   ],
   "note": ""
  },
  {
   "property": "C42",
   "status": "proved",
   "theorems": [
    "Verif.Props.c42_crossover_exchanges_tails",
    "Verif.Props.c42_crossover_length_mismatch_raises",
    "Verif.Props.c42_do_crosses_consecutive_pairs",
    "Verif.Props.c42_crossover_keeps_binary",
    "Verif.Props.c42_mutation_changes_one_gene",
    "Verif.Props.c42_mutation_twice_is_identity",
    "Verif.Props.c42_mutation_keeps_binary"
   ],
   "note": ""
  },
  {
   "property": "C43",
   "status": "proved",
   "theorems": [
    "Verif.Props.c43_design_within_bounds",
    "Verif.Props.c43_default_design_size",
    "Verif.Props.c43_lhs_design_is_latin"
   ],
   "note": ""
  },
  {
   "property": "C44",
   "status": "proved",
   "theorems": [
    "Verif.Props.c44_offspring_within_bounds",
    "Verif.Props.c44_problem_never_asked_outside",
    "Verif.Props.c44_moead_problem_never_asked_outside",
    "Verif.Props.c44_every_individual_inside",
    "Verif.Props.c44_moead_every_individual_inside",
    "Verif.Props.c44_construction_asks_inside",
    "Verif.Props.c44_offspring_can_be_nan",
    "Verif.Props.c44_number_offspring_inside"
   ],
   "note": ""
  },
  {
   "property": "C45",
   "status": "proved",
   "theorems": [
    "Verif.Props.c45_environmental_selection",
    "Verif.Props.c45_ibea_fitness_formula",
    "Verif.Props.c45_generation",
    "Verif.Props.c45_generation_succeeds"
   ],
   "note": ""
  },
  {
   "property": "C46",
   "status": "proved",
   "theorems": [
    "Verif.Props.c46_tournament",
    "Verif.Props.c46_too_few_raises",
    "Verif.Props.c46_worse_of_two_wins"
   ],
   "note": ""
  },
  {
   "property": "C47",
   "status": "proved",
   "theorems": [
    "Verif.Props.c47_bad_preference_changes_nothing",
    "Verif.Props.c47_accepted_preference_doubles",
    "Verif.Props.c47_iterations_never_used_up",
    "Verif.Props.c47_start_always_raises"
   ],
   "note": ""
  },
  {
   "property": "C48",
   "status": "proved",
   "theorems": [
    "Verif.Props.c48_move_prey",
    "Verif.Props.c48_one_per_cell",
    "Verif.Props.c48_init",
    "Verif.Props.c48_place_offspring",
    "Verif.Props.c48_place_one",
    "Verif.Props.c48_update_lattice",
    "Verif.Props.c48_hunt",
    "Verif.Props.c48_add",
    "Verif.Props.c48_failed_evaluation_desyncs",
    "Verif.Props.c48_construct",
    "Verif.Props.c48_construct_fails",
    "Verif.Props.c48_generation",
    "Verif.Props.c48_run"
   ],
   "note": ""
  },
  {
   "property": "C49",
   "status": "proved",
   "theorems": [
    "Verif.Props.c49_neighbours",
    "Verif.Props.c49_neighbours_adjacent",
    "Verif.Props.c49_prey_step",
    "Verif.Props.c49_prey_walk",
    "Verif.Props.c49_mates"
   ],
   "note": ""
  },
  {
   "property": "C50",
   "status": "proved",
   "theorems": [
    "Verif.Props.c50_new_individual",
    "Verif.Props.c50_new_individual_total",
    "Verif.Props.c50_full",
    "Verif.Props.c50_depth_zero",
    "Verif.Props.c50_nodes",
    "Verif.Props.c50_designs",
    "Verif.Props.c50_ramped_size"
   ],
   "note": ""
  },
  {
   "property": "C51",
   "status": "proved",
   "theorems": [
    "Verif.Props.c51_general",
    "Verif.Props.c51_distinct_archive",
    "Verif.Props.c51_rows",
    "Verif.Props.c51_repeated_archive_drops",
    "Verif.Props.c51_repeated_archive_raises"
   ],
   "note": ""
  },
  {
   "property": "C52",
   "status": "proved",
   "theorems": [
    "Verif.Props.c52_ideal_best",
    "Verif.Props.c52_never_worse",
    "Verif.Props.c52_history",
    "Verif.Props.c52_ideal_fitness",
    "Verif.Props.c52_map_updated",
    "Verif.Props.c52_stale_fitness"
   ],
   "note": ""
  },
  {
   "property": "C53",
   "status": "proved",
   "theorems": [
    "Verif.Props.c53_rotate_toward"
   ],
   "note": ""
  },
  {
   "property": "C54",
   "status": "proved",
   "theorems": [
    "Verif.Props.c54_nadir_between_ideal_and_worst",
    "Verif.Props.c54_fallback_is_worst_of_population",
    "Verif.Props.c54_extreme_points",
    "Verif.Props.c54_hyperplane"
   ],
   "note": ""
  },
  {
   "property": "C55",
   "status": "proved",
   "theorems": [
    "Verif.Props.c55_predator_turn",
    "Verif.Props.c55_hunt_turns",
    "Verif.Props.c55_floor",
    "Verif.Props.c55_no_predators"
   ],
   "note": ""
  },
  {
   "property": "C56",
   "status": "proved",
   "theorems": [
    "Verif.Props.c56_select",
    "Verif.Props.c56_best_survive",
    "Verif.Props.c56_chain",
    "Verif.Props.c56_kill"
   ],
   "note": ""
  },
  {
   "property": "C57",
   "status": "proved",
   "theorems": [
    "Verif.Props.c57_standard",
    "Verif.Props.c57_total",
    "Verif.Props.c57_height_fair",
    "Verif.Props.c57_standard_depth",
    "Verif.Props.c57_nodes_conserved",
    "Verif.Props.c57_self_mating",
    "Verif.Props.c57_standard_exceeds_max_depth"
   ],
   "note": ""
  },
  {
   "property": "C58",
   "status": "proved",
   "theorems": [
    "Verif.Props.c58_standard",
    "Verif.Props.c58_point_shape",
    "Verif.Props.c58_point_ok",
    "Verif.Props.c58_point_breaks",
    "Verif.Props.c58_mono",
    "Verif.Props.c58_mono_total",
    "Verif.Props.c58_mono_exceeds_max_depth"
   ],
   "note": ""
  },
  {
   "property": "C59",
   "status": "proved",
   "theorems": [
    "Verif.Props.c59_prune",
    "Verif.Props.c59_none",
    "Verif.Props.c59_one",
    "Verif.Props.c59_second_removal_wrong"
   ],
   "note": ""
  },
  {
   "property": "C60",
   "status": "proved",
   "theorems": [
    "Verif.Props.c60_chosen",
    "Verif.Props.c60_no_uncertainty",
    "Verif.Props.c60_wrong_candidates_violated"
   ],
   "note": ""
  },
  {
   "property": "C61",
   "status": "proved",
   "theorems": [
    "Verif.Props.c61_wrong_preference",
    "Verif.Props.c61_accepted",
    "Verif.Props.c61_constructor",
    "Verif.Props.c61_latest_preference_in_force"
   ],
   "note": ""
  },
  {
   "property": "C62",
   "status": "proved",
   "theorems": [
    "Verif.Props.c62_rvea_population",
    "Verif.Props.c62_rvea_runs"
   ],
   "note": ""
  },
  {
   "property": "C63",
   "status": "proved",
   "theorems": [
    "Verif.Props.c63_nsga3_population",
    "Verif.Props.c63_small_population_dies"
   ],
   "note": ""
  },
  {
   "property": "C64",
   "status": "proved",
   "theorems": [
    "Verif.Props.c64_preference_in_force",
    "Verif.Props.c64_no_preference_adapts",
    "Verif.Props.c64_noninteractive_adapts",
    "Verif.Props.c64_problem_preference",
    "Verif.Props.c64_adapt_twice",
    "Verif.Props.c64_selection_reads",
    "Verif.Props.c64_nsga_selection_reads"
   ],
   "note": ""
  },
  {
   "property": "C65",
   "status": "proved",
   "theorems": [
    "Verif.Props.c65_crossover_swaps_nodes",
    "Verif.Props.c65_dead_connection_stays_dead",
    "Verif.Props.c65_node_lineage",
    "Verif.Props.c65_self_adapting_revives",
    "Verif.Props.c65_complexity_never_grows",
    "Verif.Props.c65_outcome",
    "Verif.Props.c65_past_budget_raises",
    "Verif.Props.c65_flat_ids_do_not_cross",
    "Verif.Props.c65_initial_weights"
   ],
   "note": ""
  },
  {
   "property": "C66",
   "status": "proved",
   "theorems": [
    "Verif.Props.c66_min_error_never_trains",
    "Verif.Props.c66_akaike_selects_the_first",
    "Verif.Props.c66_better_model_ignored"
   ],
   "note": ""
  },
  {
   "property": "C67",
   "status": "proved",
   "theorems": [
    "Verif.Props.c67_crossover_exchanges",
    "Verif.Props.c67_architecture_inherited",
    "Verif.Props.c67_weights_inherited",
    "Verif.Props.c67_dead_position_stays_dead",
    "Verif.Props.c67_initial_networks",
    "Verif.Props.c67_initial_weights",
    "Verif.Props.c67_initial_outcome",
    "Verif.Props.c67_always_evaluable",
    "Verif.Props.c67_bias_becomes_connection"
   ],
   "note": ""
  },
  {
   "property": "C68",
   "status": "proved",
   "theorems": [
    "Verif.Props.c68_every_variable_used",
    "Verif.Props.c68_outcome",
    "Verif.Props.c68_refit_keeps_stale_subsets",
    "Verif.Props.c68_only_subset_variables_matter",
    "Verif.Props.c68_missing_variable_raises"
   ],
   "note": ""
  },
  {
   "property": "C69",
   "status": "proved",
   "theorems": [
    "Verif.Props.c69_complexity_nonneg",
    "Verif.Props.c69_zero_complexity_is_constant",
    "Verif.Props.c69_zero_row_is_unused",
    "Verif.Props.c69_selects_least_error"
   ],
   "note": ""
  },
  {
   "property": "C70",
   "status": "proved",
   "theorems": [
    "Verif.Props.c70_rvea_selection_types",
    "Verif.Props.c70_nsga_selection_types",
    "Verif.Props.c70_mean_ignores_uncertainty",
    "Verif.Props.c70_without_uncertainty_raises"
   ],
   "note": ""
  },
  {
   "property": "C71",
   "status": "proved",
   "theorems": [
    "Verif.Props.c71_angle_to_nearest_other",
    "Verif.Props.c71_zero_iff_repeated",
    "Verif.Props.c71_needs_two",
    "Verif.Props.c71_at_most_right_angle"
   ],
   "note": ""
  },
  {
   "property": "C72",
   "status": "proved",
   "theorems": [
    "Verif.Props.c72_iopis_ea_never_runs",
    "Verif.Props.c72_iopis_ea_preference",
    "Verif.Props.c72_iopis_request_answered",
    "Verif.Props.c72_iopis_ea_construct",
    "Verif.Props.c72_iopis_default_size"
   ],
   "note": ""
  },
  {
   "property": "C73",
   "status": "proved",
   "theorems": [
    "Verif.Props.c73_tournament_generation_raises",
    "Verif.Props.c73_tournament_iterate",
    "Verif.Props.c73_not_constructible"
   ],
   "note": ""
  },
  {
   "property": "C74",
   "status": "proved",
   "theorems": [
    "Verif.Props.c74_moead_runs",
    "Verif.Props.c74_only_two_parents",
    "Verif.Props.c74_non_lattice_size_never_completes",
    "Verif.Props.c74_one_neighbour_never_completes",
    "Verif.Props.c74_interactive_second_turn_violated"
   ],
   "note": ""
  },
  {
   "property": "C75",
   "status": "proved",
   "theorems": [
    "Verif.Props.c75_predict_means",
    "Verif.Props.c75_predict_writes",
    "Verif.Props.c75_changes_data_iff",
    "Verif.Props.c75_second_prediction",
    "Verif.Props.c75_rows_independent",
    "Verif.Props.c75_repeatable_violated",
    "Verif.Props.c75_first_prediction_violated"
   ],
   "note": ""
  },
  {
   "property": "C76",
   "status": "proved",
   "theorems": [
    "Verif.Props.c76_fit_returns",
    "Verif.Props.c76_complexity",
    "Verif.Props.c76_error_of_model",
    "Verif.Props.c76_weights_shift",
    "Verif.Props.c76_single_individual_raises",
    "Verif.Props.c76_batch",
    "Verif.Props.c76_error_violated"
   ],
   "note": ""
  },
  {
   "property": "C77",
   "status": "proved",
   "theorems": [
    "Verif.Props.c77_focused_cone",
    "Verif.Props.c77_default_point",
    "Verif.Props.c77_last_axis_violated",
    "Verif.Props.c77_constructor_errors",
    "Verif.Props.c77_planar"
   ],
   "note": ""
  },
  {
   "property": "C78",
   "status": "proved",
   "theorems": [
    "Verif.Props.c78_step",
    "Verif.Props.c78_at_the_point",
    "Verif.Props.c78_wrong_type",
    "Verif.Props.c78_parallel_violated",
    "Verif.Props.c78_history",
    "Verif.Props.c78_reaches",
    "Verif.Props.c78_after_reaching_violated",
    "Verif.Props.c78_planar"
   ],
   "note": ""
  },
  {
   "property": "C79",
   "status": "proved",
   "theorems": [
    "Verif.Props.c79_ibea_elitist",
    "Verif.Props.c79_pbea_elitist",
    "Verif.Props.c79_epsilon_respects_dominance",
    "Verif.Props.c79_dominated_first_violated"
   ],
   "note": ""
  },
  {
   "property": "C80",
   "status": "proved",
   "theorems": [
    "Verif.Props.c80_population",
    "Verif.Props.c80_generation",
    "Verif.Props.c80_iterate_returns",
    "Verif.Props.c80_small_population_violated"
   ],
   "note": ""
  },
  {
   "property": "C81",
   "status": "proved",
   "theorems": [
    "Verif.Props.c81_generation",
    "Verif.Props.c81_nothing_lost",
    "Verif.Props.c81_big_front_violated"
   ],
   "note": ""
  },
  {
   "property": "C82",
   "status": "proved",
   "theorems": [
    "Verif.Props.c82_dominated_only_closer",
    "Verif.Props.c82_no_penalty",
    "Verif.Props.c82_dropped_dominator_violated",
    "Verif.Props.c82_across_vectors_violated"
   ],
   "note": ""
  },
  {
   "property": "C83",
   "status": "proved",
   "theorems": [
    "Verif.Props.c83_plain",
    "Verif.Props.c83_uncertain",
    "Verif.Props.c83_running_ideal",
    "Verif.Props.c83_iopis",
    "Verif.Props.c83_penalty",
    "Verif.Props.c83_negative_time_violated",
    "Verif.Props.c83_iopis_alpha_ignored_violated",
    "Verif.Props.c83_beaten_ideal_violated",
    "Verif.Props.c83_constraints_ignored_violated"
   ],
   "note": ""
  },
  {
   "property": "C84",
   "status": "proved",
   "theorems": [
    "Verif.Props.c84_size_and_elitism",
    "Verif.Props.c84_running_ideal",
    "Verif.Props.c84_explicit_n_survive_unusable"
   ],
   "note": ""
  },
  {
   "property": "C85",
   "status": "proved",
   "theorems": [
    "Verif.Props.c85_least_squares_solvable",
    "Verif.Props.c85_evonn_upper_layer_optimal",
    "Verif.Props.c85_evodn2_upper_layer_optimal",
    "Verif.Props.c85_generation_floor",
    "Verif.Props.c85_clock",
    "Verif.Props.c85_evonn_fit",
    "Verif.Props.c85_evonn_aicc",
    "Verif.Props.c85_evonn_dead_input",
    "Verif.Props.c85_evonn_node_lineage",
    "Verif.Props.c85_evonn_failed_fit",
    "Verif.Props.c85_evonn_refusals",
    "Verif.Props.c85_evonn_outcomes",
    "Verif.Props.c85_evodn2_fit",
    "Verif.Props.c85_evodn2_failed_fit",
    "Verif.Props.c85_evodn2_few_offspring_violated",
    "Verif.Props.c85_evodn2_full_lattice_violated",
    "Verif.Props.c85_evodn2_small_population_violated",
    "Verif.Props.c85_evonn_can_train",
    "Verif.Props.c85_evodn2_can_train"
   ],
   "note": ""
  },
  {
   "property": "C86",
   "status": "proved",
   "theorems": [
    "Verif.Props.c86_v2",
    "Verif.Props.c86_v2_angles",
    "Verif.Props.c86_v2_history",
    "Verif.Props.c86_fresh_history",
    "Verif.Props.c86_v2_three_objectives_only",
    "Verif.Props.c86_v2_third_axis_violated",
    "Verif.Props.c86_v2_nan_violated",
    "Verif.Props.c86_v3",
    "Verif.Props.c86_v3_duplicates_violated",
    "Verif.Props.c86_v3_keeps_preference",
    "Verif.Props.c86_v3_negative_violated",
    "Verif.Props.c86_v2_empty",
    "Verif.Props.c86_v3_errors",
    "Verif.Props.c86_v3_third_axis_violated"
   ],
   "note": ""
  },
  {
   "property": "C87",
   "status": "proved",
   "theorems": [
    "Verif.Props.c87_dead_nodes_do_not_predict",
    "Verif.Props.c87_data",
    "Verif.Props.c87_fit",
    "Verif.Props.c87_predict",
    "Verif.Props.c87_recorded_error",
    "Verif.Props.c87_failed_fit",
    "Verif.Props.c87_never_trains",
    "Verif.Props.c87_untrained",
    "Verif.Props.c87_default_raises",
    "Verif.Props.c87_too_few",
    "Verif.Props.c87_can_train",
    "Verif.Props.c87_model_error_violated",
    "Verif.Props.c87_complexity_violated",
    "Verif.Props.c87_refit_other_columns"
   ],
   "note": ""
  },
  {
   "property": "C88",
   "status": "proved",
   "theorems": [
    "Verif.Props.c88_shows",
    "Verif.Props.c88_init",
    "Verif.Props.c88_history",
    "Verif.Props.c88_default_numbers",
    "Verif.Props.c88_unplottable",
    "Verif.Props.c88_skips_unplottable",
    "Verif.Props.c88_file_is_figure",
    "Verif.Props.c88_names_violated"
   ],
   "note": ""
  },
  {
   "property": "C89",
   "status": "proved",
   "theorems": [
    "Verif.Props.c89_default_pairs",
    "Verif.Props.c89_std_dev",
    "Verif.Props.c89_evonn_gaussian",
    "Verif.Props.c89_evonn_other",
    "Verif.Props.c89_evonn_as_class",
    "Verif.Props.c89_evonn_dead_connection",
    "Verif.Props.c89_evodn2_gaussian",
    "Verif.Props.c89_evodn2_other",
    "Verif.Props.c89_zero_budget",
    "Verif.Props.c89_biogp_xover_kind",
    "Verif.Props.c89_biogp_mate",
    "Verif.Props.c89_biogp_mutation_kind",
    "Verif.Props.c89_biogp_mutate"
   ],
   "note": ""
  },
  {
   "property": "C90",
   "status": "proved",
   "theorems": [
    "Verif.Props.c90_call_as_on_values",
    "Verif.Props.c90_history_as_on_values",
    "Verif.Props.c90_moead_step_as_on_values",
    "Verif.Props.c90_arrays_handed_out_never_change",
    "Verif.Props.c90_replace_writes_only_own_arrays",
    "Verif.Props.c90_direct_replace_violated"
   ],
   "note": ""
  },
  {
   "property": "C91",
   "status": "proved",
   "theorems": [
    "Verif.Props.c91_shows_the_current_population",
    "Verif.Props.c91_answer_means_what_was_shown",
    "Verif.Props.c91_after_failed_iteration_violated"
   ],
   "note": ""
  },
  {
   "property": "C92",
   "status": "proved",
   "theorems": [
    "Verif.Props.c92_plain_names_never_interfere",
    "Verif.Props.c92_archive_tables_labelled",
    "Verif.Props.c92_nested_objective_names_never_shown",
    "Verif.Props.c92_nested_fitness_names_no_iteration",
    "Verif.Props.c92_grouped_objectives_in_archive",
    "Verif.Props.c92_objectives_under_fitness_names_violated",
    "Verif.Props.c92_mixed_names_no_iteration"
   ],
   "note": ""
  },
  {
   "property": "C93",
   "status": "proved",
   "theorems": [
    "Verif.Props.c93_rvea_same_runs",
    "Verif.Props.c93_nsga_same_runs",
    "Verif.Props.c93_preferred_solution_violated",
    "Verif.Props.c93_moead_same_runs",
    "Verif.Props.c93_ibea_same_runs",
    "Verif.Props.c93_ibea_units_violated",
    "Verif.Props.c93_pbea_maximise_violated"
   ],
   "note": ""
  },
  {
   "property": "C94",
   "status": "proved",
   "theorems": [
    "Verif.Props.c94_reference_point_focuses",
    "Verif.Props.c94_non_preferred_removes",
    "Verif.Props.c94_preferred_solutions_focus",
    "Verif.Props.c94_preferred_maximised_violated"
   ],
   "note": ""
  },
  {
   "property": "C95",
   "status": "proved",
   "theorems": [
    "Verif.Props.c95_sbx_spread_distribution",
    "Verif.Props.c95_mutation_distribution",
    "Verif.Props.c95_mutation_rate",
    "Verif.Props.c95_mutation_reaches_every_box",
    "Verif.Props.c95_mate_reaches_every_box"
   ],
   "note": ""
  },
  {
   "property": "C96",
   "status": "proved",
   "theorems": [
    "Verif.Props.c96_nsga_ignores_constraints",
    "Verif.Props.c96_nsga_may_end_infeasible",
    "Verif.Props.c96_rvea_total_violation",
    "Verif.Props.c96_moead_ignores_constraints",
    "Verif.Props.c96_indicator_ignores_constraints"
   ],
   "note": ""
  },
  {
   "property": "C97",
   "status": "proved",
   "theorems": [
    "Verif.Props.c97_keep_archive",
    "Verif.Props.c97_save_non_dominated",
    "Verif.Props.c97_moead_keep_archive",
    "Verif.Props.c97_moead_save_non_dominated",
    "Verif.Props.c97_nsga_grouping",
    "Verif.Props.c97_moead_grouping",
    "Verif.Props.c97_indicator_grouping"
   ],
   "note": ""
  },
  {
   "property": "C98",
   "status": "proved",
   "theorems": [
    "Verif.Props.c98_only_evaluated_points",
    "Verif.Props.c98_may_miss_the_optimum",
    "Verif.Props.c98_moead_only_evaluated_points",
    "Verif.Props.c98_indicator_only_evaluated_points"
   ],
   "note": ""
  },
  {
   "property": "C99",
   "status": "proved",
   "theorems": [
    "Verif.Props.c99_indicator_hand_over",
    "Verif.Props.c99_moead_hand_over",
    "Verif.Props.c99_nsga_hand_over",
    "Verif.Props.c99_nsga_nadir_violated",
    "Verif.Props.c99_moead_small_population",
    "Verif.Props.c99_nsga_small_population"
   ],
   "note": ""
  },
  {
   "property": "C100",
   "status": "proved",
   "theorems": [
    "Verif.Props.c100_indicator_every_box_is_sampled",
    "Verif.Props.c100_indicator_ready_at_start",
    "Verif.Props.c100_every_box_is_sampled",
    "Verif.Props.c100_missing_tends_to_zero",
    "Verif.Props.c100_continuous_objective",
    "Verif.Props.c100_ready_at_start",
    "Verif.Props.c100_nan_stays",
    "Verif.Props.c100_moead_every_box_is_sampled"
   ],
   "note": ""
  },
  {
   "property": "C101",
   "status": "proved",
   "theorems": [
    "Verif.Props.c101_activation_functions",
    "Verif.Props.c101_evonn_sensitivity",
    "Verif.Props.c101_evonn_bounded",
    "Verif.Props.c101_evonn_after_fit",
    "Verif.Props.c101_evodn2_complexity_bounds_sensitivity",
    "Verif.Props.c101_evodn2_bounded"
   ],
   "note": ""
  },
  {
   "property": "C102",
   "status": "proved",
   "theorems": [
    "Verif.Props.c102_losses",
    "Verif.Props.c102_log_loss",
    "Verif.Props.c102_at_least_mean_losses",
    "Verif.Props.c102_constant_targets",
    "Verif.Props.c102_evonn_no_worse_than_the_mean",
    "Verif.Props.c102_evodn2_no_worse_than_the_mean",
    "Verif.Props.c102_biogp_no_worse_than_the_mean"
   ],
   "note": ""
  },
  {
   "property": "C103",
   "status": "proved",
   "theorems": [
    "Verif.Props.c103_chance_above",
    "Verif.Props.c103_chance_of_each",
    "Verif.Props.c103_expected_copies",
    "Verif.Props.c103_strongest_never_mate",
    "Verif.Props.c103_binary",
    "Verif.Props.c103_last_never"
   ],
   "note": ""
  },
  {
   "property": "C104",
   "status": "proved",
   "theorems": [
    "Verif.Props.c104_archive_converges",
    "Verif.Props.c104_archive_attained",
    "Verif.Props.c104_recording_at_start",
    "Verif.Props.c104_run_converges",
    "Verif.Props.c104_moead_archive_converges",
    "Verif.Props.c104_moead_recording_at_start"
   ],
   "note": ""
  },
  {
   "property": "C105",
   "status": "proved",
   "theorems": [
    "Verif.Props.c105_rvea_order",
    "Verif.Props.c105_end_order",
    "Verif.Props.c105_archive_order",
    "Verif.Props.c105_archive_order_matters",
    "Verif.Props.c105_indicator_order"
   ],
   "note": ""
  },
  {
   "property": "C106",
   "status": "proved",
   "theorems": [
    "Verif.Props.c106_accepted_calls",
    "Verif.Props.c106_settings_kept",
    "Verif.Props.c106_fixed_settings",
    "Verif.Props.c106_run_settings",
    "Verif.Props.c106_population",
    "Verif.Props.c106_plain_run"
   ],
   "note": ""
  },
  {
   "property": "C107",
   "status": "proved",
   "theorems": [
    "Verif.Props.c107_nsga_generation",
    "Verif.Props.c107_rvea_generation",
    "Verif.Props.c107_nsga_iterate",
    "Verif.Props.c107_rvea_iterate",
    "Verif.Props.c107_nsga_retry",
    "Verif.Props.c107_rvea_retry"
   ],
   "note": ""
  },
  {
   "property": "C108",
   "status": "proved",
   "theorems": [
    "Verif.Props.c108_indicator_generation",
    "Verif.Props.c108_ibea_retry",
    "Verif.Props.c108_limits_violated",
    "Verif.Props.c108_moead_generation"
   ],
   "note": ""
  },
  {
   "property": "C109",
   "status": "proved",
   "theorems": [
    "Verif.Props.c109_rounding_one_times",
    "Verif.Props.c109_mutation_within_bounds",
    "Verif.Props.c109_offspring_within_bounds",
    "Verif.Props.c109_repair_within_bounds",
    "Verif.Props.c109_exact_arithmetic_agrees",
    "Verif.Props.c109_scaled_draw_within_bounds",
    "Verif.Props.c109_design_within_bounds",
    "Verif.Props.c109_draw_of_one_violated",
    "Verif.Props.c109_problem_never_asked_outside",
    "Verif.Props.c109_moead_problem_never_asked_outside",
    "Verif.Props.c109_indicator_problem_never_asked_outside",
    "Verif.Props.c109_every_individual_within",
    "Verif.Props.c109_moead_every_individual_within",
    "Verif.Props.c109_indicator_every_individual_within",
    "Verif.Props.c109_rounded_run_within"
   ],
   "note": ""
  },
  {
   "property": "C110",
   "status": "proved",
   "theorems": [
    "Verif.Props.c110_selection",
    "Verif.Props.c110_same_without_nan",
    "Verif.Props.c110_same_selection_without_nan",
    "Verif.Props.c110_nan_uncertainty",
    "Verif.Props.c110_ideal_stays_nan",
    "Verif.Props.c110_one_nan_ends_the_run",
    "Verif.Props.c110_moead_never_replaces_nan",
    "Verif.Props.c110_moead_frozen_by_nan_ideal"
   ],
   "note": ""
  },
  {
   "property": "C111",
   "status": "proved",
   "theorems": [
    "Verif.Props.c111_all_nan",
    "Verif.Props.c111_newest_survive",
    "Verif.Props.c111_parents_lost",
    "Verif.Props.c111_tournament_first_drawn",
    "Verif.Props.c111_generation",
    "Verif.Props.c111_same_without_nan",
    "Verif.Props.c111_same_tournament",
    "Verif.Props.c111_same_generation"
   ],
   "note": ""
  },
  {
   "property": "C112",
   "status": "proved",
   "theorems": [
    "Verif.Props.c112_nan_is_remembered",
    "Verif.Props.c112_worst_is_nan",
    "Verif.Props.c112_for_ever",
    "Verif.Props.c112_last_front_by_lot",
    "Verif.Props.c112_nothing_else_matters",
    "Verif.Props.c112_dominance_skips_nan",
    "Verif.Props.c112_dominance_without_nan",
    "Verif.Props.c112_dominance_cycle",
    "Verif.Props.c112_all_nan_row",
    "Verif.Props.c112_nan_rows_pile_up",
    "Verif.Props.c112_nan_evicts",
    "Verif.Props.c112_same_without_nan"
   ],
   "note": ""
  },
  {
   "property": "C113",
   "status": "proved",
   "theorems": [
    "Verif.Props.c113_adapt",
    "Verif.Props.c113_adapt_same_on_numbers",
    "Verif.Props.c113_infinite_values_do_not_interfere",
    "Verif.Props.c113_entirely_failed",
    "Verif.Props.c113_same_on_numbers",
    "Verif.Props.c113_infinite_value_ends_the_run"
   ],
   "note": ""
  },
  {
   "property": "C114",
   "status": "proved",
   "theorems": [
    "Verif.Props.c114_same_on_numbers",
    "Verif.Props.c114_failed_removed_first",
    "Verif.Props.c114_failed_have_least_fitness",
    "Verif.Props.c114_failed_become_parents"
   ],
   "note": ""
  },
  {
   "property": "C115",
   "status": "proved",
   "theorems": [
    "Verif.Props.c115_pbi_of_failed",
    "Verif.Props.c115_pbi_of_numbers",
    "Verif.Props.c115_failed_never_replaced",
    "Verif.Props.c115_tchebycheff_differs",
    "Verif.Props.c115_tchebycheff_replaces"
   ],
   "note": ""
  },
  {
   "property": "C116",
   "status": "proved",
   "theorems": [
    "Verif.Props.c116_infinite_to_first_niche",
    "Verif.Props.c116_infinite_taken_first",
    "Verif.Props.c116_failed_last",
    "Verif.Props.c116_enough_alive",
    "Verif.Props.c116_niching_by_lot",
    "Verif.Props.c116_sort_contract_satisfiable",
    "Verif.Props.c116_same_on_numbers"
   ],
   "note": ""
  }
 ]
}