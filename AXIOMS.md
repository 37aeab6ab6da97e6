# Axioms each theorem depends on

Generated by `tools/axioms.py` with `#print axioms`. All names are in namespace `Verif.Props`.

## none (3 theorems)

* `c21_nothing_given`
* `c42_crossover_length_mismatch_raises`
* `c73_not_constructible`

## propext (32 theorems)

* `c01_dimension_mismatch_breaks_alignment`
* `c04_add_failure`
* `c06_repair_component`
* `c06_repair_nan`
* `c06_repair_in_bounds`
* `c08_update_before_start_raises`
* `c09_counterexample_archive`
* `c11_limit_can_be_exceeded`
* `c12_after_construction`
* `c12_surrogate_counter_violated`
* `c12_counter_behind_after_exception`
* `c13_problem_rejection_changes_nothing`
* `c13_noninteractive_ignores_preference`
* `c13_unset_type_raises_after_the_work`
* `c15_start_refuses_unset_type`
* `c15_valid_type_starts`
* `c15_flag_unreliable`
* `c15_constructed_from_problem`
* `c18_overwritten_when_budget_used_up`
* `c51_repeated_archive_raises`
* `c57_standard_exceeds_max_depth`
* `c59_none`
* `c66_min_error_never_trains`
* `c66_better_model_ignored`
* `c67_bias_becomes_connection`
* `c72_iopis_ea_preference`
* `c72_iopis_request_answered`
* `c73_tournament_generation_raises`
* `c90_direct_replace_violated`
* `c98_only_evaluated_points`
* `c105_archive_order_matters`
* `c109_repair_within_bounds`

## propext, Quot.sound (35 theorems)

* `c10_iterate_runs_exactly_n_gen`
* `c10_driver_runs_all_iterations`
* `c10_full_run`
* `c11_iterate_respects_budget`
* `c13_rejected_preference_changes_nothing`
* `c13_rejected_calls_can_be_erased`
* `c14_only_latest_request_accepted`
* `c14_class_belongs_to_the_name`
* `c14_normal_return_means_accepted`
* `c14_ranges_request_unanswerable`
* `c16_problem_xor_population`
* `c16_interactive_from_population_never_starts`
* `c18_no_overwriting_without_budget`
* `c37_raises_if_more_individuals_than_vectors`
* `c48_one_per_cell`
* `c48_place_one`
* `c49_neighbours`
* `c50_new_individual_total`
* `c50_designs`
* `c50_ramped_size`
* `c51_repeated_archive_drops`
* `c58_mono_total`
* `c58_mono_exceeds_max_depth`
* `c64_preference_in_force`
* `c64_no_preference_adapts`
* `c64_noninteractive_adapts`
* `c64_problem_preference`
* `c65_self_adapting_revives`
* `c65_past_budget_raises`
* `c65_initial_weights`
* `c68_only_subset_variables_matter`
* `c88_unplottable`
* `c89_default_pairs`
* `c90_replace_writes_only_own_arrays`
* `c97_keep_archive`

## propext, Classical.choice, Quot.sound (537 theorems)

* `c01_population_is_record_list`
* `c01_columns_same_length`
* `c01_rows_are_evaluations`
* `c01_mixed_uncertainty_raises_after_adding`
* `c02_keep`
* `c02_keep_out_of_range`
* `c02_keep_only_set_matters`
* `c03_delete`
* `c03_delete_out_of_range`
* `c03_keep_delete_partition`
* `c03_delete_all_then_add`
* `c04_add_appends`
* `c04_uncertainty_forgotten`
* `c05_replace`
* `c05_replace_out_of_range`
* `c06_repair`
* `c07_archive_covers_everything_evaluated`
* `c07_archive_of_a_run`
* `c08_no_pareto_optimal_solution_lost`
* `c08_pareto_optimal_is_archived`
* `c09_archive_exact`
* `c09_archive_mutually_nondominated_moead`
* `c09_dominated_only_within_a_batch`
* `c09_mutual_nondominance_violated`
* `c09_archive_of_a_run`
* `c09_archive_of_a_moead_run`
* `c10_indicator_iterate`
* `c10_ppga`
* `c11_indicator_budget`
* `c11_driver_respects_budget`
* `c12_indicator_counter`
* `c12_indicator_given_population`
* `c12_iterate_counts_evaluations`
* `c12_counter_is_number_of_evaluations`
* `c12_ppga`
* `c15_start_needs_valid_type`
* `c17_population_size_is_number_of_vectors`
* `c17_default_population_size`
* `c17_explicit_size_is_upper_bound`
* `c18_iterate_records_start`
* `c18_archive_is_log_of_iteration_starts`
* `c19_end_returns_nondominated`
* `c19_contract_satisfiable`
* `c20_uniform_is_simplex_lattice`
* `c20_one_objective_refused`
* `c21_resolution_is_largest_fitting`
* `c21_count_bounded`
* `c21_exact_size`
* `c21_one_objective_never_ends`
* `c22_always_normalised`
* `c22_planar_on_simplex`
* `c23_adapt_scales_initial_vectors`
* `c23_adapt_idempotent`
* `c23_adapt_history_independent`
* `c23_planar_not_reset`
* `c24_reference_point`
* `c24_preferred_solutions`
* `c24_all_preferred_resets`
* `c24_none_preferred_raises`
* `c24_ranges_grow`
* `c25_removes_exactly_nearby_vectors`
* `c25_all_nonpreferred_resets`
* `c25_sizes_agree_after_preference`
* `c25_index_error_after_adaptation`
* `c26_rotate_is_rigid`
* `c26_no_division_by_zero`
* `c26_parallel_divides_by_zero`
* `c27_selected_distinct_in_range`
* `c27_every_occupied_vector_contributes`
* `c27_selection_total`
* `c28_feasible_first`
* `c29_least_distance_first`
* `c29_rvea_selection`
* `c30_ideal_after_selection`
* `c30_ideal_is_running_minimum`
* `c31_penalty_range_and_monotone`
* `c31_interactive_schedule`
* `c31_original_schedule`
* `c31_function_count_schedule`
* `c31_zero_division_cases`
* `c32_constructor_choice`
* `c32_no_eaError_and_out_of_range_accepted`
* `c33_exactly_pop_size`
* `c33_too_few_selects_nobody`
* `c33_explicit_n_survive_unusable`
* `c34_elitist`
* `c34_sort_contract_satisfiable`
* `c35_niching_is_fair`
* `c35_initial_counts`
* `c35_perpendicular_distance`
* `c35_selection_from_last_front_is_fair`
* `c36_running_extremes`
* `c37_generation_keeps_size_and_evaluates_popSize`
* `c37_generation_succeeds`
* `c38_step_replaces_exactly_beaten_neighbours`
* `c38_step_never_worse`
* `c38_generations_never_worse`
* `c39_initial_neighbourhoods_nearest`
* `c39_adapt_recomputes_neighbourhoods`
* `c39_neighbourhoods_nearest_without_interaction`
* `c39_neighbourhood_contains_itself`
* `c39_parents_distinct_neighbours`
* `c39_preference_leaves_neighbourhoods_stale`
* `c39_reference_point_breaks_neighbourhoods`
* `c40_sbx_pairs_and_sums`
* `c40_sbx_spread`
* `c40_sbx_whole_population`
* `c40_sbx_bad_id_raises`
* `c41_mutation_stays_inside_unclipped`
* `c41_result_within_bounds`
* `c41_inside_gives_numbers_inside`
* `c41_unchosen_unchanged`
* `c41_outside_value_can_become_nan`
* `c42_crossover_exchanges_tails`
* `c42_do_crosses_consecutive_pairs`
* `c42_crossover_keeps_binary`
* `c42_mutation_changes_one_gene`
* `c42_mutation_twice_is_identity`
* `c42_mutation_keeps_binary`
* `c43_design_within_bounds`
* `c43_default_design_size`
* `c43_lhs_design_is_latin`
* `c44_offspring_within_bounds`
* `c44_problem_never_asked_outside`
* `c44_moead_problem_never_asked_outside`
* `c44_every_individual_inside`
* `c44_moead_every_individual_inside`
* `c44_construction_asks_inside`
* `c44_offspring_can_be_nan`
* `c44_number_offspring_inside`
* `c45_environmental_selection`
* `c45_ibea_fitness_formula`
* `c45_generation`
* `c45_generation_succeeds`
* `c46_tournament`
* `c46_too_few_raises`
* `c46_worse_of_two_wins`
* `c47_bad_preference_changes_nothing`
* `c47_accepted_preference_doubles`
* `c47_iterations_never_used_up`
* `c47_start_always_raises`
* `c48_move_prey`
* `c48_init`
* `c48_place_offspring`
* `c48_update_lattice`
* `c48_hunt`
* `c48_add`
* `c48_failed_evaluation_desyncs`
* `c48_construct`
* `c48_construct_fails`
* `c48_generation`
* `c48_run`
* `c49_neighbours_adjacent`
* `c49_prey_step`
* `c49_prey_walk`
* `c49_mates`
* `c50_new_individual`
* `c50_full`
* `c50_depth_zero`
* `c50_nodes`
* `c51_general`
* `c51_distinct_archive`
* `c51_rows`
* `c52_ideal_best`
* `c52_never_worse`
* `c52_history`
* `c52_ideal_fitness`
* `c52_map_updated`
* `c52_stale_fitness`
* `c53_rotate_toward`
* `c54_nadir_between_ideal_and_worst`
* `c54_fallback_is_worst_of_population`
* `c54_extreme_points`
* `c54_hyperplane`
* `c55_predator_turn`
* `c55_hunt_turns`
* `c55_floor`
* `c55_no_predators`
* `c56_select`
* `c56_best_survive`
* `c56_chain`
* `c56_kill`
* `c57_standard`
* `c57_total`
* `c57_height_fair`
* `c57_standard_depth`
* `c57_nodes_conserved`
* `c57_self_mating`
* `c58_standard`
* `c58_point_shape`
* `c58_point_ok`
* `c58_point_breaks`
* `c58_mono`
* `c59_prune`
* `c59_one`
* `c59_second_removal_wrong`
* `c60_chosen`
* `c60_no_uncertainty`
* `c60_wrong_candidates_violated`
* `c61_wrong_preference`
* `c61_accepted`
* `c61_constructor`
* `c61_latest_preference_in_force`
* `c62_rvea_population`
* `c62_rvea_runs`
* `c63_nsga3_population`
* `c63_small_population_dies`
* `c64_adapt_twice`
* `c64_selection_reads`
* `c64_nsga_selection_reads`
* `c65_crossover_swaps_nodes`
* `c65_dead_connection_stays_dead`
* `c65_node_lineage`
* `c65_complexity_never_grows`
* `c65_outcome`
* `c65_flat_ids_do_not_cross`
* `c66_akaike_selects_the_first`
* `c67_crossover_exchanges`
* `c67_architecture_inherited`
* `c67_weights_inherited`
* `c67_dead_position_stays_dead`
* `c67_initial_networks`
* `c67_initial_weights`
* `c67_initial_outcome`
* `c67_always_evaluable`
* `c68_every_variable_used`
* `c68_outcome`
* `c68_refit_keeps_stale_subsets`
* `c68_missing_variable_raises`
* `c69_complexity_nonneg`
* `c69_zero_complexity_is_constant`
* `c69_zero_row_is_unused`
* `c69_selects_least_error`
* `c70_rvea_selection_types`
* `c70_nsga_selection_types`
* `c70_mean_ignores_uncertainty`
* `c70_without_uncertainty_raises`
* `c71_angle_to_nearest_other`
* `c71_zero_iff_repeated`
* `c71_needs_two`
* `c71_at_most_right_angle`
* `c72_iopis_ea_never_runs`
* `c72_iopis_ea_construct`
* `c72_iopis_default_size`
* `c73_tournament_iterate`
* `c74_moead_runs`
* `c74_only_two_parents`
* `c74_non_lattice_size_never_completes`
* `c74_one_neighbour_never_completes`
* `c74_interactive_second_turn_violated`
* `c75_predict_means`
* `c75_predict_writes`
* `c75_changes_data_iff`
* `c75_second_prediction`
* `c75_rows_independent`
* `c75_repeatable_violated`
* `c75_first_prediction_violated`
* `c76_fit_returns`
* `c76_complexity`
* `c76_error_of_model`
* `c76_weights_shift`
* `c76_single_individual_raises`
* `c76_batch`
* `c76_error_violated`
* `c77_focused_cone`
* `c77_default_point`
* `c77_last_axis_violated`
* `c77_constructor_errors`
* `c77_planar`
* `c78_step`
* `c78_at_the_point`
* `c78_wrong_type`
* `c78_parallel_violated`
* `c78_history`
* `c78_reaches`
* `c78_after_reaching_violated`
* `c78_planar`
* `c79_ibea_elitist`
* `c79_pbea_elitist`
* `c79_epsilon_respects_dominance`
* `c79_dominated_first_violated`
* `c80_population`
* `c80_generation`
* `c80_iterate_returns`
* `c80_small_population_violated`
* `c81_generation`
* `c81_nothing_lost`
* `c81_big_front_violated`
* `c82_dominated_only_closer`
* `c82_no_penalty`
* `c82_dropped_dominator_violated`
* `c82_across_vectors_violated`
* `c83_plain`
* `c83_uncertain`
* `c83_running_ideal`
* `c83_iopis`
* `c83_penalty`
* `c83_negative_time_violated`
* `c83_iopis_alpha_ignored_violated`
* `c83_beaten_ideal_violated`
* `c83_constraints_ignored_violated`
* `c84_size_and_elitism`
* `c84_running_ideal`
* `c84_explicit_n_survive_unusable`
* `c85_least_squares_solvable`
* `c85_evonn_upper_layer_optimal`
* `c85_evodn2_upper_layer_optimal`
* `c85_generation_floor`
* `c85_clock`
* `c85_evonn_fit`
* `c85_evonn_aicc`
* `c85_evonn_dead_input`
* `c85_evonn_node_lineage`
* `c85_evonn_failed_fit`
* `c85_evonn_refusals`
* `c85_evonn_outcomes`
* `c85_evodn2_fit`
* `c85_evodn2_failed_fit`
* `c85_evodn2_few_offspring_violated`
* `c85_evodn2_full_lattice_violated`
* `c85_evodn2_small_population_violated`
* `c85_evonn_can_train`
* `c85_evodn2_can_train`
* `c86_v2`
* `c86_v2_angles`
* `c86_v2_history`
* `c86_fresh_history`
* `c86_v2_three_objectives_only`
* `c86_v2_third_axis_violated`
* `c86_v2_nan_violated`
* `c86_v3`
* `c86_v3_duplicates_violated`
* `c86_v3_keeps_preference`
* `c86_v3_negative_violated`
* `c86_v2_empty`
* `c86_v3_errors`
* `c86_v3_third_axis_violated`
* `c87_dead_nodes_do_not_predict`
* `c87_data`
* `c87_fit`
* `c87_predict`
* `c87_recorded_error`
* `c87_failed_fit`
* `c87_never_trains`
* `c87_untrained`
* `c87_default_raises`
* `c87_too_few`
* `c87_can_train`
* `c87_model_error_violated`
* `c87_complexity_violated`
* `c87_refit_other_columns`
* `c88_shows`
* `c88_init`
* `c88_history`
* `c88_default_numbers`
* `c88_skips_unplottable`
* `c88_file_is_figure`
* `c88_names_violated`
* `c89_std_dev`
* `c89_evonn_gaussian`
* `c89_evonn_other`
* `c89_evonn_as_class`
* `c89_evonn_dead_connection`
* `c89_evodn2_gaussian`
* `c89_evodn2_other`
* `c89_zero_budget`
* `c89_biogp_xover_kind`
* `c89_biogp_mate`
* `c89_biogp_mutation_kind`
* `c89_biogp_mutate`
* `c90_call_as_on_values`
* `c90_history_as_on_values`
* `c90_moead_step_as_on_values`
* `c90_arrays_handed_out_never_change`
* `c91_shows_the_current_population`
* `c91_answer_means_what_was_shown`
* `c91_after_failed_iteration_violated`
* `c92_plain_names_never_interfere`
* `c92_archive_tables_labelled`
* `c92_nested_objective_names_never_shown`
* `c92_nested_fitness_names_no_iteration`
* `c92_grouped_objectives_in_archive`
* `c92_objectives_under_fitness_names_violated`
* `c92_mixed_names_no_iteration`
* `c93_rvea_same_runs`
* `c93_nsga_same_runs`
* `c93_preferred_solution_violated`
* `c93_moead_same_runs`
* `c93_ibea_same_runs`
* `c93_ibea_units_violated`
* `c93_pbea_maximise_violated`
* `c94_reference_point_focuses`
* `c94_non_preferred_removes`
* `c94_preferred_solutions_focus`
* `c94_preferred_maximised_violated`
* `c95_sbx_spread_distribution`
* `c95_mutation_distribution`
* `c95_mutation_rate`
* `c95_mutation_reaches_every_box`
* `c95_mate_reaches_every_box`
* `c96_nsga_ignores_constraints`
* `c96_nsga_may_end_infeasible`
* `c96_rvea_total_violation`
* `c96_moead_ignores_constraints`
* `c96_indicator_ignores_constraints`
* `c97_save_non_dominated`
* `c97_moead_keep_archive`
* `c97_moead_save_non_dominated`
* `c97_nsga_grouping`
* `c97_moead_grouping`
* `c97_indicator_grouping`
* `c98_may_miss_the_optimum`
* `c98_moead_only_evaluated_points`
* `c98_indicator_only_evaluated_points`
* `c99_indicator_hand_over`
* `c99_moead_hand_over`
* `c99_nsga_hand_over`
* `c99_nsga_nadir_violated`
* `c99_moead_small_population`
* `c99_nsga_small_population`
* `c100_indicator_every_box_is_sampled`
* `c100_indicator_ready_at_start`
* `c100_every_box_is_sampled`
* `c100_missing_tends_to_zero`
* `c100_continuous_objective`
* `c100_ready_at_start`
* `c100_nan_stays`
* `c100_moead_every_box_is_sampled`
* `c101_activation_functions`
* `c101_evonn_sensitivity`
* `c101_evonn_bounded`
* `c101_evonn_after_fit`
* `c101_evodn2_complexity_bounds_sensitivity`
* `c101_evodn2_bounded`
* `c102_losses`
* `c102_log_loss`
* `c102_at_least_mean_losses`
* `c102_constant_targets`
* `c102_evonn_no_worse_than_the_mean`
* `c102_evodn2_no_worse_than_the_mean`
* `c102_biogp_no_worse_than_the_mean`
* `c103_chance_above`
* `c103_chance_of_each`
* `c103_expected_copies`
* `c103_strongest_never_mate`
* `c103_binary`
* `c103_last_never`
* `c104_archive_converges`
* `c104_archive_attained`
* `c104_recording_at_start`
* `c104_run_converges`
* `c104_moead_archive_converges`
* `c104_moead_recording_at_start`
* `c105_rvea_order`
* `c105_end_order`
* `c105_archive_order`
* `c105_indicator_order`
* `c106_accepted_calls`
* `c106_settings_kept`
* `c106_fixed_settings`
* `c106_run_settings`
* `c106_population`
* `c106_plain_run`
* `c107_nsga_generation`
* `c107_rvea_generation`
* `c107_nsga_iterate`
* `c107_rvea_iterate`
* `c107_nsga_retry`
* `c107_rvea_retry`
* `c108_indicator_generation`
* `c108_ibea_retry`
* `c108_limits_violated`
* `c108_moead_generation`
* `c109_rounding_one_times`
* `c109_mutation_within_bounds`
* `c109_offspring_within_bounds`
* `c109_exact_arithmetic_agrees`
* `c109_scaled_draw_within_bounds`
* `c109_design_within_bounds`
* `c109_draw_of_one_violated`
* `c109_problem_never_asked_outside`
* `c109_moead_problem_never_asked_outside`
* `c109_indicator_problem_never_asked_outside`
* `c109_every_individual_within`
* `c109_moead_every_individual_within`
* `c109_indicator_every_individual_within`
* `c109_rounded_run_within`
* `c110_selection`
* `c110_same_without_nan`
* `c110_same_selection_without_nan`
* `c110_nan_uncertainty`
* `c110_ideal_stays_nan`
* `c110_one_nan_ends_the_run`
* `c110_moead_never_replaces_nan`
* `c110_moead_frozen_by_nan_ideal`
* `c111_all_nan`
* `c111_newest_survive`
* `c111_parents_lost`
* `c111_tournament_first_drawn`
* `c111_generation`
* `c111_same_without_nan`
* `c111_same_tournament`
* `c111_same_generation`
* `c112_nan_is_remembered`
* `c112_worst_is_nan`
* `c112_for_ever`
* `c112_last_front_by_lot`
* `c112_nothing_else_matters`
* `c112_dominance_skips_nan`
* `c112_dominance_without_nan`
* `c112_dominance_cycle`
* `c112_all_nan_row`
* `c112_nan_rows_pile_up`
* `c112_nan_evicts`
* `c112_same_without_nan`
* `c113_adapt`
* `c113_adapt_same_on_numbers`
* `c113_infinite_values_do_not_interfere`
* `c113_entirely_failed`
* `c113_same_on_numbers`
* `c113_infinite_value_ends_the_run`
* `c114_same_on_numbers`
* `c114_failed_removed_first`
* `c114_failed_have_least_fitness`
* `c114_failed_become_parents`
* `c115_pbi_of_failed`
* `c115_pbi_of_numbers`
* `c115_failed_never_replaced`
* `c115_tchebycheff_differs`
* `c115_tchebycheff_replaces`
* `c116_infinite_to_first_niche`
* `c116_infinite_taken_first`
* `c116_failed_last`
* `c116_enough_alive`
* `c116_niching_by_lot`
* `c116_sort_contract_satisfiable`
* `c116_same_on_numbers`
