'Pyensys.C01_dictionary_is_a_map' depends on axioms: [propext, Quot.sound]
'Pyensys.C02_list_is_a_log' depends on axioms: [propext, Quot.sound]
'Pyensys.C03_append_pop_restores' depends on axioms: [propext, Quot.sound]
'Pyensys.C04_set_item_frame' depends on axioms: [propext, Quot.sound]
'Pyensys.C05_difference_dicts' depends on axioms: [propext, Quot.sound]
'Pyensys.C05_difference_lists' depends on axioms: [propext, Quot.sound]
'Pyensys.C05_none_entries_survive' depends on axioms: [propext]
'Pyensys.C06_contains_iff' depends on axioms: [propext, Quot.sound]
'Pyensys.C06_contains_preorder_dicts' depends on axioms: [propext, Quot.sound]
'Pyensys.C06_contains_preorder_lists' depends on axioms: [propext, Quot.sound]
'Pyensys.C06_dict_antisymm' depends on axioms: [propext, Classical.choice, Quot.sound]
'Pyensys.C06_list_not_antisymm' depends on axioms: [propext]
'Pyensys.C07_double_create_is_unusable' depends on axioms: [propext]
'Pyensys.C07_kind_mismatch' depends on axioms: [propext]
'Pyensys.C07_same_kind_ok' depends on axioms: [propext, Quot.sound]
'Pyensys.C08_nested_loop' depends on axioms: [propext, Quot.sound]
'Pyensys.C08_nested_loop_misses_pairs' depends on axioms: [propext, Quot.sound]
'Pyensys.C08_single_loop' depends on axioms: [propext, Quot.sound]
'Pyensys.C09_extend_dicts' depends on axioms: [propext, Quot.sound]
'Pyensys.C09_extend_lists' depends on axioms: [propext]
'Pyensys.C100_hours_partial' depends on axioms: [propext, Classical.choice, Quot.sound]
'Pyensys.C100_infeasible_violated' depends on axioms: [propext, Quot.sound]
'Pyensys.C101_connections_partial' depends on axioms: [propext, Classical.choice, Quot.sound]
'Pyensys.C101_load_type_violated' depends on axioms: [propext, Classical.choice, Quot.sound]
'Pyensys.C101_succeeds_partial' depends on axioms: [propext, Classical.choice, Quot.sound]
'Pyensys.C101_unknown_bus_partial' depends on axioms: [propext, Classical.choice, Quot.sound]
'Pyensys.C102_objective_partial' depends on axioms: [propext, Classical.choice, Quot.sound]
'Pyensys.C102_unit_weights_partial' depends on axioms: [propext, Classical.choice, Quot.sound]
'Pyensys.C102_weights_violated' depends on axioms: [propext, Classical.choice, Quot.sound]
'Pyensys.C103_conservation_partial' depends on axioms: [propext, Classical.choice, Quot.sound]
'Pyensys.C103_contingency_violated' depends on axioms: [propext, Classical.choice, Quot.sound]
'Pyensys.C103_contingency_witness' depends on axioms: [propext, Classical.choice, Quot.sound]
'Pyensys.C103_precalculated_partial' depends on axioms: [propext, Classical.choice, Quot.sound]
'Pyensys.C103_pump_bus_violated' depends on axioms: [propext, Quot.sound]
'Pyensys.C103_pump_violated' depends on axioms: [propext, Classical.choice, Quot.sound]
'Pyensys.C103_pump_witness' does not depend on any axioms
'Pyensys.C103_witness' depends on axioms: [propext, Classical.choice, Quot.sound]
'Pyensys.C104_beyond_violated' depends on axioms: [propext, Classical.choice, Quot.sound]
'Pyensys.C104_losses_partial' depends on axioms: [propext, Classical.choice, Quot.sound]
'Pyensys.C104_witness' depends on axioms: [propext, Classical.choice, Quot.sound]
'Pyensys.C105_at_bus' depends on axioms: [propext, Classical.choice, Quot.sound]
'Pyensys.C105_distinct' depends on axioms: [propext, Classical.choice, Quot.sound]
'Pyensys.C105_unknown_bus' depends on axioms: [propext, Classical.choice, Quot.sound]
'Pyensys.C105_variables' depends on axioms: [propext, Classical.choice, Quot.sound]
'Pyensys.C105_witness' depends on axioms: [propext, Classical.choice, Quot.sound]
'Pyensys.C106_default_partial' depends on axioms: [propext, Classical.choice, Quot.sound]
'Pyensys.C106_missing_violated' depends on axioms: [propext, Classical.choice, Quot.sound]
'Pyensys.C106_no_profiles_partial' depends on axioms: [propext, Classical.choice, Quot.sound]
'Pyensys.C106_profile_partial' depends on axioms: [propext, Classical.choice, Quot.sound]
'Pyensys.C106_witness' depends on axioms: [propext, Classical.choice, Quot.sound]
'Pyensys.C106_zero_violated' depends on axioms: [propext, Classical.choice, Quot.sound]
'Pyensys.C107_down_partial' depends on axioms: [propext, Classical.choice, Quot.sound]
'Pyensys.C107_first_period_violated' depends on axioms: [propext, Classical.choice, Quot.sound]
'Pyensys.C107_other_unit_violated' depends on axioms: [propext, Classical.choice, Quot.sound]
'Pyensys.C107_up_partial' depends on axioms: [propext, Classical.choice, Quot.sound]
'Pyensys.C108_committed_partial' depends on axioms: [propext, Classical.choice, Quot.sound]
'Pyensys.C108_cooled_min_violated' depends on axioms: [propext, Classical.choice, Quot.sound]
'Pyensys.C108_cooled_partial' depends on axioms: [propext, Classical.choice, Quot.sound]
'Pyensys.C108_cooled_uc_violated' depends on axioms: [propext, Classical.choice, Quot.sound]
'Pyensys.C108_switch_partial' depends on axioms: [propext, Classical.choice, Quot.sound]
'Pyensys.C108_uncommitted_partial' depends on axioms: [propext, Classical.choice, Quot.sound]
'Pyensys.C109_ramps_partial' depends on axioms: [propext, Classical.choice, Quot.sound]
'Pyensys.C109_settings_partial' depends on axioms: [propext, Quot.sound]
'Pyensys.C109_short_list_violated' depends on axioms: [propext, Classical.choice, Quot.sound]
'Pyensys.C10_pool' depends on axioms: [propext, Classical.choice, Quot.sound]
'Pyensys.C110_distinct_types_partial' depends on axioms: [propext, Quot.sound]
'Pyensys.C110_one_type_partial' depends on axioms: [propext, Quot.sound]
'Pyensys.C110_same_type_violated' depends on axioms: [propext, Classical.choice, Quot.sound]
'Pyensys.C111_baseload_partial' depends on axioms: [propext, Classical.choice, Quot.sound]
'Pyensys.C111_conventional_violated' depends on axioms: [propext, Classical.choice, Quot.sound]
'Pyensys.C111_weights_violated' depends on axioms: [propext, Classical.choice, Quot.sound]
'Pyensys.C112_default_partial' depends on axioms: [propext, Quot.sound]
'Pyensys.C112_link_zero_violated' depends on axioms: [propext, Classical.choice, Quot.sound]
'Pyensys.C112_linked_partial' depends on axioms: [propext, Classical.choice, Quot.sound]
'Pyensys.C113_binaries_partial' depends on axioms: [propext, Quot.sound]
'Pyensys.C113_binaries_violated' depends on axioms: [propext, Quot.sound]
'Pyensys.C113_instances_partial' depends on axioms: [propext, Quot.sound]
'Pyensys.C114_total' depends on axioms: [propext, Classical.choice, Quot.sound]
'Pyensys.C114_weights' depends on axioms: [propext, Classical.choice, Quot.sound]
'Pyensys.C115_accounting' depends on axioms: [propext, Classical.choice, Quot.sound]
'Pyensys.C115_water' depends on axioms: [propext, Classical.choice, Quot.sound]
'Pyensys.C115_witness' depends on axioms: [propext, Classical.choice, Quot.sound]
'Pyensys.C116_all_generation' depends on axioms: [propext, Classical.choice, Quot.sound]
'Pyensys.C116_conservation' depends on axioms: [propext, Classical.choice, Quot.sound]
'Pyensys.C116_curtailment' depends on axioms: [propext, Classical.choice, Quot.sound]
'Pyensys.C116_demand' depends on axioms: [propext, Classical.choice, Quot.sound]
'Pyensys.C116_generation' depends on axioms: [propext, Classical.choice, Quot.sound]
'Pyensys.C116_pumps' depends on axioms: [propext, Classical.choice, Quot.sound]
'Pyensys.C116_spill' depends on axioms: [propext, Classical.choice, Quot.sound]
'Pyensys.C116_witness' depends on axioms: [propext, Classical.choice, Quot.sound]
'Pyensys.C117_constant_violated' depends on axioms: [propext, Classical.choice, Quot.sound]
'Pyensys.C117_load_types_violated' depends on axioms: [propext, Classical.choice, Quot.sound]
'Pyensys.C117_losses_partial' depends on axioms: [propext, Classical.choice, Quot.sound]
'Pyensys.C117_losses_violated' depends on axioms: [propext, Classical.choice, Quot.sound]
'Pyensys.C117_net_demand_partial' depends on axioms: [propext, Classical.choice, Quot.sound]
'Pyensys.C117_net_demand_violated' depends on axioms: [propext, Classical.choice, Quot.sound]
'Pyensys.C117_numbering_violated' depends on axioms: [propext, Classical.choice, Quot.sound]
'Pyensys.C118_unweighted_partial' depends on axioms: [propext, Classical.choice, Quot.sound]
'Pyensys.C118_weights_violated' depends on axioms: [propext, Classical.choice, Quot.sound]
'Pyensys.C119_average_partial' depends on axioms: [propext, Classical.choice, Quot.sound]
'Pyensys.C119_beyond_violated' depends on axioms: [propext, Classical.choice, Quot.sound]
'Pyensys.C119_initial_partial' depends on axioms: [propext, Quot.sound]
'Pyensys.C119_lengths_violated' depends on axioms: [propext, Classical.choice, Quot.sound]
'Pyensys.C119_negative_violated' depends on axioms: [propext, Classical.choice, Quot.sound]
'Pyensys.C119_set_partial' depends on axioms: [propext, Classical.choice, Quot.sound]
'Pyensys.C119_zero_violated' depends on axioms: [propext, Classical.choice, Quot.sound]
'Pyensys.C11_available' depends on axioms: [propext, Quot.sound]
'Pyensys.C11_available_keys' depends on axioms: [propext, Quot.sound]
'Pyensys.C120_overwrite' depends on axioms: [propext, Classical.choice, Quot.sound]
'Pyensys.C120_set' depends on axioms: [propext, Classical.choice, Quot.sound]
'Pyensys.C121_capacity_partial' depends on axioms: [propext, Classical.choice, Quot.sound]
'Pyensys.C121_first_violated' does not depend on any axioms
'Pyensys.C121_on_violated' depends on axioms: [propext, Classical.choice, Quot.sound]
'Pyensys.C121_status_partial' depends on axioms: [propext, Quot.sound]
'Pyensys.C122_recursion_violated' depends on axioms: [propext, Classical.choice, Quot.sound]
'Pyensys.C122_supernodes_partial' depends on axioms: [propext, Classical.choice, Quot.sound]
'Pyensys.C123_demand' depends on axioms: [propext, Classical.choice, Quot.sound]
'Pyensys.C124_losses_partial' depends on axioms: [propext, Classical.choice, Quot.sound]
'Pyensys.C124_violated' depends on axioms: [propext, Classical.choice, Quot.sound]
'Pyensys.C125_numbers' depends on axioms: [propext, Classical.choice, Quot.sound]
'Pyensys.C126_generators_partial' depends on axioms: [propext, Classical.choice, Quot.sound]
'Pyensys.C126_violated' depends on axioms: [propext, Classical.choice, Quot.sound]
'Pyensys.C127_exactly_partial' depends on axioms: [propext, Classical.choice, Quot.sound]
'Pyensys.C127_fails_violated' depends on axioms: [propext, Classical.choice, Quot.sound]
'Pyensys.C127_succeeds_partial' depends on axioms: [propext, Classical.choice, Quot.sound]
'Pyensys.C128_ends_partial' depends on axioms: [propext, Classical.choice, Quot.sound]
'Pyensys.C128_violated' depends on axioms: [propext, Classical.choice, Quot.sound]
'Pyensys.C129_branches_partial' depends on axioms: [propext, Classical.choice, Quot.sound]
'Pyensys.C129_violated' depends on axioms: [propext, Classical.choice, Quot.sound]
'Pyensys.C12_combinations' depends on axioms: [propext, Classical.choice, Quot.sound]
'Pyensys.C12_inner_requests' depends on axioms: [propext, Classical.choice, Quot.sound]
'Pyensys.C12_leaf_requests' depends on axioms: [propext, Classical.choice, Quot.sound]
'Pyensys.C130_no_elements_violated' depends on axioms: [propext, Classical.choice, Quot.sound]
'Pyensys.C130_succeeds_partial' depends on axioms: [propext, Classical.choice, Quot.sound]
'Pyensys.C131_islands' depends on axioms: [propext, Classical.choice, Quot.sound]
'Pyensys.C131_witness' depends on axioms: [propext, Classical.choice, Quot.sound]
'Pyensys.C132_order_partial' depends on axioms: [propext, Classical.choice, Quot.sound]
'Pyensys.C132_order_violated' depends on axioms: [propext, Classical.choice, Quot.sound]
'Pyensys.C133_delete_generators_violated' depends on axioms: [propext, Quot.sound]
'Pyensys.C133_other_types_partial' depends on axioms: [propext, Quot.sound]
'Pyensys.C133_witness' depends on axioms: [propext, Classical.choice, Quot.sound]
'Pyensys.C134_delete_elements' depends on axioms: [propext, Classical.choice, Quot.sound]
'Pyensys.C134_witness' depends on axioms: [propext, Classical.choice, Quot.sound]
'Pyensys.C135_again_partial' depends on axioms: [propext, Classical.choice, Quot.sound]
'Pyensys.C135_again_violated' depends on axioms: [propext, Classical.choice, Quot.sound]
'Pyensys.C135_parts_partial' depends on axioms: [propext, Classical.choice, Quot.sound]
'Pyensys.C135_rows_violated' depends on axioms: [propext, Classical.choice, Quot.sound]
'Pyensys.C135_single_violated' depends on axioms: [propext, Classical.choice, Quot.sound]
'Pyensys.C135_zero_violated' depends on axioms: [propext, Classical.choice, Quot.sound]
'Pyensys.C136_network_partial' depends on axioms: [propext, Classical.choice, Quot.sound]
'Pyensys.C136_parallel_violated' depends on axioms: [propext, Classical.choice, Quot.sound]
'Pyensys.C137_conservation_partial' depends on axioms: [propext, Classical.choice, Quot.sound]
'Pyensys.C137_day_partial' depends on axioms: [propext, Classical.choice, Quot.sound]
'Pyensys.C137_double_violated' does not depend on any axioms
'Pyensys.C137_witness' depends on axioms: [propext, Classical.choice, Quot.sound]
'Pyensys.C138_shares_partial' depends on axioms: [propext, Classical.choice, Quot.sound]
'Pyensys.C138_zero_example_violated' depends on axioms: [propext, Classical.choice, Quot.sound]
'Pyensys.C138_zero_violated' depends on axioms: [propext, Classical.choice, Quot.sound]
'Pyensys.C139_average_partial' depends on axioms: [propext, Classical.choice, Quot.sound]
'Pyensys.C139_full_violated' depends on axioms: [propext, Classical.choice, Quot.sound]
'Pyensys.C13_candidate_restored' depends on axioms: [propext, Classical.choice, Quot.sound]
'Pyensys.C13_every_call' depends on axioms: [propext, Classical.choice, Quot.sound]
'Pyensys.C140_feas_violated' depends on axioms: [propext, Classical.choice, Quot.sound]
'Pyensys.C140_limits_partial' depends on axioms: [propext, Classical.choice, Quot.sound]
'Pyensys.C140_separate_partial' depends on axioms: [propext, Classical.choice, Quot.sound]
'Pyensys.C141_ramp_violated' depends on axioms: [propext, Classical.choice, Quot.sound]
'Pyensys.C141_values_violated' depends on axioms: [propext, Quot.sound]
'Pyensys.C142_double_violated' depends on axioms: [propext, Classical.choice, Quot.sound]
'Pyensys.C142_first_violated' depends on axioms: [propext, Classical.choice, Quot.sound]
'Pyensys.C142_small_violated' depends on axioms: [propext, Classical.choice, Quot.sound]
'Pyensys.C142_storage_partial' depends on axioms: [propext, Classical.choice, Quot.sound]
'Pyensys.C143_controlled_partial' depends on axioms: [propext, Classical.choice, Quot.sound]
'Pyensys.C143_controlled_violated' depends on axioms: [propext, Classical.choice, Quot.sound]
'Pyensys.C143_links_partial' depends on axioms: [propext, Classical.choice, Quot.sound]
'Pyensys.C143_none_violated' depends on axioms: [propext, Classical.choice, Quot.sound]
'Pyensys.C144_inner_partial' depends on axioms: [propext, Classical.choice, Quot.sound]
'Pyensys.C144_no_river_violated' depends on axioms: [propext, Classical.choice, Quot.sound]
'Pyensys.C144_outputs_partial' depends on axioms: [propext, Classical.choice, Quot.sound]
'Pyensys.C145_double_violated' depends on axioms: [propext, Classical.choice, Quot.sound]
'Pyensys.C145_downstream_partial' depends on axioms: [propext, Classical.choice, Quot.sound]
'Pyensys.C145_last_violated' depends on axioms: [propext, Classical.choice, Quot.sound]
'Pyensys.C145_nowhere_violated' depends on axioms: [propext, Classical.choice, Quot.sound]
'Pyensys.C145_output_partial' depends on axioms: [propext, Classical.choice, Quot.sound]
'Pyensys.C145_witness' depends on axioms: [propext, Classical.choice, Quot.sound]
'Pyensys.C146_delivery_partial' depends on axioms: [propext, Classical.choice, Quot.sound]
'Pyensys.C146_efficiency_violated' depends on axioms: [propext, Classical.choice, Quot.sound]
'Pyensys.C146_input_violated' depends on axioms: [propext, Classical.choice, Quot.sound]
'Pyensys.C146_intake_partial' depends on axioms: [propext, Classical.choice, Quot.sound]
'Pyensys.C146_no_hydro_violated' depends on axioms: [propext, Classical.choice, Quot.sound]
'Pyensys.C146_witness' depends on axioms: [propext, Classical.choice, Quot.sound]
'Pyensys.C147_cycle_partial' depends on axioms: [propext, Classical.choice, Quot.sound]
'Pyensys.C147_fixed_violated' depends on axioms: [propext, Classical.choice, Quot.sound]
'Pyensys.C147_length_violated' depends on axioms: [propext, Classical.choice, Quot.sound]
'Pyensys.C147_vectors_violated' depends on axioms: [propext, Classical.choice, Quot.sound]
'Pyensys.C147_witness' depends on axioms: [propext, Classical.choice, Quot.sound]
'Pyensys.C148_negative_violated' depends on axioms: [propext, Classical.choice, Quot.sound]
'Pyensys.C148_negative_witness' depends on axioms: [propext, Classical.choice, Quot.sound]
'Pyensys.C148_returned_partial' depends on axioms: [propext, Classical.choice, Quot.sound]
'Pyensys.C148_runs_partial' depends on axioms: [propext, Classical.choice, Quot.sound]
'Pyensys.C148_same_partial' depends on axioms: [propext, Classical.choice, Quot.sound]
'Pyensys.C148_uncertain_violated' depends on axioms: [propext, Classical.choice, Quot.sound]
'Pyensys.C148_uncertain_witness' depends on axioms: [propext, Classical.choice, Quot.sound]
'Pyensys.C148_witness' depends on axioms: [propext, Classical.choice, Quot.sound]
'Pyensys.C149_all_plans_partial' depends on axioms: [propext, Classical.choice, Quot.sound]
'Pyensys.C149_balance_partial' depends on axioms: [propext, Classical.choice, Quot.sound]
'Pyensys.C149_isolated_violated' depends on axioms: [propext, Classical.choice, Quot.sound]
'Pyensys.C149_plans_partial' depends on axioms: [propext, Classical.choice, Quot.sound]
'Pyensys.C149_pumps_violated' depends on axioms: [propext, Classical.choice, Quot.sound]
'Pyensys.C149_pumps_witness' depends on axioms: [propext, Classical.choice, Quot.sound]
'Pyensys.C149_quantities_given_partial' depends on axioms: [propext, Classical.choice, Quot.sound]
'Pyensys.C149_quantities_partial' depends on axioms: [propext, Classical.choice, Quot.sound]
'Pyensys.C149_total_partial' depends on axioms: [propext, Classical.choice, Quot.sound]
'Pyensys.C149_witness' depends on axioms: [propext, Classical.choice, Quot.sound]
'Pyensys.C14_leaf_lowers_times_violated' depends on axioms: [propext, Classical.choice, Quot.sound]
'Pyensys.C14_uniform_shift_partial' depends on axioms: [propext, Classical.choice, Quot.sound]
'Pyensys.C14_violated' depends on axioms: [propext, Classical.choice, Quot.sound]
'Pyensys.C150_flows_partial' depends on axioms: [propext, Classical.choice, Quot.sound]
'Pyensys.C150_merged_violated' depends on axioms: [propext, Classical.choice, Quot.sound]
'Pyensys.C150_rate_violated' depends on axioms: [propext, Classical.choice, Quot.sound]
'Pyensys.C150_rate_witness' depends on axioms: [propext, Classical.choice, Quot.sound]
'Pyensys.C150_unmatched_violated' depends on axioms: [propext, Classical.choice, Quot.sound]
'Pyensys.C150_unmatched_witness' depends on axioms: [propext, Classical.choice, Quot.sound]
'Pyensys.C151_cheapest_partial' depends on axioms: [propext, Classical.choice, Quot.sound]
'Pyensys.C151_hour_partial' depends on axioms: [propext, Classical.choice, Quot.sound]
'Pyensys.C151_hours_violated' depends on axioms: [propext, Classical.choice, Quot.sound]
'Pyensys.C151_objective_partial' depends on axioms: [propext, Classical.choice, Quot.sound]
'Pyensys.C151_value_partial' depends on axioms: [propext, Classical.choice, Quot.sound]
'Pyensys.C152_violated' depends on axioms: [propext, Classical.choice, Quot.sound]
'Pyensys.C153_names_violated' depends on axioms: [propext, Classical.choice, Quot.sound]
'Pyensys.C153_names_witness' depends on axioms: [propext, Classical.choice, Quot.sound]
'Pyensys.C153_objective_partial' depends on axioms: [propext, Classical.choice, Quot.sound]
'Pyensys.C153_plan_witness' depends on axioms: [propext, Classical.choice, Quot.sound]
'Pyensys.C153_plans_partial' depends on axioms: [propext, Classical.choice, Quot.sound]
'Pyensys.C153_ramp_violated' depends on axioms: [propext, Classical.choice, Quot.sound]
'Pyensys.C153_res_violated' depends on axioms: [propext, Classical.choice, Quot.sound]
'Pyensys.C153_runs_partial' depends on axioms: [propext, Classical.choice, Quot.sound]
'Pyensys.C153_units_violated' depends on axioms: [propext, Classical.choice, Quot.sound]
'Pyensys.C153_units_witness' depends on axioms: [propext, Classical.choice, Quot.sound]
'Pyensys.C153_water_partial' depends on axioms: [propext, Classical.choice, Quot.sound]
'Pyensys.C153_witness' depends on axioms: [propext, Classical.choice, Quot.sound]
'Pyensys.C154_failures_witness' depends on axioms: [propext, Classical.choice, Quot.sound]
'Pyensys.C154_loop_violated' depends on axioms: [propext, Classical.choice, Quot.sound]
'Pyensys.C154_low_profile_violated' depends on axioms: [propext, Classical.choice, Quot.sound]
'Pyensys.C154_many_res_violated' depends on axioms: [propext, Classical.choice, Quot.sound]
'Pyensys.C154_more_pieces_violated' depends on axioms: [propext, Classical.choice, Quot.sound]
'Pyensys.C154_no_pieces_violated' depends on axioms: [propext, Classical.choice, Quot.sound]
'Pyensys.C154_runs_partial' depends on axioms: [propext, Classical.choice, Quot.sound]
'Pyensys.C154_single_violated' depends on axioms: [propext, Classical.choice, Quot.sound]
'Pyensys.C154_zero_demand_violated' depends on axioms: [propext, Classical.choice, Quot.sound]
'Pyensys.C154_zero_demand_witness' depends on axioms: [propext, Quot.sound]
'Pyensys.C155_feasible_partial' depends on axioms: [propext, Classical.choice, Quot.sound]
'Pyensys.C155_loss_violated' depends on axioms: [propext, Classical.choice, Quot.sound]
'Pyensys.C155_loss_witness' depends on axioms: [propext, Classical.choice, Quot.sound]
'Pyensys.C155_returned_partial' depends on axioms: [propext, Classical.choice, Quot.sound]
'Pyensys.C155_witness' depends on axioms: [propext, Classical.choice, Quot.sound]
'Pyensys.C156_numeral' depends on axioms: [propext, Classical.choice, Quot.sound]
'Pyensys.C156_only_numerals' depends on axioms: [propext, Classical.choice, Quot.sound]
'Pyensys.C156_refused' depends on axioms: [propext, Classical.choice, Quot.sound]
'Pyensys.C156_witness' depends on axioms: [propext, Classical.choice, Quot.sound]
'Pyensys.C157_cost_violated' depends on axioms: [propext, Classical.choice, Quot.sound]
'Pyensys.C157_demands_partial' depends on axioms: [propext, Classical.choice, Quot.sound]
'Pyensys.C157_demands_witness' depends on axioms: [propext, Classical.choice, Quot.sound]
'Pyensys.C157_file_partial' depends on axioms: [propext, Classical.choice, Quot.sound]
'Pyensys.C158_agree_partial' depends on axioms: [propext, Classical.choice, Quot.sound]
'Pyensys.C158_violated' depends on axioms: [propext, Classical.choice, Quot.sound]
'Pyensys.C158_witness' depends on axioms: [propext, Classical.choice, Quot.sound]
'Pyensys.C159_bad_row_partial' depends on axioms: [propext, Classical.choice, Quot.sound]
'Pyensys.C159_first_line_violated' depends on axioms: [propext, Classical.choice, Quot.sound]
'Pyensys.C159_glued_violated' depends on axioms: [propext, Classical.choice, Quot.sound]
'Pyensys.C159_piecewise_violated' depends on axioms: [propext, Classical.choice, Quot.sound]
'Pyensys.C159_truncated_violated' depends on axioms: [propext, Classical.choice, Quot.sound]
'Pyensys.C15_needs_years' depends on axioms: [propext, Classical.choice, Quot.sound]
'Pyensys.C15_no_call_raises' depends on axioms: [propext, Classical.choice, Quot.sound]
'Pyensys.C15_search_never_raises' depends on axioms: [propext, Classical.choice, Quot.sound]
'Pyensys.C160_bare_violated' depends on axioms: [propext, Quot.sound]
'Pyensys.C160_path_partial' depends on axioms: [propext, Classical.choice, Quot.sound]
'Pyensys.C160_root_violated' depends on axioms: [propext, Classical.choice, Quot.sound]
'Pyensys.C161_columns_partial' depends on axioms: [propext, Classical.choice, Quot.sound]
'Pyensys.C161_costless_violated' depends on axioms: [propext, Classical.choice, Quot.sound]
'Pyensys.C161_lost_violated' depends on axioms: [propext, Classical.choice, Quot.sound]
'Pyensys.C161_reactive_violated' depends on axioms: [propext, Classical.choice, Quot.sound]
'Pyensys.C161_round_trip_partial' depends on axioms: [propext, Classical.choice, Quot.sound]
'Pyensys.C161_witness' depends on axioms: [propext, Classical.choice, Quot.sound]
'Pyensys.C162_anticipative_violated' depends on axioms: [propext, Classical.choice, Quot.sound]
'Pyensys.C162_clusters_partial' depends on axioms: [propext]
'Pyensys.C162_content_partial' depends on axioms: [propext, Classical.choice, Quot.sound]
'Pyensys.C162_empty_partial' depends on axioms: [propext, Classical.choice, Quot.sound]
'Pyensys.C162_raises_last_violated' depends on axioms: [propext, Classical.choice, Quot.sound]
'Pyensys.C162_raises_violated' depends on axioms: [propext, Classical.choice, Quot.sound]
'Pyensys.C162_run_violated' depends on axioms: [propext, Classical.choice, Quot.sound]
'Pyensys.C162_tool_violated' depends on axioms: [propext, Classical.choice, Quot.sound]
'Pyensys.C162_violated' depends on axioms: [propext, Classical.choice, Quot.sound]
'Pyensys.C163_first_partial' depends on axioms: [propext, Classical.choice, Quot.sound]
'Pyensys.C163_from_one_violated' depends on axioms: [propext, Classical.choice, Quot.sound]
'Pyensys.C163_second_violated' depends on axioms: [propext, Classical.choice, Quot.sound]
'Pyensys.C164_bare_violated' depends on axioms: [propext, Quot.sound]
'Pyensys.C164_name_partial' depends on axioms: [propext, Quot.sound]
'Pyensys.C165_peak' depends on axioms: [propext, Classical.choice, Quot.sound]
'Pyensys.C165_witness' depends on axioms: [propext, Quot.sound]
'Pyensys.C166_order_violated' depends on axioms: [propext, Quot.sound]
'Pyensys.C166_reactive_violated' depends on axioms: [propext, Classical.choice, Quot.sound]
'Pyensys.C166_same_peak_partial' depends on axioms: [propext, Classical.choice, Quot.sound]
'Pyensys.C166_series_partial' depends on axioms: [propext, Classical.choice, Quot.sound]
'Pyensys.C166_witness' depends on axioms: [propext, Quot.sound]
'Pyensys.C167_discount_violated' depends on axioms: [propext, Classical.choice, Quot.sound]
'Pyensys.C167_given_partial' depends on axioms: [propext, Classical.choice, Quot.sound]
'Pyensys.C167_recovery_partial' depends on axioms: [propext, Classical.choice, Quot.sound]
'Pyensys.C167_witness' depends on axioms: [propext, Classical.choice, Quot.sound]
'Pyensys.C168_given' depends on axioms: [propext, Classical.choice, Quot.sound]
'Pyensys.C168_restore' depends on axioms: [propext, Classical.choice, Quot.sound]
'Pyensys.C168_witness' depends on axioms: [propext, Classical.choice, Quot.sound]
'Pyensys.C169_costs_partial' depends on axioms: [propext, Classical.choice, Quot.sound]
'Pyensys.C169_default_partial' depends on axioms: [propext, Classical.choice, Quot.sound]
'Pyensys.C169_lengths_partial' depends on axioms: [propext, Classical.choice, Quot.sound]
'Pyensys.C169_twice_violated' depends on axioms: [propext, Classical.choice, Quot.sound]
'Pyensys.C169_unknown_violated' depends on axioms: [propext, Classical.choice, Quot.sound]
'Pyensys.C169_witness' depends on axioms: [propext, Classical.choice, Quot.sound]
'Pyensys.C16_plan_covers_tree' depends on axioms: [propext, Classical.choice, Quot.sound]
'Pyensys.C170_content_partial' depends on axioms: [propext, Classical.choice, Quot.sound]
'Pyensys.C170_operation_violated' depends on axioms: [propext, Classical.choice, Quot.sound]
'Pyensys.C170_witness' depends on axioms: [propext, Classical.choice, Quot.sound]
'Pyensys.C170_years_violated' depends on axioms: [propext, Classical.choice, Quot.sound]
'Pyensys.C171_initial' depends on axioms: [propext, Classical.choice, Quot.sound]
'Pyensys.C171_invest' depends on axioms: [propext, Classical.choice, Quot.sound]
'Pyensys.C171_record' depends on axioms: [propext, Classical.choice, Quot.sound]
'Pyensys.C171_witness' depends on axioms: [propext, Quot.sound]
'Pyensys.C172_history_partial' depends on axioms: [propext, Classical.choice, Quot.sound]
'Pyensys.C172_kinds_partial' depends on axioms: [propext, Quot.sound]
'Pyensys.C172_new_partial' depends on axioms: [propext, Classical.choice, Quot.sound]
'Pyensys.C172_objects_partial' depends on axioms: [propext, Classical.choice, Quot.sound]
'Pyensys.C172_set_get_partial' depends on axioms: [propext, Classical.choice, Quot.sound]
'Pyensys.C172_unknown_violated' depends on axioms: [propext]
'Pyensys.C172_witness' depends on axioms: [propext, Quot.sound]
'Pyensys.C173_live_violated' depends on axioms: [propext, Quot.sound]
'Pyensys.C173_positions_partial' depends on axioms: [propext, Quot.sound]
'Pyensys.C173_witness' depends on axioms: [propext, Quot.sound]
'Pyensys.C174_empty_violated' depends on axioms: [propext, Classical.choice, Quot.sound]
'Pyensys.C174_empty_witness' depends on axioms: [propext, Quot.sound]
'Pyensys.C174_shared_violated' depends on axioms: [propext, Classical.choice, Quot.sound]
'Pyensys.C174_transfer_partial' depends on axioms: [propext, Classical.choice, Quot.sound]
'Pyensys.C174_witness' depends on axioms: [propext, Quot.sound]
'Pyensys.C175_reported' depends on axioms: [propext, Classical.choice, Quot.sound]
'Pyensys.C175_reported_witness' depends on axioms: [propext, Classical.choice, Quot.sound]
'Pyensys.C175_tables' depends on axioms: [propext, Classical.choice, Quot.sound]
'Pyensys.C175_witness' depends on axioms: [propext, Classical.choice, Quot.sound]
'Pyensys.C176_duals' depends on axioms: [propext, Classical.choice, Quot.sound]
'Pyensys.C176_states' depends on axioms: [propext, Classical.choice, Quot.sound]
'Pyensys.C176_witness' depends on axioms: [propext, Classical.choice, Quot.sound]
'Pyensys.C177_excel_tree_violated' depends on axioms: [propext, Classical.choice, Quot.sound]
'Pyensys.C177_hdf5_network_violated' depends on axioms: [propext, Classical.choice, Quot.sound]
'Pyensys.C177_no_position_violated' depends on axioms: [propext, Classical.choice, Quot.sound]
'Pyensys.C177_repeated_violated' depends on axioms: [propext, Classical.choice, Quot.sound]
'Pyensys.C177_shown_partial' depends on axioms: [propext, Classical.choice, Quot.sound]
'Pyensys.C178_close_violated' depends on axioms: [propext, Quot.sound]
'Pyensys.C178_closed_partial' depends on axioms: [propext, Quot.sound]
'Pyensys.C178_endless_violated' depends on axioms: [propext, Classical.choice, Quot.sound]
'Pyensys.C179_cut_violated' depends on axioms: [propext, Classical.choice, Quot.sound]
'Pyensys.C179_junk_violated' depends on axioms: [propext, Classical.choice, Quot.sound]
'Pyensys.C179_short_violated' depends on axioms: [propext, Classical.choice, Quot.sound]
'Pyensys.C179_transformers_partial' depends on axioms: [propext, Classical.choice, Quot.sound]
'Pyensys.C179_watts_violated' depends on axioms: [propext, Classical.choice, Quot.sound]
'Pyensys.C179_witness' depends on axioms: [propext, Classical.choice, Quot.sound]
'Pyensys.C17_check_keeps_cheaper' depends on axioms: [propext, Classical.choice, Quot.sound]
'Pyensys.C17_plan_never_more_expensive' depends on axioms: [propext, Classical.choice, Quot.sound]
'Pyensys.C180_buses_partial' depends on axioms: [propext, Classical.choice, Quot.sound]
'Pyensys.C180_single_violated' depends on axioms: [propext, Classical.choice, Quot.sound]
'Pyensys.C180_version_violated' depends on axioms: [propext, Classical.choice, Quot.sound]
'Pyensys.C181_charging_violated' depends on axioms: [propext, Classical.choice, Quot.sound]
'Pyensys.C181_cost_violated' depends on axioms: [propext, Classical.choice, Quot.sound]
'Pyensys.C181_demand_partial' depends on axioms: [propext, Classical.choice, Quot.sound]
'Pyensys.C181_demand_violated' depends on axioms: [propext, Classical.choice, Quot.sound]
'Pyensys.C181_hydro_violated' depends on axioms: [propext, Classical.choice, Quot.sound]
'Pyensys.C181_isolated_violated' depends on axioms: [propext, Classical.choice, Quot.sound]
'Pyensys.C181_network_partial' depends on axioms: [propext, Classical.choice, Quot.sound]
'Pyensys.C181_reactive_violated' depends on axioms: [propext, Classical.choice, Quot.sound]
'Pyensys.C181_transformer_violated' depends on axioms: [propext, Classical.choice, Quot.sound]
'Pyensys.C181_voltage_violated' depends on axioms: [propext, Classical.choice, Quot.sound]
'Pyensys.C181_witness' depends on axioms: [propext, Classical.choice, Quot.sound]
'Pyensys.C182_cost_partial' depends on axioms: [propext, Classical.choice, Quot.sound]
'Pyensys.C182_cost_violated' depends on axioms: [propext, Classical.choice, Quot.sound]
'Pyensys.C182_names_violated' depends on axioms: [propext, Classical.choice, Quot.sound]
'Pyensys.C182_numbers_violated' depends on axioms: [propext, Classical.choice, Quot.sound]
'Pyensys.C182_tables_partial' depends on axioms: [propext, Classical.choice, Quot.sound]
'Pyensys.C182_total_partial' depends on axioms: [propext, Classical.choice, Quot.sound]
'Pyensys.C182_total_violated' depends on axioms: [propext, Classical.choice, Quot.sound]
'Pyensys.C183_idColumn' depends on axioms: [propext, Classical.choice, Quot.sound]
'Pyensys.C183_ignored' depends on axioms: [propext, Classical.choice, Quot.sound]
'Pyensys.C183_noId' depends on axioms: [propext, Classical.choice, Quot.sound]
'Pyensys.C183_sheet' depends on axioms: [propext, Classical.choice, Quot.sound]
'Pyensys.C183_stored' depends on axioms: [propext, Classical.choice, Quot.sound]
'Pyensys.C183_titleError' depends on axioms: [propext]
'Pyensys.C183_titles' depends on axioms: [propext, Quot.sound]
'Pyensys.C183_traceless' depends on axioms: [propext, Classical.choice, Quot.sound]
'Pyensys.C183_witness' depends on axioms: [propext, Classical.choice, Quot.sound]
'Pyensys.C184_model_partial' depends on axioms: [propext, Classical.choice, Quot.sound]
'Pyensys.C184_noGap_violated' depends on axioms: [propext, Classical.choice, Quot.sound]
'Pyensys.C184_repeated_violated' depends on axioms: [propext, Classical.choice, Quot.sound]
'Pyensys.C184_sheet_partial' depends on axioms: [propext, Classical.choice, Quot.sound]
'Pyensys.C184_witness' depends on axioms: [propext, Classical.choice, Quot.sound]
'Pyensys.C185_names_partial' depends on axioms: [propext, Classical.choice, Quot.sound]
'Pyensys.C185_sheet_partial' depends on axioms: [propext, Classical.choice, Quot.sound]
'Pyensys.C185_shunt_violated' depends on axioms: [propext, Classical.choice, Quot.sound]
'Pyensys.C185_unknownName_violated' depends on axioms: [propext, Classical.choice, Quot.sound]
'Pyensys.C185_witness' depends on axioms: [propext, Classical.choice, Quot.sound]
'Pyensys.C186_correlate_partial' depends on axioms: [propext, Classical.choice, Quot.sound]
'Pyensys.C186_entry_partial' depends on axioms: [propext, Classical.choice, Quot.sound]
'Pyensys.C186_groupNumber_violated' depends on axioms: [propext, Classical.choice, Quot.sound]
'Pyensys.C186_off_partial' depends on axioms: [propext, Classical.choice, Quot.sound]
'Pyensys.C186_overlapOrder_partial' depends on axioms: [propext, Classical.choice, Quot.sound]
'Pyensys.C186_overlap_violated' depends on axioms: [propext, Classical.choice, Quot.sound]
'Pyensys.C186_sheet_partial' depends on axioms: [propext, Classical.choice, Quot.sound]
'Pyensys.C186_subtypeCase_violated' depends on axioms: [propext, Classical.choice, Quot.sound]
'Pyensys.C186_unknownId_partial' depends on axioms: [propext, Classical.choice, Quot.sound]
'Pyensys.C186_witness' depends on axioms: [propext, Classical.choice, Quot.sound]
'Pyensys.C187_active' depends on axioms: [propext, Classical.choice, Quot.sound]
'Pyensys.C187_lengths' depends on axioms: [propext, Classical.choice, Quot.sound]
'Pyensys.C187_losses' depends on axioms: [propext, Classical.choice, Quot.sound]
'Pyensys.C187_noActive' depends on axioms: [propext, Classical.choice, Quot.sound]
'Pyensys.C187_noProblem' depends on axioms: [propext, Classical.choice, Quot.sound]
'Pyensys.C187_options' depends on axioms: [propext, Classical.choice, Quot.sound]
'Pyensys.C187_witness' depends on axioms: [propext, Classical.choice, Quot.sound]
'Pyensys.C188_all_partial' depends on axioms: [propext, Classical.choice, Quot.sound]
'Pyensys.C188_endless_violated' depends on axioms: [propext, Classical.choice, Quot.sound]
'Pyensys.C188_for_partial' depends on axioms: [propext, Classical.choice, Quot.sound]
'Pyensys.C188_item_partial' depends on axioms: [propext, Classical.choice, Quot.sound]
'Pyensys.C188_or_violated' depends on axioms: [propext, Classical.choice, Quot.sound]
'Pyensys.C188_sheet_partial' depends on axioms: [propext, Classical.choice, Quot.sound]
'Pyensys.C188_single_violated' depends on axioms: [propext, Classical.choice, Quot.sound]
'Pyensys.C188_uc_violated' depends on axioms: [propext, Classical.choice, Quot.sound]
'Pyensys.C188_update_partial' depends on axioms: [propext, Classical.choice, Quot.sound]
'Pyensys.C188_value_partial' depends on axioms: [propext, Classical.choice, Quot.sound]
'Pyensys.C188_variable_violated' depends on axioms: [propext, Classical.choice, Quot.sound]
'Pyensys.C188_witness' depends on axioms: [propext, Classical.choice, Quot.sound]
'Pyensys.C189_endless_violated' depends on axioms: [propext, Classical.choice, Quot.sound]
'Pyensys.C189_item_partial' depends on axioms: [propext, Classical.choice, Quot.sound]
'Pyensys.C189_lists_partial' depends on axioms: [propext, Classical.choice, Quot.sound]
'Pyensys.C189_lower_violated' depends on axioms: [propext, Classical.choice, Quot.sound]
'Pyensys.C189_sheet_partial' depends on axioms: [propext, Classical.choice, Quot.sound]
'Pyensys.C189_variable_partial' depends on axioms: [propext, Classical.choice, Quot.sound]
'Pyensys.C189_witness' depends on axioms: [propext, Classical.choice, Quot.sound]
'Pyensys.C18_paths_are_root_to_leaf' depends on axioms: [propext, Classical.choice, Quot.sound]
'Pyensys.C190_element_partial' depends on axioms: [propext, Classical.choice, Quot.sound]
'Pyensys.C190_item_partial' depends on axioms: [propext, Classical.choice, Quot.sound]
'Pyensys.C190_none_violated' depends on axioms: [propext, Classical.choice, Quot.sound]
'Pyensys.C190_order_violated' depends on axioms: [propext, Classical.choice, Quot.sound]
'Pyensys.C190_sheet_partial' depends on axioms: [propext, Classical.choice, Quot.sound]
'Pyensys.C190_short_violated' depends on axioms: [propext, Classical.choice, Quot.sound]
'Pyensys.C190_single_violated' depends on axioms: [propext, Classical.choice, Quot.sound]
'Pyensys.C190_type_violated' depends on axioms: [propext, Classical.choice, Quot.sound]
'Pyensys.C190_witness' depends on axioms: [propext, Classical.choice, Quot.sound]
'Pyensys.C191_before_violated' depends on axioms: [propext, Classical.choice, Quot.sound]
'Pyensys.C191_connections_partial' depends on axioms: [propext, Classical.choice, Quot.sound]
'Pyensys.C191_kind_partial' depends on axioms: [propext, Classical.choice, Quot.sound]
'Pyensys.C191_model_partial' depends on axioms: [propext, Classical.choice, Quot.sound]
'Pyensys.C191_order_partial' depends on axioms: [propext, Classical.choice, Quot.sound]
'Pyensys.C191_parts_partial' depends on axioms: [propext, Classical.choice, Quot.sound]
'Pyensys.C191_paths_violated' depends on axioms: [propext, Classical.choice, Quot.sound]
'Pyensys.C191_periods_partial' depends on axioms: [propext, Classical.choice, Quot.sound]
'Pyensys.C191_silent_violated' depends on axioms: [propext, Classical.choice, Quot.sound]
'Pyensys.C191_twice_violated' depends on axioms: [propext, Classical.choice, Quot.sound]
'Pyensys.C191_witness' depends on axioms: [propext, Classical.choice, Quot.sound]
'Pyensys.C192_coupled_partial' depends on axioms: [propext, Classical.choice, Quot.sound]
'Pyensys.C192_detailed_violated' does not depend on any axioms
'Pyensys.C192_gen_cur_violated' depends on axioms: [propext, Classical.choice, Quot.sound]
'Pyensys.C192_gen_cur_witness' depends on axioms: [propext, Classical.choice, Quot.sound]
'Pyensys.C192_network_partial' depends on axioms: [propext, Classical.choice, Quot.sound]
'Pyensys.C192_percentage_violated' depends on axioms: [propext, Classical.choice, Quot.sound]
'Pyensys.C192_percentage_witness' depends on axioms: [propext, Classical.choice, Quot.sound]
'Pyensys.C192_profiles_partial' depends on axioms: [propext, Classical.choice, Quot.sound]
'Pyensys.C192_profiles_witness' depends on axioms: [propext, Classical.choice, Quot.sound]
'Pyensys.C193_balance_partial' depends on axioms: [propext, Classical.choice, Quot.sound]
'Pyensys.C193_contingency_violated' depends on axioms: [propext, Classical.choice, Quot.sound]
'Pyensys.C193_dispatch_partial' depends on axioms: [propext, Classical.choice, Quot.sound]
'Pyensys.C193_network_partial' depends on axioms: [propext, Classical.choice, Quot.sound]
'Pyensys.C193_pumps_violated' depends on axioms: [propext, Classical.choice, Quot.sound]
'Pyensys.C193_witness' depends on axioms: [propext, Classical.choice, Quot.sound]
'Pyensys.C194_feasibility_violated' depends on axioms: [propext, Classical.choice, Quot.sound]
'Pyensys.C194_periods_violated' depends on axioms: [propext, Classical.choice, Quot.sound]
'Pyensys.C194_totals_partial' depends on axioms: [propext, Classical.choice, Quot.sound]
'Pyensys.C195_losses_violated' depends on axioms: [propext, Classical.choice, Quot.sound]
'Pyensys.C195_rows_partial' depends on axioms: [propext, Classical.choice, Quot.sound]
'Pyensys.C195_totals_partial' depends on axioms: [propext, Classical.choice, Quot.sound]
'Pyensys.C195_witness' depends on axioms: [propext, Classical.choice, Quot.sound]
'Pyensys.C196_history_partial' depends on axioms: [propext, Classical.choice, Quot.sound]
'Pyensys.C196_objective_partial' depends on axioms: [propext, Classical.choice, Quot.sound]
'Pyensys.C196_parts_partial' depends on axioms: [propext, Classical.choice, Quot.sound]
'Pyensys.C196_save_partial' depends on axioms: [propext, Classical.choice, Quot.sound]
'Pyensys.C196_summary_partial' depends on axioms: [propext, Classical.choice, Quot.sound]
'Pyensys.C196_summary_violated' does not depend on any axioms
'Pyensys.C196_tables_partial' depends on axioms: [propext, Classical.choice, Quot.sound]
'Pyensys.C196_witness' depends on axioms: [propext, Classical.choice, Quot.sound]
'Pyensys.C197_marginal_partial' depends on axioms: [propext, Classical.choice, Quot.sound]
'Pyensys.C197_small_violated' depends on axioms: [propext, Classical.choice, Quot.sound]
'Pyensys.C198_curtailment_violated' depends on axioms: [propext, Classical.choice, Quot.sound]
'Pyensys.C198_directions_violated' depends on axioms: [propext, Classical.choice, Quot.sound]
'Pyensys.C198_exact_partial' depends on axioms: [propext, Classical.choice, Quot.sound]
'Pyensys.C198_losses_partial' depends on axioms: [propext, Classical.choice, Quot.sound]
'Pyensys.C198_witness' depends on axioms: [propext, Classical.choice, Quot.sound]
'Pyensys.C199_elements_partial' depends on axioms: [propext, Classical.choice, Quot.sound]
'Pyensys.C199_ids_violated' depends on axioms: [propext, Classical.choice, Quot.sound]
'Pyensys.C199_lookup_partial' depends on axioms: [propext, Classical.choice, Quot.sound]
'Pyensys.C199_period_violated' depends on axioms: [propext, Classical.choice, Quot.sound]
'Pyensys.C199_value_partial' depends on axioms: [propext, Classical.choice, Quot.sound]
'Pyensys.C199_witness' depends on axioms: [propext, Classical.choice, Quot.sound]
'Pyensys.C19_bookkeeping_aligned' depends on axioms: [propext, Classical.choice, Quot.sound]
'Pyensys.C200_loaded' depends on axioms: [propext, Classical.choice, Quot.sound]
'Pyensys.C200_perunit' depends on axioms: [propext, Classical.choice, Quot.sound]
'Pyensys.C201_convex_partial' depends on axioms: [propext, Classical.choice, Quot.sound]
'Pyensys.C201_given_partial' depends on axioms: [propext, Classical.choice, Quot.sound]
'Pyensys.C201_pieces_violated' depends on axioms: [propext, Classical.choice, Quot.sound]
'Pyensys.C201_points_partial' depends on axioms: [propext, Classical.choice, Quot.sound]
'Pyensys.C201_quadratic_partial' depends on axioms: [propext, Classical.choice, Quot.sound]
'Pyensys.C201_range_violated' depends on axioms: [propext, Classical.choice, Quot.sound]
'Pyensys.C201_witness' depends on axioms: [propext, Classical.choice, Quot.sound]
'Pyensys.C202_columns_partial' depends on axioms: [propext, Classical.choice, Quot.sound]
'Pyensys.C202_coupler_violated' depends on axioms: [propext, Classical.choice, Quot.sound]
'Pyensys.C202_feasible_partial' depends on axioms: [propext, Classical.choice, Quot.sound]
'Pyensys.C202_limit_partial' depends on axioms: [propext, Classical.choice, Quot.sound]
'Pyensys.C202_objective_partial' depends on axioms: [propext, Classical.choice, Quot.sound]
'Pyensys.C202_reactance_violated' depends on axioms: [propext, Classical.choice, Quot.sound]
'Pyensys.C202_rows_partial' depends on axioms: [propext, Classical.choice, Quot.sound]
'Pyensys.C202_status_violated' depends on axioms: [propext, Classical.choice, Quot.sound]
'Pyensys.C202_witness' depends on axioms: [propext, Classical.choice, Quot.sound]
'Pyensys.C203_hourcost_violated' depends on axioms: [propext, Classical.choice, Quot.sound]
'Pyensys.C203_hours_violated' depends on axioms: [propext, Classical.choice, Quot.sound]
'Pyensys.C203_linear_violated' depends on axioms: [propext, Classical.choice, Quot.sound]
'Pyensys.C203_lines_partial' depends on axioms: [propext, Classical.choice, Quot.sound]
'Pyensys.C203_megawatts_partial' depends on axioms: [propext, Classical.choice, Quot.sound]
'Pyensys.C203_model_partial' depends on axioms: [propext, Classical.choice, Quot.sound]
'Pyensys.C203_periods_partial' depends on axioms: [propext, Classical.choice, Quot.sound]
'Pyensys.C203_quadratic_partial' depends on axioms: [propext, Classical.choice, Quot.sound]
'Pyensys.C203_single_partial' depends on axioms: [propext, Classical.choice, Quot.sound]
'Pyensys.C203_witness' depends on axioms: [propext, Classical.choice, Quot.sound]
'Pyensys.C204_history_partial' depends on axioms: [propext, Classical.choice, Quot.sound]
'Pyensys.C204_one_violated' depends on axioms: [propext, Classical.choice, Quot.sound]
'Pyensys.C204_options_violated' depends on axioms: [propext, Classical.choice, Quot.sound]
'Pyensys.C204_order_violated' depends on axioms: [propext, Classical.choice, Quot.sound]
'Pyensys.C204_single_violated' depends on axioms: [propext, Classical.choice, Quot.sound]
'Pyensys.C204_start_partial' depends on axioms: [propext, Classical.choice, Quot.sound]
'Pyensys.C204_values_partial' depends on axioms: [propext, Classical.choice, Quot.sound]
'Pyensys.C204_witness' depends on axioms: [propext, Classical.choice, Quot.sound]
'Pyensys.C205_data_partial' depends on axioms: [propext, Classical.choice, Quot.sound]
'Pyensys.C205_feasible_partial' depends on axioms: [propext, Classical.choice, Quot.sound]
'Pyensys.C205_first_partial' depends on axioms: [propext, Classical.choice, Quot.sound]
'Pyensys.C205_history_partial' depends on axioms: [propext, Classical.choice, Quot.sound]
'Pyensys.C205_ignored_violated' depends on axioms: [propext, Classical.choice, Quot.sound]
'Pyensys.C205_limit_partial' depends on axioms: [propext, Classical.choice, Quot.sound]
'Pyensys.C205_status_violated' depends on axioms: [propext, Classical.choice, Quot.sound]
'Pyensys.C205_twice_violated' depends on axioms: [propext, Classical.choice, Quot.sound]
'Pyensys.C205_unknown_violated' depends on axioms: [propext, Classical.choice, Quot.sound]
'Pyensys.C205_whole_violated' depends on axioms: [propext, Classical.choice, Quot.sound]
'Pyensys.C205_witness' depends on axioms: [propext, Classical.choice, Quot.sound]
'Pyensys.C206_before_violated' depends on axioms: [propext, Classical.choice, Quot.sound]
'Pyensys.C206_ids_violated' depends on axioms: [propext, Classical.choice, Quot.sound]
'Pyensys.C206_missing_violated' depends on axioms: [propext, Classical.choice, Quot.sound]
'Pyensys.C206_parameters_partial' depends on axioms: [propext, Classical.choice, Quot.sound]
'Pyensys.C206_periods_violated' depends on axioms: [propext, Classical.choice, Quot.sound]
'Pyensys.C206_run_partial' depends on axioms: [propext, Classical.choice, Quot.sound]
'Pyensys.C206_several_partial' depends on axioms: [propext, Classical.choice, Quot.sound]
'Pyensys.C206_subtypes_violated' depends on axioms: [propext, Classical.choice, Quot.sound]
'Pyensys.C206_types_violated' depends on axioms: [propext, Classical.choice, Quot.sound]
'Pyensys.C206_variables_partial' depends on axioms: [propext, Classical.choice, Quot.sound]
'Pyensys.C206_witness' depends on axioms: [propext, Classical.choice, Quot.sound]
'Pyensys.C207_accepted_partial' depends on axioms: [propext, Classical.choice, Quot.sound]
'Pyensys.C207_example_partial' depends on axioms: [propext, Classical.choice, Quot.sound]
'Pyensys.C207_run_en_partial' depends on axioms: [propext, Classical.choice, Quot.sound]
'Pyensys.C207_run_n_partial' depends on axioms: [propext, Classical.choice, Quot.sound]
'Pyensys.C207_violated_ac' depends on axioms: [propext, Classical.choice, Quot.sound]
'Pyensys.C207_violated_example' depends on axioms: [propext, Classical.choice, Quot.sound]
'Pyensys.C207_violated_res' depends on axioms: [propext, Classical.choice, Quot.sound]
'Pyensys.C208_contingencies' depends on axioms: [propext, Classical.choice, Quot.sound]
'Pyensys.C209_start_partial' depends on axioms: [propext, Classical.choice, Quot.sound]
'Pyensys.C209_violated_units' depends on axioms: [propext, Classical.choice, Quot.sound]
'Pyensys.C20_distinct_iff_partial' depends on axioms: [propext, Classical.choice, Quot.sound]
'Pyensys.C20_keys_after_renumbering_partial' depends on axioms: [propext, Classical.choice, Quot.sound]
'Pyensys.C20_violated' depends on axioms: [propext, Classical.choice, Quot.sound]
'Pyensys.C20_violated_in_run' depends on axioms: [propext, Classical.choice, Quot.sound]
'Pyensys.C210_hours' depends on axioms: [propext, Classical.choice, Quot.sound]
'Pyensys.C210_no_more' depends on axioms: [propext, Classical.choice, Quot.sound]
'Pyensys.C210_profiles' depends on axioms: [propext, Classical.choice, Quot.sound]
'Pyensys.C211_plants' depends on axioms: [propext, Classical.choice, Quot.sound]
'Pyensys.C212_accepted_partial' depends on axioms: [propext, Classical.choice, Quot.sound]
'Pyensys.C212_violated_demand' depends on axioms: [propext, Classical.choice, Quot.sound]
'Pyensys.C212_violated_single' depends on axioms: [propext, Classical.choice, Quot.sound]
'Pyensys.C213_run_partial' depends on axioms: [propext, Classical.choice, Quot.sound]
'Pyensys.C213_violated_clp' depends on axioms: [propext, Classical.choice, Quot.sound]
'Pyensys.C213_violated_object' depends on axioms: [propext, Classical.choice, Quot.sound]
'Pyensys.C214_inputs_partial' depends on axioms: [propext, Classical.choice, Quot.sound]
'Pyensys.C214_violated_numbers' depends on axioms: [propext, Quot.sound]
'Pyensys.C214_water_partial' depends on axioms: [propext, Classical.choice, Quot.sound]
'Pyensys.C215_flag_partial' depends on axioms: [propext, Classical.choice, Quot.sound]
'Pyensys.C215_left_partial' depends on axioms: [propext, Classical.choice, Quot.sound]
'Pyensys.C215_mean_partial' depends on axioms: [propext, Classical.choice, Quot.sound]
'Pyensys.C215_violated_flag' depends on axioms: [propext, Classical.choice, Quot.sound]
'Pyensys.C216_all_partial' depends on axioms: [propext, Classical.choice, Quot.sound]
'Pyensys.C216_set_partial' depends on axioms: [propext, Classical.choice, Quot.sound]
'Pyensys.C216_violated_number' depends on axioms: [propext, Classical.choice, Quot.sound]
'Pyensys.C216_violated_single' depends on axioms: [propext, Classical.choice, Quot.sound]
'Pyensys.C216_words_partial' depends on axioms: [propext, Classical.choice, Quot.sound]
'Pyensys.C217_exact_partial' depends on axioms: [propext, Classical.choice, Quot.sound]
'Pyensys.C217_units_partial' depends on axioms: [propext, Classical.choice, Quot.sound]
'Pyensys.C217_violated_flags' does not depend on any axioms
'Pyensys.C217_violated_high' depends on axioms: [propext, Classical.choice, Quot.sound]
'Pyensys.C217_violated_number' depends on axioms: [propext, Quot.sound]
'Pyensys.C217_violated_void' depends on axioms: [propext, Classical.choice, Quot.sound]
'Pyensys.C218_violated_first' depends on axioms: [propext]
'Pyensys.C218_violated_void' depends on axioms: [propext, Classical.choice, Quot.sound]
'Pyensys.C218_with_partial' depends on axioms: [propext, Classical.choice, Quot.sound]
'Pyensys.C218_without_partial' depends on axioms: [propext, Classical.choice, Quot.sound]
'Pyensys.C219_own_partial' depends on axioms: [propext, Quot.sound]
'Pyensys.C219_violated_charge' depends on axioms: [propext, Classical.choice, Quot.sound]
'Pyensys.C219_violated_none' depends on axioms: [propext, Quot.sound]
'Pyensys.C219_violated_other' depends on axioms: [propext, Quot.sound]
'Pyensys.C21_exactly_offspring_removed' depends on axioms: [propext, Classical.choice, Quot.sound]
'Pyensys.C21_needs_distinct_keys' depends on axioms: [propext, Quot.sound]
'Pyensys.C220_history_partial' depends on axioms: [propext, Classical.choice, Quot.sound]
'Pyensys.C220_node_partial' depends on axioms: [propext, Classical.choice, Quot.sound]
'Pyensys.C220_violated_second' depends on axioms: [propext, Classical.choice, Quot.sound]
'Pyensys.C220_violated_unknown' depends on axioms: [propext, Classical.choice, Quot.sound]
'Pyensys.C221_costs_partial' depends on axioms: [propext, Classical.choice, Quot.sound]
'Pyensys.C221_generator_partial' depends on axioms: [propext, Quot.sound]
'Pyensys.C221_violated_again' depends on axioms: [propext]
'Pyensys.C221_violated_generator' depends on axioms: [propext, Classical.choice, Quot.sound]
'Pyensys.C221_violated_grids' depends on axioms: [propext]
'Pyensys.C221_violated_static' does not depend on any axioms
'Pyensys.C222_verdict_partial' depends on axioms: [propext, Quot.sound]
'Pyensys.C222_violated_cost' depends on axioms: [propext, Quot.sound]
'Pyensys.C222_violated_verdict' depends on axioms: [propext, Quot.sound]
'Pyensys.C223_violated' depends on axioms: [propext, Classical.choice, Quot.sound]
'Pyensys.C223_violated_alone' depends on axioms: [propext, Classical.choice, Quot.sound]
'Pyensys.C223_violated_copies' depends on axioms: [propext, Classical.choice, Quot.sound]
'Pyensys.C224_variables_partial' depends on axioms: [propext, Classical.choice, Quot.sound]
'Pyensys.C224_violated_engine' depends on axioms: [propext, Classical.choice, Quot.sound]
'Pyensys.C224_violated_missing' depends on axioms: [propext, Classical.choice, Quot.sound]
'Pyensys.C225_probability_partial' depends on axioms: [propext, Classical.choice, Quot.sound]
'Pyensys.C225_time_partial' depends on axioms: [propext, Classical.choice, Quot.sound]
'Pyensys.C225_violated_mean' depends on axioms: [propext, Classical.choice, Quot.sound]
'Pyensys.C225_violated_never' depends on axioms: [propext, Classical.choice, Quot.sound]
'Pyensys.C226_pyomo_partial' depends on axioms: [propext, Classical.choice, Quot.sound]
'Pyensys.C226_spill_partial' depends on axioms: [propext, Classical.choice, Quot.sound]
'Pyensys.C226_violated_contingencies' depends on axioms: [propext, Classical.choice, Quot.sound]
'Pyensys.C226_violated_renewables' depends on axioms: [propext, Classical.choice, Quot.sound]
'Pyensys.C226_violated_weights' depends on axioms: [propext, Classical.choice, Quot.sound]
'Pyensys.C227_angles_partial' depends on axioms: [propext, Classical.choice, Quot.sound]
'Pyensys.C227_commitment_partial' depends on axioms: [propext, Classical.choice, Quot.sound]
'Pyensys.C227_commitment_violated' depends on axioms: [propext, Classical.choice, Quot.sound]
'Pyensys.C227_complete_partial' depends on axioms: [propext, Classical.choice, Quot.sound]
'Pyensys.C227_curtailment_partial' depends on axioms: [propext, Classical.choice, Quot.sound]
'Pyensys.C227_flows_partial' depends on axioms: [propext, Classical.choice, Quot.sound]
'Pyensys.C227_generation_partial' depends on axioms: [propext, Classical.choice, Quot.sound]
'Pyensys.C227_network_violated' depends on axioms: [propext, Classical.choice, Quot.sound]
'Pyensys.C227_nonetwork_violated' depends on axioms: [propext, Classical.choice, Quot.sound]
'Pyensys.C227_pumps_violated' depends on axioms: [propext, Classical.choice, Quot.sound]
'Pyensys.C227_services_violated' depends on axioms: [propext, Classical.choice, Quot.sound]
'Pyensys.C227_state_violated' depends on axioms: [propext, Classical.choice, Quot.sound]
'Pyensys.C227_tables_partial' depends on axioms: [propext, Classical.choice, Quot.sound]
'Pyensys.C227_witness' depends on axioms: [propext, Classical.choice, Quot.sound]
'Pyensys.C228_curtailment_violated' depends on axioms: [propext, Classical.choice, Quot.sound]
'Pyensys.C228_direction_violated' depends on axioms: [propext, Classical.choice, Quot.sound]
'Pyensys.C228_estimated_partial' depends on axioms: [propext, Classical.choice, Quot.sound]
'Pyensys.C228_factor_partial' depends on axioms: [propext, Classical.choice, Quot.sound]
'Pyensys.C228_pumps_violated' depends on axioms: [propext, Classical.choice, Quot.sound]
'Pyensys.C228_reversed_violated' depends on axioms: [propext, Classical.choice, Quot.sound]
'Pyensys.C228_total_partial' depends on axioms: [propext, Classical.choice, Quot.sound]
'Pyensys.C228_witness' depends on axioms: [propext, Classical.choice, Quot.sound]
'Pyensys.C229_complete' depends on axioms: [propext, Quot.sound]
'Pyensys.C229_nodes' depends on axioms: [propext, Classical.choice, Quot.sound]
'Pyensys.C229_places' depends on axioms: [propext, Classical.choice, Quot.sound]
'Pyensys.C229_rivers' depends on axioms: [propext, Classical.choice, Quot.sound]
'Pyensys.C229_violations' depends on axioms: [propext, Classical.choice, Quot.sound]
'Pyensys.C229_witness' depends on axioms: [propext, Classical.choice, Quot.sound]
'Pyensys.C22_two_stage_partial' depends on axioms: [propext, Classical.choice, Quot.sound]
'Pyensys.C22_violated' depends on axioms: [propext, Classical.choice, Quot.sound]
'Pyensys.C230_all_violated' depends on axioms: [propext, Classical.choice, Quot.sound]
'Pyensys.C230_complete_partial' depends on axioms: [propext, Classical.choice, Quot.sound]
'Pyensys.C230_format_violated' depends on axioms: [propext, Classical.choice, Quot.sound]
'Pyensys.C230_others_partial' depends on axioms: [propext, Classical.choice, Quot.sound]
'Pyensys.C230_values_partial' depends on axioms: [propext, Classical.choice, Quot.sound]
'Pyensys.C230_witness' depends on axioms: [propext, Classical.choice, Quot.sound]
'Pyensys.C231_again_violated' depends on axioms: [propext, Quot.sound]
'Pyensys.C231_created_partial' depends on axioms: [propext, Quot.sound]
'Pyensys.C231_existing_violated' depends on axioms: [propext, Quot.sound]
'Pyensys.C231_nocost_violated' depends on axioms: [propext, Quot.sound]
'Pyensys.C231_targets_partial' depends on axioms: [propext, Classical.choice, Quot.sound]
'Pyensys.C231_witness' depends on axioms: [propext, Quot.sound]
'Pyensys.C232_branches_partial' depends on axioms: [propext, Classical.choice, Quot.sound]
'Pyensys.C232_buses_partial' depends on axioms: [propext, Classical.choice, Quot.sound]
'Pyensys.C232_network_partial' depends on axioms: [propext, Classical.choice, Quot.sound]
'Pyensys.C232_peak_violated' depends on axioms: [propext, Classical.choice, Quot.sound]
'Pyensys.C232_read_partial' depends on axioms: [propext, Classical.choice, Quot.sound]
'Pyensys.C232_status_violated' depends on axioms: [propext, Classical.choice, Quot.sound]
'Pyensys.C232_witness' depends on axioms: [propext, Classical.choice, Quot.sound]
'Pyensys.C233_conventional_partial' depends on axioms: [propext, Classical.choice, Quot.sound]
'Pyensys.C233_limits_partial' depends on axioms: [propext, Classical.choice, Quot.sound]
'Pyensys.C233_ragged_violated' depends on axioms: [propext, Classical.choice, Quot.sound]
'Pyensys.C233_reactive_violated' depends on axioms: [propext, Classical.choice, Quot.sound]
'Pyensys.C233_status_violated' depends on axioms: [propext, Classical.choice, Quot.sound]
'Pyensys.C233_units_partial' depends on axioms: [propext, Classical.choice, Quot.sound]
'Pyensys.C233_witness' depends on axioms: [propext, Classical.choice, Quot.sound]
'Pyensys.C234_values' depends on axioms: [propext, Classical.choice, Quot.sound]
'Pyensys.C234_witness' depends on axioms: [propext, Classical.choice, Quot.sound]
'Pyensys.C235_accepted' depends on axioms: [propext, Classical.choice, Quot.sound]
'Pyensys.C235_witness' depends on axioms: [propext, Classical.choice, Quot.sound]
'Pyensys.C236_edges' depends on axioms: [propext, Classical.choice, Quot.sound]
'Pyensys.C236_witness' depends on axioms: [propext, Classical.choice, Quot.sound]
'Pyensys.C237_series_partial' depends on axioms: [propext, Classical.choice, Quot.sound]
'Pyensys.C237_single_partial' depends on axioms: [propext, Classical.choice, Quot.sound]
'Pyensys.C237_unknown_partial' depends on axioms: [propext, Classical.choice, Quot.sound]
'Pyensys.C237_violated_bar' depends on axioms: [propext, Quot.sound]
'Pyensys.C237_violated_periods' depends on axioms: [propext, Classical.choice, Quot.sound]
'Pyensys.C237_violated_section' depends on axioms: [propext, Classical.choice, Quot.sound]
'Pyensys.C237_violated_unknown' depends on axioms: [propext, Classical.choice, Quot.sound]
'Pyensys.C238_violated_no_time' depends on axioms: [propext, Classical.choice, Quot.sound]
'Pyensys.C238_writer_partial' depends on axioms: [propext, Classical.choice, Quot.sound]
'Pyensys.C239_fresh_partial' depends on axioms: [propext, Classical.choice, Quot.sound]
'Pyensys.C239_network_partial' depends on axioms: [propext, Classical.choice, Quot.sound]
'Pyensys.C239_violated_settings' depends on axioms: [propext, Classical.choice, Quot.sound]
'Pyensys.C239_violated_units' depends on axioms: [propext, Classical.choice, Quot.sound]
'Pyensys.C23_no_plan_recorded_violated' depends on axioms: [propext, Classical.choice, Quot.sound]
'Pyensys.C23_two_stage_partial' depends on axioms: [propext, Classical.choice, Quot.sound]
'Pyensys.C23_two_stage_witness' depends on axioms: [propext, Classical.choice, Quot.sound]
'Pyensys.C23_violated' depends on axioms: [propext, Classical.choice, Quot.sound]
'Pyensys.C240_plan_partial' depends on axioms: [propext, Classical.choice, Quot.sound]
'Pyensys.C240_saved_partial' depends on axioms: [propext, Classical.choice, Quot.sound]
'Pyensys.C240_violated' depends on axioms: [propext, Classical.choice, Quot.sound]
'Pyensys.C241_file_partial' depends on axioms: [propext]
'Pyensys.C241_violated' depends on axioms: [propext, Quot.sound]
'Pyensys.C242_json_partial' depends on axioms: [propext, Classical.choice, Quot.sound]
'Pyensys.C242_violated' depends on axioms: [propext, Classical.choice, Quot.sound]
'Pyensys.C243_lookahead' depends on axioms: [propext, Classical.choice, Quot.sound]
'Pyensys.C244_constant_partial' depends on axioms: [propext, Quot.sound]
'Pyensys.C244_hour_partial' depends on axioms: [propext, Quot.sound]
'Pyensys.C244_lists_partial' depends on axioms: [propext, Quot.sound]
'Pyensys.C244_violated_all_elements' depends on axioms: [propext]
'Pyensys.C244_violated_all_hours' depends on axioms: [propext, Quot.sound]
'Pyensys.C244_violated_build' depends on axioms: [propext]
'Pyensys.C244_violated_first' depends on axioms: [propext, Classical.choice, Quot.sound]
'Pyensys.C244_violated_hour' depends on axioms: [propext, Quot.sound]
'Pyensys.C244_violated_no_hours' depends on axioms: [propext]
'Pyensys.C244_violated_position' depends on axioms: [propext, Quot.sound]
'Pyensys.C245_violated_network' does not depend on any axioms
'Pyensys.C245_violated_read' depends on axioms: [propext, Quot.sound]
'Pyensys.C245_violated_tree' depends on axioms: [propext]
'Pyensys.C246_loaded_partial' depends on axioms: [propext, Classical.choice, Quot.sound]
'Pyensys.C246_violated_empty' depends on axioms: [propext, Classical.choice, Quot.sound]
'Pyensys.C246_violated_option' depends on axioms: [propext, Classical.choice, Quot.sound]
'Pyensys.C246_violated_sheet' depends on axioms: [propext, Classical.choice, Quot.sound]
'Pyensys.C24_cost_matches_partial' depends on axioms: [propext, Classical.choice, Quot.sound]
'Pyensys.C24_never_understated_partial' depends on axioms: [propext, Classical.choice, Quot.sound]
'Pyensys.C24_violated' depends on axioms: [propext, Classical.choice, Quot.sound]
'Pyensys.C25_interventions_from_pool' depends on axioms: [propext, Classical.choice, Quot.sound]
'Pyensys.C26_replacement_is_cheaper' depends on axioms: [propext, Classical.choice, Quot.sound]
'Pyensys.C27_opf_gets_finished' depends on axioms: [propext, Quot.sound]
'Pyensys.C27_plan_keeps_finished' depends on axioms: [propext, Classical.choice, Quot.sound]
'Pyensys.C28_needs_distinct_keys' depends on axioms: [propext, Quot.sound]
'Pyensys.C28_update_inverse' depends on axioms: [propext, Quot.sound]
'Pyensys.C28_update_shifts' depends on axioms: [propext, Quot.sound]
'Pyensys.C29_additive' depends on axioms: [propext, Classical.choice, Quot.sound]
'Pyensys.C29_later_weighs_more' depends on axioms: [propext, Classical.choice, Quot.sound]
'Pyensys.C29_later_weighs_strictly_more' depends on axioms: [propext, Classical.choice, Quot.sound]
'Pyensys.C29_totals' depends on axioms: [propext, Classical.choice, Quot.sound]
'Pyensys.C30_access_function' depends on axioms: [propext, Classical.choice, Quot.sound]
'Pyensys.C30_base_never_stores_a_plan' depends on axioms: [propext, Classical.choice, Quot.sound]
'Pyensys.C30_base_raises_at_feasible_leaf' depends on axioms: [propext, Classical.choice, Quot.sound]
'Pyensys.C30_base_raises_on_feasible_problem' depends on axioms: [propext, Classical.choice, Quot.sound]
'Pyensys.C30_base_raises_when_combining' depends on axioms: [propext, Classical.choice, Quot.sound]
'Pyensys.C31_access_function_partial' depends on axioms: [propext, Classical.choice, Quot.sound]
'Pyensys.C31_lines_only_partial' depends on axioms: [propext, Classical.choice, Quot.sound]
'Pyensys.C31_one_cost_per_scenario_partial' depends on axioms: [propext, Classical.choice, Quot.sound]
'Pyensys.C31_tables_partial' depends on axioms: [propext, Classical.choice, Quot.sound]
'Pyensys.C31_violated' depends on axioms: [propext, Classical.choice, Quot.sound]
'Pyensys.C32_nodes_well_formed' depends on axioms: [propext, Classical.choice, Quot.sound]
'Pyensys.C32_one_node_per_level' depends on axioms: [propext, Classical.choice, Quot.sound]
'Pyensys.C32_share_iff_equal' depends on axioms: [propext, Classical.choice, Quot.sound]
'Pyensys.C33_edges' depends on axioms: [propext, Classical.choice, Quot.sound]
'Pyensys.C33_scenario_traces_path' depends on axioms: [propext, Classical.choice, Quot.sound]
'Pyensys.C33_single_row' depends on axioms: [propext, Classical.choice, Quot.sound]
'Pyensys.C34_conversion' depends on axioms: [propext, Classical.choice, Quot.sound]
'Pyensys.C34_profile' depends on axioms: [propext, Classical.choice, Quot.sound]
'Pyensys.C35_between' depends on axioms: [propext, Classical.choice, Quot.sound]
'Pyensys.C35_bus_averages' depends on axioms: [propext, Classical.choice, Quot.sound]
'Pyensys.C35_unit_averages' depends on axioms: [propext, Classical.choice, Quot.sound]
'Pyensys.C35_unknown_year' depends on axioms: [propext, Classical.choice, Quot.sound]
'Pyensys.C36_centroids' depends on axioms: [propext, Classical.choice, Quot.sound]
'Pyensys.C36_gaps_raise' depends on axioms: [propext, Classical.choice, Quot.sound]
'Pyensys.C37_between' depends on axioms: [propext, Classical.choice, Quot.sound]
'Pyensys.C37_sum_preserved' depends on axioms: [propext, Classical.choice, Quot.sound]
'Pyensys.C38_history_independent' depends on axioms: [propext, Quot.sound]
'Pyensys.C38_needs_initialise' depends on axioms: [propext, Classical.choice, Quot.sound]
'Pyensys.C38_repeat' depends on axioms: [propext, Quot.sound]
'Pyensys.C39_cluster_step' depends on axioms: [propext, Quot.sound]
'Pyensys.C39_other_tables_raise' depends on axioms: [propext, Quot.sound]
'Pyensys.C39_single_line' depends on axioms: [propext, Classical.choice, Quot.sound]
'Pyensys.C40_closed_form' depends on axioms: [propext, Classical.choice, Quot.sound]
'Pyensys.C40_order_independent' depends on axioms: [propext, Classical.choice, Quot.sound]
'Pyensys.C40_same_line_adds' depends on axioms: [propext, Classical.choice, Quot.sound]
'Pyensys.C41_index_error' depends on axioms: [propext, Quot.sound]
'Pyensys.C41_one_load' depends on axioms: [propext, Quot.sound]
'Pyensys.C42_after_reading' depends on axioms: [propext, Classical.choice, Quot.sound]
'Pyensys.C42_block_means' depends on axioms: [propext, Classical.choice, Quot.sound]
'Pyensys.C42_equal' depends on axioms: [propext, Classical.choice, Quot.sound]
'Pyensys.C42_not_multiple' depends on axioms: [propext, Classical.choice, Quot.sound]
'Pyensys.C42_shorter' depends on axioms: [propext, Classical.choice, Quot.sound]
'Pyensys.C42_success_iff' depends on axioms: [propext, Classical.choice, Quot.sound]
'Pyensys.C43_empty' depends on axioms: [propext, Classical.choice, Quot.sound]
'Pyensys.C43_first_year_one' depends on axioms: [propext, Classical.choice, Quot.sound]
'Pyensys.C43_multipliers' depends on axioms: [propext, Classical.choice, Quot.sound]
'Pyensys.C43_only_value_error' depends on axioms: [propext, Classical.choice, Quot.sound]
'Pyensys.C43_rejected' depends on axioms: [propext, Classical.choice, Quot.sound]
'Pyensys.C44_no_number' depends on axioms: [propext, Classical.choice, Quot.sound]
'Pyensys.C44_numeral_value' depends on axioms: [propext, Classical.choice, Quot.sound]
'Pyensys.C45_every_row_once' depends on axioms: [propext, Classical.choice, Quot.sound]
'Pyensys.C45_partition' depends on axioms: [propext, Classical.choice, Quot.sound]
'Pyensys.C45_unknown_type' depends on axioms: [propext, Classical.choice, Quot.sound]
'Pyensys.C46_absent_defaults' depends on axioms: [propext, Classical.choice, Quot.sound]
'Pyensys.C46_binary_variables' depends on axioms: [propext, Classical.choice, Quot.sound]
'Pyensys.C46_case_file' depends on axioms: [propext, Classical.choice, Quot.sound]
'Pyensys.C46_initialised_iff_present' depends on axioms: [propext, Classical.choice, Quot.sound]
'Pyensys.C46_optional_keys' depends on axioms: [propext, Classical.choice, Quot.sound]
'Pyensys.C46_required_keys' depends on axioms: [propext, Classical.choice, Quot.sound]
'Pyensys.C46_tables' depends on axioms: [propext, Classical.choice, Quot.sound]
'Pyensys.C46_witness' depends on axioms: [propext, Classical.choice, Quot.sound]
'Pyensys.C47_cluster' depends on axioms: [propext, Classical.choice, Quot.sound]
'Pyensys.C47_cluster_succeeds' depends on axioms: [propext, Classical.choice, Quot.sound]
'Pyensys.C47_round_up' depends on axioms: [propext, Classical.choice, Quot.sound]
'Pyensys.C47_too_large' depends on axioms: [propext, Classical.choice, Quot.sound]
'Pyensys.C48_ideal_costs' depends on axioms: [propext, Classical.choice, Quot.sound]
'Pyensys.C48_kept' depends on axioms: [propext, Classical.choice, Quot.sound]
'Pyensys.C49_between' depends on axioms: [propext, Classical.choice, Quot.sound]
'Pyensys.C49_bus_factors' depends on axioms: [propext, Classical.choice, Quot.sound]
'Pyensys.C49_complete' depends on axioms: [propext, Classical.choice, Quot.sound]
'Pyensys.C49_growth' depends on axioms: [propext, Classical.choice, Quot.sound]
'Pyensys.C49_path' depends on axioms: [propext, Classical.choice, Quot.sound]
'Pyensys.C49_position' depends on axioms: [propext, Classical.choice, Quot.sound]
'Pyensys.C49_tree_shape' depends on axioms: [propext, Classical.choice, Quot.sound]
'Pyensys.C50_measure' depends on axioms: [propext, Quot.sound]
'Pyensys.C50_tree' depends on axioms: [propext, Classical.choice, Quot.sound]
'Pyensys.C51_scenarios' depends on axioms: [propext, Classical.choice, Quot.sound]
'Pyensys.C52_active_partial' depends on axioms: [propext, Classical.choice, Quot.sound]
'Pyensys.C52_distinct_partial' depends on axioms: [propext, Classical.choice, Quot.sound]
'Pyensys.C52_flag_violated' depends on axioms: [propext, Classical.choice, Quot.sound]
'Pyensys.C52_numbering_partial' depends on axioms: [propext, Classical.choice, Quot.sound]
'Pyensys.C52_voltages_partial' depends on axioms: [propext, Classical.choice, Quot.sound]
'Pyensys.C53_limits' depends on axioms: [propext, Classical.choice, Quot.sound]
'Pyensys.C53_monotone' depends on axioms: [propext, Classical.choice, Quot.sound]
'Pyensys.C53_unordered_violated' depends on axioms: [propext, Classical.choice, Quot.sound]
'Pyensys.C54_matrix_partial' depends on axioms: [propext, Classical.choice, Quot.sound]
'Pyensys.C54_negative_violated' depends on axioms: [propext, Quot.sound]
'Pyensys.C54_row_partial' depends on axioms: [propext, Classical.choice, Quot.sound]
'Pyensys.C54_times_partial' depends on axioms: [propext, Classical.choice, Quot.sound]
'Pyensys.C54_zero_partial' depends on axioms: [propext, Quot.sound]
'Pyensys.C54_zero_violated' does not depend on any axioms
'Pyensys.C55_break_points_partial' depends on axioms: [propext, Classical.choice, Quot.sound]
'Pyensys.C55_concave_violated' depends on axioms: [propext, Classical.choice, Quot.sound]
'Pyensys.C55_convex_partial' depends on axioms: [propext, Classical.choice, Quot.sound]
'Pyensys.C55_exact_partial' depends on axioms: [propext, Classical.choice, Quot.sound]
'Pyensys.C55_free_violated' depends on axioms: [propext, Classical.choice, Quot.sound]
'Pyensys.C55_no_capacity_violated' depends on axioms: [propext, Classical.choice, Quot.sound]
'Pyensys.C55_piecewise_partial' depends on axioms: [propext, Classical.choice, Quot.sound]
'Pyensys.C55_quadratic_partial' depends on axioms: [propext, Classical.choice, Quot.sound]
'Pyensys.C55_range_violated' depends on axioms: [propext, Classical.choice, Quot.sound]
'Pyensys.C55_unit_partial' depends on axioms: [propext, Classical.choice, Quot.sound]
'Pyensys.C56_applied_partial' depends on axioms: [propext, Classical.choice, Quot.sound]
'Pyensys.C56_applied_witness' depends on axioms: [propext, Classical.choice, Quot.sound]
'Pyensys.C56_exact_partial' depends on axioms: [propext, Classical.choice, Quot.sound]
'Pyensys.C56_own_upgrades_partial' depends on axioms: [propext, Classical.choice, Quot.sound]
'Pyensys.C56_own_upgrades_violated' depends on axioms: [propext, Classical.choice, Quot.sound]
'Pyensys.C56_verification_partial' depends on axioms: [propext, Classical.choice, Quot.sound]
'Pyensys.C57_false_although_recorded_violated' depends on axioms: [propext, Classical.choice, Quot.sound]
'Pyensys.C57_true_although_nothing_recorded_violated' depends on axioms: [propext, Classical.choice, Quot.sound]
'Pyensys.C57_two_stage_partial' depends on axioms: [propext, Classical.choice, Quot.sound]
'Pyensys.C58_rows_of_own_plan_partial' depends on axioms: [propext, Classical.choice, Quot.sound]
'Pyensys.C58_violated' depends on axioms: [propext, Classical.choice, Quot.sound]
'Pyensys.C59_up_to_three_years_partial' depends on axioms: [propext, Classical.choice, Quot.sound]
'Pyensys.C59_violated' depends on axioms: [propext, Quot.sound]
'Pyensys.C60_common_first_year_partial' depends on axioms: [propext, Classical.choice, Quot.sound]
'Pyensys.C60_two_predecessors_violated' depends on axioms: [propext, Quot.sound]
'Pyensys.C60_violated' depends on axioms: [propext, Classical.choice, Quot.sound]
'Pyensys.C61_table_to_plan' depends on axioms: [propext, Classical.choice, Quot.sound]
'Pyensys.C62_base_violated' depends on axioms: [propext, Quot.sound]
'Pyensys.C62_opf_network' depends on axioms: [propext, Classical.choice, Quot.sound]
'Pyensys.C63_violated' depends on axioms: [propext, Quot.sound]
'Pyensys.C64_base_violated' depends on axioms: [propext, Quot.sound]
'Pyensys.C64_raising_opf_infeasible' depends on axioms: [propext, Quot.sound]
'Pyensys.C64_returned_verdict' depends on axioms: [propext, Quot.sound]
'Pyensys.C65_equal_means_merge' depends on axioms: [propext, Classical.choice, Quot.sound]
'Pyensys.C65_same_cluster_same_node' depends on axioms: [propext, Classical.choice, Quot.sound]
'Pyensys.C65_share_node_iff' depends on axioms: [propext, Classical.choice, Quot.sound]
'Pyensys.C66_same_years' depends on axioms: [propext, Classical.choice, Quot.sound]
'Pyensys.C66_year_of_node' depends on axioms: [propext, Classical.choice, Quot.sound]
'Pyensys.C66_years_agree_iff' depends on axioms: [propext, Classical.choice, Quot.sound]
'Pyensys.C67_demand_reaches_opf' depends on axioms: [propext, Classical.choice, Quot.sound]
'Pyensys.C68_demand_table_to_plan' depends on axioms: [propext, Classical.choice, Quot.sound]
'Pyensys.C69_inner_characters_violated' depends on axioms: [propext, Classical.choice, Quot.sound]
'Pyensys.C69_rejected_partial' depends on axioms: [propext, Classical.choice, Quot.sound]
'Pyensys.C69_sign_lost_violated' depends on axioms: [propext, Classical.choice, Quot.sound]
'Pyensys.C69_unsigned_exponent_violated' depends on axioms: [propext, Classical.choice, Quot.sound]
'Pyensys.C70_file_round_trip' depends on axioms: [propext, Classical.choice, Quot.sound]
'Pyensys.C70_unclosed' depends on axioms: [propext, Classical.choice, Quot.sound]
'Pyensys.C70_values_on_first_line' depends on axioms: [propext, Classical.choice, Quot.sound]
'Pyensys.C71_first_number_violated' depends on axioms: [propext, Classical.choice, Quot.sound]
'Pyensys.C71_first_row_violated' depends on axioms: [propext, Classical.choice, Quot.sound]
'Pyensys.C71_rows_from_lines_partial' depends on axioms: [propext, Classical.choice, Quot.sound]
'Pyensys.C71_short_line_violated' depends on axioms: [propext, Classical.choice, Quot.sound]
'Pyensys.C72_binary_variables_violated' depends on axioms: [propext, Classical.choice, Quot.sound]
'Pyensys.C72_fresh_except_partial' depends on axioms: [propext, Classical.choice, Quot.sound]
'Pyensys.C72_second_reading_succeeds_partial' depends on axioms: [propext, Classical.choice, Quot.sound]
'Pyensys.C73_demand_table' depends on axioms: [propext, Classical.choice, Quot.sound]
'Pyensys.C74_document_is_readable' depends on axioms: [propext, Classical.choice, Quot.sound]
'Pyensys.C74_document_to_plan' depends on axioms: [propext, Classical.choice, Quot.sound]
'Pyensys.C75_complete' depends on axioms: [propext, Classical.choice, Quot.sound]
'Pyensys.C75_defaults' depends on axioms: [propext, Classical.choice, Quot.sound]
'Pyensys.C75_options' depends on axioms: [propext, Classical.choice, Quot.sound]
'Pyensys.C76_option_upgrades' depends on axioms: [propext, Classical.choice, Quot.sound]
'Pyensys.C76_pool' depends on axioms: [propext, Quot.sound]
'Pyensys.C77_single_digits_partial' depends on axioms: [propext, Classical.choice, Quot.sound]
'Pyensys.C77_violated' depends on axioms: [propext, Classical.choice, Quot.sound]
'Pyensys.C77_violated_only_digits' depends on axioms: [propext, Quot.sound]
'Pyensys.C78_rows_partial' depends on axioms: [propext, Classical.choice, Quot.sound]
'Pyensys.C78_violated_slow_2050' depends on axioms: [propext, Classical.choice, Quot.sound]
'Pyensys.C79_one_per_scenario' depends on axioms: [propext, Classical.choice, Quot.sound]
'Pyensys.C79_reduction_never_raises' depends on axioms: [propext, Classical.choice, Quot.sound]
'Pyensys.C79_screening_runs' depends on axioms: [propext, Classical.choice, Quot.sound]
'Pyensys.C80_selection' depends on axioms: [propext, Classical.choice, Quot.sound]
'Pyensys.C81_sorted_partial' depends on axioms: [propext, Classical.choice, Quot.sound]
'Pyensys.C81_violated_empty' depends on axioms: [propext, Classical.choice, Quot.sound]
'Pyensys.C81_violated_order' depends on axioms: [propext, Classical.choice, Quot.sound]
'Pyensys.C81_violated_reference' depends on axioms: [propext, Classical.choice, Quot.sound]
'Pyensys.C82_screening_succeeds_partial' depends on axioms: [propext, Classical.choice, Quot.sound]
'Pyensys.C82_violated_transformers' depends on axioms: [propext, Classical.choice, Quot.sound]
'Pyensys.C82_zero_limit_violated' depends on axioms: [propext, Classical.choice, Quot.sound]
'Pyensys.C83_programme' depends on axioms: [propext, Classical.choice, Quot.sound]
'Pyensys.C84_every_cut' depends on axioms: [propext, Classical.choice, Quot.sound]
'Pyensys.C84_total' depends on axioms: [propext, Classical.choice, Quot.sound]
'Pyensys.C85_no_waste' depends on axioms: [propext, Classical.choice, Quot.sound]
'Pyensys.C85_only_if_exceeded' depends on axioms: [propext, Classical.choice, Quot.sound]
'Pyensys.C85_unlimited' depends on axioms: [propext, Classical.choice, Quot.sound]
'Pyensys.C86_orientation_partial' depends on axioms: [propext, Classical.choice, Quot.sound]
'Pyensys.C86_violated' depends on axioms: [propext, Classical.choice, Quot.sound]
'Pyensys.C87_beyond_violated' depends on axioms: [propext, Classical.choice, Quot.sound]
'Pyensys.C87_cost_exact' depends on axioms: [propext, Classical.choice, Quot.sound]
'Pyensys.C87_never_under' depends on axioms: [propext, Classical.choice, Quot.sound]
'Pyensys.C87_quadratic' depends on axioms: [propext, Classical.choice, Quot.sound]
'Pyensys.C88_builds_partial' depends on axioms: [propext, Classical.choice, Quot.sound]
'Pyensys.C88_first_generator_violated' depends on axioms: [propext, Classical.choice, Quot.sound]
'Pyensys.C88_no_plan_violated' depends on axioms: [propext, Classical.choice, Quot.sound]
'Pyensys.C88_piecewise_violated' depends on axioms: [propext, Classical.choice, Quot.sound]
'Pyensys.C88_plan_exists_partial' depends on axioms: [propext, Classical.choice, Quot.sound]
'Pyensys.C89_clusters_suffice' depends on axioms: [propext, Classical.choice, Quot.sound]
'Pyensys.C90_cluster_applied_partial' depends on axioms: [propext, Classical.choice, Quot.sound]
'Pyensys.C90_raises_partial' depends on axioms: [propext, Classical.choice, Quot.sound]
'Pyensys.C90_three_phase_violated' depends on axioms: [propext, Classical.choice, Quot.sound]
'Pyensys.C90_upgraded_unique_partial' depends on axioms: [propext, Classical.choice, Quot.sound]
'Pyensys.C90_witness' depends on axioms: [propext, Classical.choice, Quot.sound]
'Pyensys.C91_additions' depends on axioms: [propext, Quot.sound]
'Pyensys.C91_loads' depends on axioms: [propext, Classical.choice, Quot.sound]
'Pyensys.C91_nodes' depends on axioms: [propext, Classical.choice, Quot.sound]
'Pyensys.C91_numbers' depends on axioms: [propext, Classical.choice, Quot.sound]
'Pyensys.C91_too_many_nodes' depends on axioms: [propext, Classical.choice, Quot.sound]
'Pyensys.C92_costs_monotone_partial' depends on axioms: [propext, Classical.choice, Quot.sound]
'Pyensys.C92_more_years_violated' depends on axioms: [propext, Quot.sound]
'Pyensys.C92_report_partial' depends on axioms: [propext, Classical.choice, Quot.sound]
'Pyensys.C92_total_violated' depends on axioms: [propext, Classical.choice, Quot.sound]
'Pyensys.C92_witness' depends on axioms: [propext, Classical.choice, Quot.sound]
'Pyensys.C93_given_clusters_violated' depends on axioms: [propext, Classical.choice, Quot.sound]
'Pyensys.C93_repeats_earlier_violated' depends on axioms: [propext, Classical.choice, Quot.sound]
'Pyensys.C93_screened_partial' depends on axioms: [propext, Classical.choice, Quot.sound]
'Pyensys.C93_without_files_violated' depends on axioms: [propext, Classical.choice, Quot.sound]
'Pyensys.C93_witness' depends on axioms: [propext, Classical.choice, Quot.sound]
'Pyensys.C94_order' depends on axioms: [propext, Classical.choice, Quot.sound]
'Pyensys.C95_accounting' depends on axioms: [propext, Classical.choice, Quot.sound]
'Pyensys.C95_solution' depends on axioms: [propext, Classical.choice, Quot.sound]
'Pyensys.C95_total' depends on axioms: [propext, Classical.choice, Quot.sound]
'Pyensys.C96_flags_partial' depends on axioms: [propext, Classical.choice, Quot.sound]
'Pyensys.C96_one_uncertain_violated' depends on axioms: [propext, Classical.choice, Quot.sound]
'Pyensys.C96_root_raises_violated' depends on axioms: [propext, Classical.choice, Quot.sound]
'Pyensys.C97_data_partial' depends on axioms: [propext, Classical.choice, Quot.sound]
'Pyensys.C97_fixed_partial' depends on axioms: [propext, Classical.choice, Quot.sound]
'Pyensys.C97_row_violated' depends on axioms: [propext, Quot.sound]
'Pyensys.C97_shifted_violated' depends on axioms: [propext, Quot.sound]
'Pyensys.C98_limits' depends on axioms: [propext, Classical.choice, Quot.sound]
'Pyensys.C98_monotone' depends on axioms: [propext, Classical.choice, Quot.sound]
'Pyensys.C98_selected' depends on axioms: [propext, Classical.choice, Quot.sound]
'Pyensys.C98_shutdown_violated' depends on axioms: [propext, Classical.choice, Quot.sound]
'Pyensys.C98_unknown' depends on axioms: [propext, Classical.choice, Quot.sound]
'Pyensys.C99_bounds_partial' depends on axioms: [propext, Classical.choice, Quot.sound]
'Pyensys.C99_domain_partial' depends on axioms: [propext, Classical.choice, Quot.sound]
'Pyensys.C99_flat_violated' depends on axioms: [propext, Classical.choice, Quot.sound]
'Pyensys.C99_more_light_partial' depends on axioms: [propext, Classical.choice, Quot.sound]
'Pyensys.C99_returns_partial' depends on axioms: [propext, Classical.choice, Quot.sound]
'Pyensys.C99_series_partial' depends on axioms: [propext, Classical.choice, Quot.sound]
'Pyensys.C99_too_short_partial' depends on axioms: [propext, Classical.choice, Quot.sound]
