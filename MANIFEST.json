{
 "claims": [
  {
   "property": "C01",
   "status": "proved",
   "theorems": [
    "Pyensys.C01_dictionary_is_a_map"
   ],
   "note": ""
  },
  {
   "property": "C02",
   "status": "proved",
   "theorems": [
    "Pyensys.C02_list_is_a_log"
   ],
   "note": ""
  },
  {
   "property": "C03",
   "status": "proved",
   "theorems": [
    "Pyensys.C03_append_pop_restores"
   ],
   "note": ""
  },
  {
   "property": "C04",
   "status": "proved",
   "theorems": [
    "Pyensys.C04_set_item_frame"
   ],
   "note": ""
  },
  {
   "property": "C05",
   "status": "proved",
   "theorems": [
    "Pyensys.C05_difference_lists",
    "Pyensys.C05_difference_dicts",
    "Pyensys.C05_none_entries_survive"
   ],
   "note": ""
  },
  {
   "property": "C06",
   "status": "proved",
   "theorems": [
    "Pyensys.C06_contains_iff",
    "Pyensys.C06_contains_preorder_lists",
    "Pyensys.C06_contains_preorder_dicts",
    "Pyensys.C06_dict_antisymm",
    "Pyensys.C06_list_not_antisymm"
   ],
   "note": ""
  },
  {
   "property": "C07",
   "status": "proved",
   "theorems": [
    "Pyensys.C07_kind_mismatch",
    "Pyensys.C07_same_kind_ok",
    "Pyensys.C07_double_create_is_unusable"
   ],
   "note": ""
  },
  {
   "property": "C08",
   "status": "proved",
   "theorems": [
    "Pyensys.C08_single_loop",
    "Pyensys.C08_nested_loop",
    "Pyensys.C08_nested_loop_misses_pairs"
   ],
   "note": ""
  },
  {
   "property": "C09",
   "status": "proved",
   "theorems": [
    "Pyensys.C09_extend_lists",
    "Pyensys.C09_extend_dicts"
   ],
   "note": ""
  },
  {
   "property": "C10",
   "status": "proved",
   "theorems": [
    "Pyensys.C10_pool"
   ],
   "note": ""
  },
  {
   "property": "C11",
   "status": "proved",
   "theorems": [
    "Pyensys.C11_available",
    "Pyensys.C11_available_keys"
   ],
   "note": ""
  },
  {
   "property": "C12",
   "status": "proved",
   "theorems": [
    "Pyensys.C12_combinations",
    "Pyensys.C12_leaf_requests",
    "Pyensys.C12_inner_requests"
   ],
   "note": ""
  },
  {
   "property": "C13",
   "status": "proved",
   "theorems": [
    "Pyensys.C13_candidate_restored",
    "Pyensys.C13_every_call"
   ],
   "note": ""
  },
  {
   "property": "C14",
   "status": "partial",
   "theorems": [
    "Pyensys.C14_uniform_shift_partial",
    "Pyensys.C14_leaf_lowers_times_violated",
    "Pyensys.C14_violated"
   ],
   "note": "The property is false of the code: C14_leaf_lowers_times_violated (every non-root leaf) and C14_violated (observable in the recorded plan). Proved remainder: all times shift by one common non-positive amount."
  },
  {
   "property": "C15",
   "status": "proved",
   "theorems": [
    "Pyensys.C15_search_never_raises",
    "Pyensys.C15_no_call_raises",
    "Pyensys.C15_needs_years"
   ],
   "note": ""
  },
  {
   "property": "C16",
   "status": "proved",
   "theorems": [
    "Pyensys.C16_plan_covers_tree"
   ],
   "note": ""
  },
  {
   "property": "C17",
   "status": "proved",
   "theorems": [
    "Pyensys.C17_plan_never_more_expensive",
    "Pyensys.C17_check_keeps_cheaper"
   ],
   "note": "Monotone over every call of solve made in the run; the recording step keeps the cheaper of incumbent and recorded plan."
  },
  {
   "property": "C18",
   "status": "proved",
   "theorems": [
    "Pyensys.C18_paths_are_root_to_leaf"
   ],
   "note": ""
  },
  {
   "property": "C19",
   "status": "proved",
   "theorems": [
    "Pyensys.C19_bookkeeping_aligned"
   ],
   "note": ""
  },
  {
   "property": "C20",
   "status": "partial",
   "theorems": [
    "Pyensys.C20_keys_after_renumbering_partial",
    "Pyensys.C20_distinct_iff_partial",
    "Pyensys.C20_violated",
    "Pyensys.C20_violated_in_run"
   ],
   "note": "False of the code (C20_violated, and C20_violated_in_run at a reachable state). Proved: the exact keys after renumbering, and the exact condition under which they are distinct and equal 0..n-1."
  },
  {
   "property": "C21",
   "status": "proved",
   "theorems": [
    "Pyensys.C21_exactly_offspring_removed",
    "Pyensys.C21_needs_distinct_keys"
   ],
   "note": "Proved for incumbents with distinct keys; C21_needs_distinct_keys shows the hypothesis is necessary (C20 fails in general)."
  },
  {
   "property": "C22",
   "status": "partial",
   "theorems": [
    "Pyensys.C22_violated",
    "Pyensys.C22_two_stage_partial"
   ],
   "note": "False of the code in general: C22_violated is a well-formed problem (three levels) whose recorded plan is anticipative. Proved for all problems of two stages (one root, at least two leaves, interventions without construction time, OPF a function of node and set of active interventions): C22_two_stage_partial."
  },
  {
   "property": "C23",
   "status": "partial",
   "theorems": [
    "Pyensys.C23_violated",
    "Pyensys.C23_no_plan_recorded_violated",
    "Pyensys.C23_two_stage_partial",
    "Pyensys.C23_two_stage_witness"
   ],
   "note": "False of the code in general: C23_violated (recorded plan 750, achievable 20, three levels) and C23_no_plan_recorded_violated (one scenario). Proved for all problems of two stages (one root, at least two leaves, interventions without construction time, OPF a function of node and set of active interventions): a plan is recorded iff there is a feasible decision, it is the plan of a feasible decision, and no feasible decision is cheaper (C23_two_stage_partial)."
  },
  {
   "property": "C24",
   "status": "partial",
   "theorems": [
    "Pyensys.C24_violated",
    "Pyensys.C24_cost_matches_partial",
    "Pyensys.C24_never_understated_partial"
   ],
   "note": "False of the code (C24_violated). Proved: equality when installation times are <= 0 and years are ordered; never understated for non-negative costs and rate below 100."
  },
  {
   "property": "C25",
   "status": "proved",
   "theorems": [
    "Pyensys.C25_interventions_from_pool"
   ],
   "note": ""
  },
  {
   "property": "C26",
   "status": "proved",
   "theorems": [
    "Pyensys.C26_replacement_is_cheaper"
   ],
   "note": ""
  },
  {
   "property": "C27",
   "status": "proved",
   "theorems": [
    "Pyensys.C27_opf_gets_finished",
    "Pyensys.C27_plan_keeps_finished"
   ],
   "note": ""
  },
  {
   "property": "C28",
   "status": "proved",
   "theorems": [
    "Pyensys.C28_update_shifts",
    "Pyensys.C28_update_inverse",
    "Pyensys.C28_needs_distinct_keys"
   ],
   "note": ""
  },
  {
   "property": "C29",
   "status": "proved",
   "theorems": [
    "Pyensys.C29_totals",
    "Pyensys.C29_additive",
    "Pyensys.C29_later_weighs_more",
    "Pyensys.C29_later_weighs_strictly_more"
   ],
   "note": ""
  },
  {
   "property": "C30",
   "status": "proved",
   "theorems": [
    "Pyensys.C30_base_never_stores_a_plan",
    "Pyensys.C30_base_raises_at_feasible_leaf",
    "Pyensys.C30_base_raises_when_combining",
    "Pyensys.C30_base_raises_on_feasible_problem",
    "Pyensys.C30_access_function"
   ],
   "note": ""
  },
  {
   "property": "C31",
   "status": "partial",
   "theorems": [
    "Pyensys.C31_tables_partial",
    "Pyensys.C31_lines_only_partial",
    "Pyensys.C31_one_cost_per_scenario_partial",
    "Pyensys.C31_access_function_partial",
    "Pyensys.C31_violated"
   ],
   "note": "Proved for every plan with distinct keys (C31_tables_partial, C31_lines_only_partial, C31_one_cost_per_scenario_partial) and for every run whose recorded keys are distinct. False in general: C31_violated is a run on a well-formed problem whose recorded keys repeat, so one scenario's interventions are reported for another and a recorded line is missing."
  },
  {
   "property": "C32",
   "status": "proved",
   "theorems": [
    "Pyensys.C32_one_node_per_level",
    "Pyensys.C32_share_iff_equal",
    "Pyensys.C32_nodes_well_formed"
   ],
   "note": ""
  },
  {
   "property": "C33",
   "status": "proved",
   "theorems": [
    "Pyensys.C33_edges",
    "Pyensys.C33_scenario_traces_path",
    "Pyensys.C33_single_row"
   ],
   "note": ""
  },
  {
   "property": "C34",
   "status": "proved",
   "theorems": [
    "Pyensys.C34_profile",
    "Pyensys.C34_conversion"
   ],
   "note": ""
  },
  {
   "property": "C35",
   "status": "proved",
   "theorems": [
    "Pyensys.C35_bus_averages",
    "Pyensys.C35_unknown_year",
    "Pyensys.C35_between",
    "Pyensys.C35_unit_averages"
   ],
   "note": "Buses and flexible units; unknown year raises; averages lie between extremes. NaN cells are not modelled."
  },
  {
   "property": "C36",
   "status": "proved",
   "theorems": [
    "Pyensys.C36_centroids",
    "Pyensys.C36_gaps_raise"
   ],
   "note": "For all label vectors: contiguous labels give exact cluster means, any gap raises IndexError (clusters are never mixed)."
  },
  {
   "property": "C37",
   "status": "proved",
   "theorems": [
    "Pyensys.C37_sum_preserved",
    "Pyensys.C37_between"
   ],
   "note": "Sum preserved and centroids between bounds, for every successful call."
  },
  {
   "property": "C38",
   "status": "proved",
   "theorems": [
    "Pyensys.C38_history_independent",
    "Pyensys.C38_repeat",
    "Pyensys.C38_needs_initialise"
   ],
   "note": "Any history of updates (successful, raising half-way, OPF runs) is quantified by the inductive Reached; repeat-call and the accumulation without initialise are separate theorems."
  },
  {
   "property": "C39",
   "status": "proved",
   "theorems": [
    "Pyensys.C39_single_line",
    "Pyensys.C39_cluster_step",
    "Pyensys.C39_other_tables_raise"
   ],
   "note": "Single lines (0-based) and clusters (1-based numbers minus one); floats are an ordered field, 3**0.5 a positive parameter."
  },
  {
   "property": "C40",
   "status": "proved",
   "theorems": [
    "Pyensys.C40_closed_form",
    "Pyensys.C40_order_independent",
    "Pyensys.C40_same_line_adds"
   ],
   "note": "Closed form of any list of upgrades, permutation invariance, same-line additivity."
  },
  {
   "property": "C41",
   "status": "proved",
   "theorems": [
    "Pyensys.C41_index_error",
    "Pyensys.C41_one_load"
   ],
   "note": "First load of the bus, frame condition, IndexError iff no load."
  },
  {
   "property": "C42",
   "status": "proved",
   "theorems": [
    "Pyensys.C42_equal",
    "Pyensys.C42_shorter",
    "Pyensys.C42_not_multiple",
    "Pyensys.C42_block_means",
    "Pyensys.C42_success_iff",
    "Pyensys.C42_after_reading"
   ],
   "note": ""
  },
  {
   "property": "C43",
   "status": "proved",
   "theorems": [
    "Pyensys.C43_multipliers",
    "Pyensys.C43_rejected",
    "Pyensys.C43_empty",
    "Pyensys.C43_first_year_one",
    "Pyensys.C43_only_value_error"
   ],
   "note": ""
  },
  {
   "property": "C44",
   "status": "proved",
   "theorems": [
    "Pyensys.C44_numeral_value",
    "Pyensys.C44_no_number"
   ],
   "note": ""
  },
  {
   "property": "C45",
   "status": "proved",
   "theorems": [
    "Pyensys.C45_partition",
    "Pyensys.C45_every_row_once",
    "Pyensys.C45_unknown_type"
   ],
   "note": ""
  },
  {
   "property": "C46",
   "status": "proved",
   "theorems": [
    "Pyensys.C46_initialised_iff_present",
    "Pyensys.C46_absent_defaults",
    "Pyensys.C46_optional_keys",
    "Pyensys.C46_case_file",
    "Pyensys.C46_required_keys",
    "Pyensys.C46_binary_variables",
    "Pyensys.C46_tables",
    "Pyensys.C46_witness"
   ],
   "note": ""
  },
  {
   "property": "C47",
   "status": "proved",
   "theorems": [
    "Pyensys.C47_round_up",
    "Pyensys.C47_too_large",
    "Pyensys.C47_cluster",
    "Pyensys.C47_cluster_succeeds"
   ],
   "note": "Each requirement is rounded up to the smallest size of the catalogue of its kind of branch; ValueError exactly when it exceeds all sizes."
  },
  {
   "property": "C48",
   "status": "proved",
   "theorems": [
    "Pyensys.C48_ideal_costs",
    "Pyensys.C48_kept"
   ],
   "note": "Clusters returned are different, found by screening, at most the limit; all non-empty ones if within the limit, exactly the limit otherwise; the ideal costs are evenly spaced."
  },
  {
   "property": "C49",
   "status": "proved",
   "theorems": [
    "Pyensys.C49_tree_shape",
    "Pyensys.C49_growth",
    "Pyensys.C49_between",
    "Pyensys.C49_complete",
    "Pyensys.C49_position",
    "Pyensys.C49_path",
    "Pyensys.C49_bus_factors"
   ],
   "note": "C49_tree_shape (2^y values in year y), C49_growth (first/last grown at their economies' rates, the rest evenly spaced), C49_between (bounds), C49_complete (when the tree is built), C49_position / C49_path (position of a scenario in year y is the ancestor of its position in year y+1). The bound is between the two ends of the row; the first year's rate is used as a fraction although the others are percentages (CA:963)."
  },
  {
   "property": "C50",
   "status": "proved",
   "theorems": [
    "Pyensys.C50_measure",
    "Pyensys.C50_tree"
   ],
   "note": "Every layout: no exception, numbering without gaps, each node but the root in the child range of exactly one node with a smaller number (C50_tree); sizes (C50_measure)."
  },
  {
   "property": "C51",
   "status": "proved",
   "theorems": [
    "Pyensys.C51_scenarios"
   ],
   "note": "Every layout: as many final nodes as scenarios, scenario i ends in the i-th final node, ranges of children are consecutive and make up the parent's."
  },
  {
   "property": "C52",
   "status": "partial",
   "theorems": [
    "Pyensys.C52_active_partial",
    "Pyensys.C52_distinct_partial",
    "Pyensys.C52_numbering_partial",
    "Pyensys.C52_voltages_partial",
    "Pyensys.C52_flag_violated"
   ],
   "note": "Proved for explicit contingency lists. The SecurityFlag option numbers contingencies from 0, so the first contingency fails nothing, the last branch never fails and the last flow variable is undeclared: C52_flag_violated."
  },
  {
   "property": "C53",
   "status": "proved",
   "theorems": [
    "Pyensys.C53_limits",
    "Pyensys.C53_monotone",
    "Pyensys.C53_unordered_violated"
   ],
   "note": "For cutIn \u2264 rated \u2264 cutOut (in exact arithmetic over the reals): limits, zero outside, rated in between, monotone up to cut-out. Outside the hypothesis it fails: C53_unordered_violated (rated above cut-out keeps running)."
  },
  {
   "property": "C54",
   "status": "partial",
   "theorems": [
    "Pyensys.C54_times_partial",
    "Pyensys.C54_row_partial",
    "Pyensys.C54_zero_partial",
    "Pyensys.C54_zero_violated",
    "Pyensys.C54_negative_violated",
    "Pyensys.C54_matrix_partial"
   ],
   "note": "C54_times_partial, C54_row_partial and C54_matrix_partial give the status of every component and the intact flag for non-negative sampled times. The claim fails where a sampled time to failure is 0 (C54_zero_partial, C54_zero_violated: the component is up for the whole horizon), negative means never terminate (C54_negative_violated); the same sampled pair repeats in each cycle. Random numbers are inputs of the model."
  },
  {
   "property": "C55",
   "status": "partial",
   "theorems": [
    "Pyensys.C55_break_points_partial",
    "Pyensys.C55_convex_partial",
    "Pyensys.C55_exact_partial",
    "Pyensys.C55_quadratic_partial",
    "Pyensys.C55_range_violated",
    "Pyensys.C55_free_violated",
    "Pyensys.C55_no_capacity_violated",
    "Pyensys.C55_concave_violated",
    "Pyensys.C55_piecewise_partial",
    "Pyensys.C55_unit_partial"
   ],
   "note": "Lines interpolate the polynomial at consecutive break points, are exact there for convex costs and overestimate by at most a*Delta^2/4 in between (C55_break_points_partial, C55_convex_partial, C55_exact_partial, C55_quadratic_partial, C55_piecewise_partial, C55_unit_partial). The break points cover [Min, Min+floor(Max/Delta)*Delta] only, a step above the capacity makes generation free, zero capacity raises and concave costs are overestimated at break points (C55_*_violated)."
  },
  {
   "property": "C56",
   "status": "partial",
   "theorems": [
    "Pyensys.C56_applied_partial",
    "Pyensys.C56_applied_witness",
    "Pyensys.C56_exact_partial",
    "Pyensys.C56_own_upgrades_partial",
    "Pyensys.C56_own_upgrades_violated",
    "Pyensys.C56_verification_partial"
   ],
   "note": "C56_exact_partial/C56_verification_partial state exactly which cluster is returned: the first in cost order that works on the network with its own upgrades and those of all clusters tried before. Own upgrades only: proved when earlier clusters are empty (C56_own_upgrades_partial), false in general (C56_own_upgrades_violated)."
  },
  {
   "property": "C57",
   "status": "partial",
   "theorems": [
    "Pyensys.C57_false_although_recorded_violated",
    "Pyensys.C57_true_although_nothing_recorded_violated",
    "Pyensys.C57_two_stage_partial"
   ],
   "note": "False of the code in both directions (two witnesses on well-formed problems). Proved for problems of two stages: reported success implies a recorded plan (C57_two_stage_partial); the converse fails."
  },
  {
   "property": "C58",
   "status": "partial",
   "theorems": [
    "Pyensys.C58_rows_of_own_plan_partial",
    "Pyensys.C58_violated"
   ],
   "note": "False of the code (C58_violated), because recorded plans can be anticipative (C22). Proved for non-anticipative plans."
  },
  {
   "property": "C59",
   "status": "partial",
   "theorems": [
    "Pyensys.C59_up_to_three_years_partial",
    "Pyensys.C59_violated"
   ],
   "note": "False of the code for four or more years (C59_violated); proved for two and three years."
  },
  {
   "property": "C60",
   "status": "partial",
   "theorems": [
    "Pyensys.C60_common_first_year_partial",
    "Pyensys.C60_violated",
    "Pyensys.C60_two_predecessors_violated"
   ],
   "note": "False of the code when scenarios differ in the first year (C60_violated, C60_two_predecessors_violated); proved when the first year is common."
  },
  {
   "property": "C61",
   "status": "proved",
   "theorems": [
    "Pyensys.C61_table_to_plan"
   ],
   "note": ""
  },
  {
   "property": "C62",
   "status": "proved",
   "theorems": [
    "Pyensys.C62_opf_network",
    "Pyensys.C62_base_violated"
   ],
   "note": "Closed form for single and cluster investments plus bus demands (node data without flexible units, see C63). The base (anticipative) solver violates it: C62_base_violated."
  },
  {
   "property": "C63",
   "status": "partial",
   "theorems": [
    "Pyensys.C63_violated"
   ],
   "note": "Violated for every non-empty table: sgen/poly_cost parameters reach the line branch and raise. No positive case exists beyond tables without flexible units (covered by C62)."
  },
  {
   "property": "C64",
   "status": "proved",
   "theorems": [
    "Pyensys.C64_raising_opf_infeasible",
    "Pyensys.C64_returned_verdict",
    "Pyensys.C64_base_violated"
   ],
   "note": "Proved for the non-anticipative solver; the base solver violates it when there are no new interventions (C64_base_violated)."
  },
  {
   "property": "C65",
   "status": "proved",
   "theorems": [
    "Pyensys.C65_share_node_iff",
    "Pyensys.C65_same_cluster_same_node",
    "Pyensys.C65_equal_means_merge"
   ],
   "note": "iff theorem plus the merge witness for the converse."
  },
  {
   "property": "C66",
   "status": "proved",
   "theorems": [
    "Pyensys.C66_year_of_node",
    "Pyensys.C66_years_agree_iff",
    "Pyensys.C66_same_years"
   ],
   "note": "Proved for every table the reader accepts, whatever the order of its years (the reader sorts them): C66_year_of_node. C66_years_agree_iff: sorting is necessary and sufficient."
  },
  {
   "property": "C67",
   "status": "proved",
   "theorems": [
    "Pyensys.C67_demand_reaches_opf"
   ],
   "note": "Composition of C35 and C62; data without flexible units (see C63)."
  },
  {
   "property": "C68",
   "status": "proved",
   "theorems": [
    "Pyensys.C68_demand_table_to_plan"
   ],
   "note": ""
  },
  {
   "property": "C69",
   "status": "partial",
   "theorems": [
    "Pyensys.C69_unsigned_exponent_violated",
    "Pyensys.C69_inner_characters_violated",
    "Pyensys.C69_sign_lost_violated",
    "Pyensys.C69_rejected_partial"
   ],
   "note": "False of the code: 5e15 is read as 5e-5, 1E5 as 15, [-5 as 5 (general theorems). Proved: several points, text after an exponent, one-digit unsigned exponents and bare points are rejected."
  },
  {
   "property": "C70",
   "status": "proved",
   "theorems": [
    "Pyensys.C70_file_round_trip",
    "Pyensys.C70_values_on_first_line",
    "Pyensys.C70_unclosed"
   ],
   "note": ""
  },
  {
   "property": "C71",
   "status": "partial",
   "theorems": [
    "Pyensys.C71_short_line_violated",
    "Pyensys.C71_first_row_violated",
    "Pyensys.C71_first_number_violated",
    "Pyensys.C71_rows_from_lines_partial"
   ],
   "note": "False of the code: any short line inside a matrix silently ends it, and a row on the line 'mpc.x=[...' is dropped. Proved: stored rows are read from consecutive lines, none invented; C70 gives the layouts that are read completely."
  },
  {
   "property": "C72",
   "status": "partial",
   "theorems": [
    "Pyensys.C72_fresh_except_partial",
    "Pyensys.C72_binary_variables_violated",
    "Pyensys.C72_second_reading_succeeds_partial"
   ],
   "note": "False of the code: binary variables of successive readings accumulate and the table dictionary is only updated (C72_binary_variables_violated). Proved for every history: every other settings group is exactly that of a fresh reader (C72_fresh_except_partial)."
  },
  {
   "property": "C73",
   "status": "proved",
   "theorems": [
    "Pyensys.C73_demand_table"
   ],
   "note": "C73_demand_table: one row per chosen scenario, year and demand bus, with the factor of the scenario's path."
  },
  {
   "property": "C74",
   "status": "proved",
   "theorems": [
    "Pyensys.C74_document_is_readable",
    "Pyensys.C74_document_to_plan"
   ],
   "note": "C74_document_is_readable and C74_document_to_plan (composition with C68): k-means labels are arbitrary contiguous labels; floats are rationals."
  },
  {
   "property": "C75",
   "status": "proved",
   "theorems": [
    "Pyensys.C75_options",
    "Pyensys.C75_complete",
    "Pyensys.C75_defaults"
   ],
   "note": "C75_options is an equivalence with the independent specification IsOption/Bought; C75_complete gives a simple sufficient condition."
  },
  {
   "property": "C76",
   "status": "proved",
   "theorems": [
    "Pyensys.C76_pool",
    "Pyensys.C76_option_upgrades"
   ],
   "note": "C76_pool and C76_option_upgrades, by composition with C39/C40. That line i of the pandapower network is branch i of the MATPOWER case is pandapower's conversion and is not modelled."
  },
  {
   "property": "C77",
   "status": "partial",
   "theorems": [
    "Pyensys.C77_single_digits_partial",
    "Pyensys.C77_violated_only_digits",
    "Pyensys.C77_violated"
   ],
   "note": "Holds only for lists of one-digit numbers (C77_single_digits_partial); false in general: C77_violated_only_digits, C77_violated. Missing: nothing more holds."
  },
  {
   "property": "C78",
   "status": "partial",
   "theorems": [
    "Pyensys.C78_rows_partial",
    "Pyensys.C78_violated_slow_2050"
   ],
   "note": "True for 2030, 2040 and the active economy of 2050 (C78_rows_partial); the slow economy of 2050 grows from the second scenario of 2040 (C78_violated_slow_2050 characterises exactly when this does not matter)."
  },
  {
   "property": "C79",
   "status": "proved",
   "theorems": [
    "Pyensys.C79_screening_runs",
    "Pyensys.C79_one_per_scenario",
    "Pyensys.C79_reduction_never_raises"
   ],
   "note": "The LP solver is an arbitrary function of branch count, previous investments and multipliers; numbers are exact rationals."
  },
  {
   "property": "C80",
   "status": "proved",
   "theorems": [
    "Pyensys.C80_selection"
   ],
   "note": "Selection by cost relative to the cost of the cluster that the code's exchange pass leaves last (C81 shows it need not be the largest)."
  },
  {
   "property": "C81",
   "status": "partial",
   "theorems": [
    "Pyensys.C81_sorted_partial",
    "Pyensys.C81_violated_order",
    "Pyensys.C81_violated_reference",
    "Pyensys.C81_violated_empty"
   ],
   "note": "False of the code: the exchange pass with 'any column greater' is not a sort and an empty cluster may be kept (C81_violated_*). Proved when all found clusters are comparable."
  },
  {
   "property": "C82",
   "status": "partial",
   "theorems": [
    "Pyensys.C82_screening_succeeds_partial",
    "Pyensys.C82_violated_transformers",
    "Pyensys.C82_zero_limit_violated"
   ],
   "note": "False of the code: costs of transformer sizes are looked up in the line catalogue (IndexError), a limit of 0 divides by zero. Proved when the sizes of transformers also occur among those of lines and the limit is positive."
  },
  {
   "property": "C83",
   "status": "proved",
   "theorems": [
    "Pyensys.C83_programme"
   ],
   "note": "glpk itself is not modelled; constraints are predicates on points, floats are rationals, one time point as in every call."
  },
  {
   "property": "C84",
   "status": "proved",
   "theorems": [
    "Pyensys.C84_every_cut",
    "Pyensys.C84_total"
   ],
   "note": ""
  },
  {
   "property": "C85",
   "status": "proved",
   "theorems": [
    "Pyensys.C85_no_waste",
    "Pyensys.C85_unlimited",
    "Pyensys.C85_only_if_exceeded"
   ],
   "note": ""
  },
  {
   "property": "C86",
   "status": "partial",
   "theorems": [
    "Pyensys.C86_orientation_partial",
    "Pyensys.C86_violated"
   ],
   "note": "False of the code: previous investments are not counted against the reverse flow (C86_violated). Proved for branches without previous investment."
  },
  {
   "property": "C87",
   "status": "proved",
   "theorems": [
    "Pyensys.C87_cost_exact",
    "Pyensys.C87_never_under",
    "Pyensys.C87_quadratic",
    "Pyensys.C87_beyond_violated"
   ],
   "note": "Up to PMIN+PMAX; beyond it (multipliers above one) strictly convex costs are underestimated (C87_beyond_violated)."
  },
  {
   "property": "C88",
   "status": "partial",
   "theorems": [
    "Pyensys.C88_builds_partial",
    "Pyensys.C88_piecewise_violated",
    "Pyensys.C88_first_generator_violated",
    "Pyensys.C88_plan_exists_partial",
    "Pyensys.C88_no_plan_violated"
   ],
   "note": "False of the code: piecewise costs, missing costs and a first generator of size zero always raise; reactive demand cannot be curtailed so there may be no plan. Proved for polynomial costs with a first generator of positive size, and plans exist for active demand only."
  },
  {
   "property": "C89",
   "status": "proved",
   "theorems": [
    "Pyensys.C89_clusters_suffice"
   ],
   "note": "Exactness of the solver is a hypothesis; an example shows it is satisfiable."
  },
  {
   "property": "C90",
   "status": "partial",
   "theorems": [
    "Pyensys.C90_cluster_applied_partial",
    "Pyensys.C90_upgraded_unique_partial",
    "Pyensys.C90_three_phase_violated",
    "Pyensys.C90_raises_partial",
    "Pyensys.C90_witness"
   ],
   "note": "Upgrades by branch and which clusters raise are proved exactly; the three-phase clause is false: the added power is sqrt(3) times the MVA bought (C90_three_phase_violated)."
  },
  {
   "property": "C91",
   "status": "proved",
   "theorems": [
    "Pyensys.C91_nodes",
    "Pyensys.C91_numbers",
    "Pyensys.C91_too_many_nodes",
    "Pyensys.C91_loads",
    "Pyensys.C91_additions"
   ],
   "note": "Numbering, per-node result, failure flag, node loads and additional loads, and exceptions for non-binary trees, for all trees and OPF behaviours (OPF is an oracle on networks)."
  },
  {
   "property": "C92",
   "status": "partial",
   "theorems": [
    "Pyensys.C92_report_partial",
    "Pyensys.C92_more_years_violated",
    "Pyensys.C92_costs_monotone_partial",
    "Pyensys.C92_witness",
    "Pyensys.C92_total_violated"
   ],
   "note": "Report paths, IndexError beyond four years and cost monotonicity are proved; 'total is the cost of the scenario's investments' fails: it is the last year's cost (C92_total_violated)."
  },
  {
   "property": "C93",
   "status": "partial",
   "theorems": [
    "Pyensys.C93_given_clusters_violated",
    "Pyensys.C93_without_files_violated",
    "Pyensys.C93_repeats_earlier_violated",
    "Pyensys.C93_screened_partial",
    "Pyensys.C93_witness"
   ],
   "note": "Without given clusters the command is characterised fully (C93_screened_partial); given clusters are ignored in favour of the files of an earlier run (C93_given_clusters_violated, C93_repeats_earlier_violated) or raise (C93_without_files_violated)."
  },
  {
   "property": "C94",
   "status": "proved",
   "theorems": [
    "Pyensys.C94_order"
   ],
   "note": "All layouts without an empty period; from connect_spec (closed form of the recursive Mapping)."
  },
  {
   "property": "C95",
   "status": "proved",
   "theorems": [
    "Pyensys.C95_accounting",
    "Pyensys.C95_solution",
    "Pyensys.C95_total"
   ],
   "note": "Feasible states for arbitrary rational weights/inputs/outputs; accounting, uniqueness and existence (non-negativity of vSoC is not part of EnFeasible: dropping it makes the accounting theorem stronger, the existence is before it), and the closing of the horizon. Excluded: first period flagged (C96_root_raises_violated) and exactly one uncertain node (C96_one_uncertain_violated)."
  },
  {
   "property": "C96",
   "status": "partial",
   "theorems": [
    "Pyensys.C96_root_raises_violated",
    "Pyensys.C96_one_uncertain_violated",
    "Pyensys.C96_flags_partial"
   ],
   "note": "False of the code for a flag in the first period, which always raises (C96_root_raises_violated), and for a single uncertain node, which loses its constraint (C96_one_uncertain_violated). Proved for the other flags (C96_flags_partial): with at least two names and no flag in the first period every choice of flags is accepted, all nodes of flagged periods are uncertain, the states are unique, and the end of an uncertain node is given by its weight, net input and the changes along its alternatives."
  },
  {
   "property": "C97",
   "status": "partial",
   "theorems": [
    "Pyensys.C97_data_partial",
    "Pyensys.C97_fixed_partial",
    "Pyensys.C97_shifted_violated",
    "Pyensys.C97_row_violated"
   ],
   "note": "Holds for aligned data (C97_data_partial) and with a fixed number of vectors (C97_fixed_partial); fails silently when numbers of weights and names differ (C97_shifted_violated) and for a first period given as one row (C97_row_violated)."
  },
  {
   "property": "C98",
   "status": "proved",
   "theorems": [
    "Pyensys.C98_limits",
    "Pyensys.C98_monotone",
    "Pyensys.C98_selected",
    "Pyensys.C98_unknown",
    "Pyensys.C98_shutdown_violated"
   ],
   "note": "For sensible data (CoolingOk); with a shutdown above the maximum temperature the factor becomes negative (C98_shutdown_violated). numpy's argument defaults (list of lists) are not modelled."
  },
  {
   "property": "C99",
   "status": "partial",
   "theorems": [
    "Pyensys.C99_domain_partial",
    "Pyensys.C99_bounds_partial",
    "Pyensys.C99_more_light_partial",
    "Pyensys.C99_flat_violated",
    "Pyensys.C99_series_partial",
    "Pyensys.C99_too_short_partial",
    "Pyensys.C99_returns_partial"
   ],
   "note": "Bounds, proportionality, order and positions proved over the reals; C99_domain_partial says exactly when the angles exist (they do not at latitude 0 or with the sun in the zenith); a flat fixed collector receives no diffuse light (C99_flat_violated)."
  },
  {
   "property": "C100",
   "status": "partial",
   "theorems": [
    "Pyensys.C100_hours_partial",
    "Pyensys.C100_infeasible_violated"
   ],
   "note": "C100_hours_partial proves it for every solver result; hours in which the optimisation is infeasible are stored as zero curtailment (C100_infeasible_violated). The optimisation model itself is a parameter."
  },
  {
   "property": "C101",
   "status": "partial",
   "theorems": [
    "Pyensys.C101_connections_partial",
    "Pyensys.C101_succeeds_partial",
    "Pyensys.C101_unknown_bus_partial",
    "Pyensys.C101_load_type_violated"
   ],
   "note": "Connections, totality and unknown buses proved; a single rural load type is stored as a list instead of a number: C101_load_type_violated."
  },
  {
   "property": "C102",
   "status": "partial",
   "theorems": [
    "Pyensys.C102_objective_partial",
    "Pyensys.C102_weights_violated",
    "Pyensys.C102_unit_weights_partial"
   ],
   "note": "The objective is the expected weighted sum of the cost variables, but these already carry the weight, so generation costs count with the square of the weight: C102_weights_violated; with unit weights it is as expected."
  },
  {
   "property": "C103",
   "status": "partial",
   "theorems": [
    "Pyensys.C103_conservation_partial",
    "Pyensys.C103_precalculated_partial",
    "Pyensys.C103_pump_violated",
    "Pyensys.C103_pump_bus_violated",
    "Pyensys.C103_contingency_violated",
    "Pyensys.C103_witness",
    "Pyensys.C103_contingency_witness",
    "Pyensys.C103_pump_witness"
   ],
   "note": "Conservation proved for estimated losses in every security scenario and for precalculated losses in the intact network, with pumps at different buses. Fails otherwise: of two pumps at one bus the first is in no balance, a pump is counted at position bus number minus one, and precalculated losses raise an IndexError in contingencies."
  },
  {
   "property": "C104",
   "status": "partial",
   "theorems": [
    "Pyensys.C104_losses_partial",
    "Pyensys.C104_beyond_violated",
    "Pyensys.C104_witness"
   ],
   "note": "Proved exactly for flows within the range of the points (3 per unit by default); beyond the last point losses below the quadratic ones are admissible."
  },
  {
   "property": "C105",
   "status": "proved",
   "theorems": [
    "Pyensys.C105_variables",
    "Pyensys.C105_distinct",
    "Pyensys.C105_at_bus",
    "Pyensys.C105_unknown_bus",
    "Pyensys.C105_witness"
   ],
   "note": ""
  },
  {
   "property": "C106",
   "status": "partial",
   "theorems": [
    "Pyensys.C106_profile_partial",
    "Pyensys.C106_default_partial",
    "Pyensys.C106_missing_violated",
    "Pyensys.C106_zero_violated",
    "Pyensys.C106_no_profiles_partial",
    "Pyensys.C106_witness"
   ],
   "note": "Proved for links to existing profiles and for the defaults; with fewer profiles than scenarios the defaults raise an IndexError, and a link to profile zero silently uses the last profile."
  },
  {
   "property": "C107",
   "status": "partial",
   "theorems": [
    "Pyensys.C107_down_partial",
    "Pyensys.C107_up_partial",
    "Pyensys.C107_first_period_violated",
    "Pyensys.C107_other_unit_violated"
   ],
   "note": "Minimum times hold for a unit if every committed conventional unit before it has the same kind of minimum time (C107_down_partial, C107_up_partial, for M <= N). Violated otherwise: the rules use the number of the minimum-time variable as number of the binary variable, i.e. that of another unit (C107_other_unit_violated: any schedule is allowed); no unit can be switched in the first period, so admissible schedules are excluded (C107_first_period_violated)."
  },
  {
   "property": "C108",
   "status": "partial",
   "theorems": [
    "Pyensys.C108_committed_partial",
    "Pyensys.C108_switch_partial",
    "Pyensys.C108_uncommitted_partial",
    "Pyensys.C108_cooled_partial",
    "Pyensys.C108_cooled_uc_violated",
    "Pyensys.C108_cooled_min_violated"
   ],
   "note": "Proved with and without unit commitment, and the derated maximum without unit commitment. Violated with unit commitment and cooling for units without minimum output (not derated), and the minimum output is not derated, so a strong derating makes the problem infeasible."
  },
  {
   "property": "C109",
   "status": "partial",
   "theorems": [
    "Pyensys.C109_ramps_partial",
    "Pyensys.C109_settings_partial",
    "Pyensys.C109_short_list_violated"
   ],
   "note": "The ramp constraints are characterised exactly (iff), and the choice of settings for one, all or no values. Violated for a list of two or more settings shorter than the number of units: IndexError instead of no limit."
  },
  {
   "property": "C110",
   "status": "partial",
   "theorems": [
    "Pyensys.C110_one_type_partial",
    "Pyensys.C110_distinct_types_partial",
    "Pyensys.C110_same_type_violated"
   ],
   "note": "Proved without types and with pairwise different types. Violated for equal types: the search for repeated cases compares with overwritten links, so a unit may get the temperature of another (C110_same_type_violated)."
  },
  {
   "property": "C111",
   "status": "partial",
   "theorems": [
    "Pyensys.C111_baseload_partial",
    "Pyensys.C111_conventional_violated",
    "Pyensys.C111_weights_violated"
   ],
   "note": "Proved for equal weights when some hydropower unit has baseload. Violated: the baseload of conventional units is ignored if no hydropower unit has baseload, and with unequal weights constant production is infeasible."
  },
  {
   "property": "C112",
   "status": "partial",
   "theorems": [
    "Pyensys.C112_linked_partial",
    "Pyensys.C112_default_partial",
    "Pyensys.C112_link_zero_violated"
   ],
   "note": "Proved for links to existing profiles, the default links and the single profile. Violated for link 0, which uses the last profile instead of being rejected."
  },
  {
   "property": "C113",
   "status": "partial",
   "theorems": [
    "Pyensys.C113_instances_partial",
    "Pyensys.C113_binaries_partial",
    "Pyensys.C113_binaries_violated"
   ],
   "note": "Holds for flows, voltages, losses, generation, costs, pumps and curtailment, and for binaries when the declared range is large enough; C113_binaries_violated: binary variables of later instances lie outside the declared range (KeyError) when few units need them."
  },
  {
   "property": "C114",
   "status": "proved",
   "theorems": [
    "Pyensys.C114_weights",
    "Pyensys.C114_total"
   ],
   "note": "All trees of periods and names with weights for every name (first period without uncertainty)."
  },
  {
   "property": "C115",
   "status": "proved",
   "theorems": [
    "Pyensys.C115_accounting",
    "Pyensys.C115_water",
    "Pyensys.C115_witness"
   ],
   "note": "All trees, inputs, outputs and feasible solutions; the water is given to the first name of the first period only, as set_Hydro does."
  },
  {
   "property": "C116",
   "status": "proved",
   "theorems": [
    "Pyensys.C116_generation",
    "Pyensys.C116_all_generation",
    "Pyensys.C116_pumps",
    "Pyensys.C116_demand",
    "Pyensys.C116_curtailment",
    "Pyensys.C116_conservation",
    "Pyensys.C116_spill",
    "Pyensys.C116_witness"
   ],
   "note": "Reports as weighted sums, totals by class and load type, conservation law, spilled renewables; losses are those of the solution because the program's own report of losses fails (C117)."
  },
  {
   "property": "C117",
   "status": "partial",
   "theorems": [
    "Pyensys.C117_losses_violated",
    "Pyensys.C117_losses_partial",
    "Pyensys.C117_net_demand_violated",
    "Pyensys.C117_net_demand_partial",
    "Pyensys.C117_load_types_violated",
    "Pyensys.C117_numbering_violated",
    "Pyensys.C117_constant_violated"
   ],
   "note": "Positive parts: no losses, net demand without demand. Violated: get_AllLoss never returns with losses and a branch; get_NetDemand never returns with demand; list load types raise; bus 0 is the last bus; without demand profiles the report uses the period's value while the balance uses the first."
  },
  {
   "property": "C118",
   "status": "partial",
   "theorems": [
    "Pyensys.C118_unweighted_partial",
    "Pyensys.C118_weights_violated"
   ],
   "note": "Equal if all period weights are 1; violated otherwise (parts ignore period weights)."
  },
  {
   "property": "C119",
   "status": "partial",
   "theorems": [
    "Pyensys.C119_set_partial",
    "Pyensys.C119_beyond_violated",
    "Pyensys.C119_negative_violated",
    "Pyensys.C119_zero_violated",
    "Pyensys.C119_average_partial",
    "Pyensys.C119_lengths_violated",
    "Pyensys.C119_initial_partial"
   ],
   "note": "Stored exactly for 1..Number, averages, initial profiles; violated: unknown scenarios ignored silently, negative numbers overwrite another scenario, 0 raises, only the first 24 values count for two periods."
  },
  {
   "property": "C120",
   "status": "proved",
   "theorems": [
    "Pyensys.C120_set",
    "Pyensys.C120_overwrite"
   ],
   "note": "All units, profiles; overwriting."
  },
  {
   "property": "C121",
   "status": "partial",
   "theorems": [
    "Pyensys.C121_capacity_partial",
    "Pyensys.C121_on_violated",
    "Pyensys.C121_status_partial",
    "Pyensys.C121_first_violated"
   ],
   "note": "Capacity, off and status of elements other than the first; violated: switching on divides the per-unit maximum by the base again, cannot undo off; element 0 refused."
  },
  {
   "property": "C122",
   "status": "partial",
   "theorems": [
    "Pyensys.C122_supernodes_partial",
    "Pyensys.C122_recursion_violated"
   ],
   "note": "C122_supernodes_partial: whenever the search succeeds the supernodes are the components, and it succeeds whenever the recursion limit exceeds the number of low buses. C122_recursion_violated: a chain of low buses longer than Python's recursion limit raises RecursionError."
  },
  {
   "property": "C123",
   "status": "proved",
   "theorems": [
    "Pyensys.C123_demand"
   ],
   "note": "C123_demand"
  },
  {
   "property": "C124",
   "status": "partial",
   "theorems": [
    "Pyensys.C124_losses_partial",
    "Pyensys.C124_violated"
   ],
   "note": "C124_losses_partial: exact surplus (losses of elements replaced by artificial lines are counted twice when a supernode has several coupling buses); C124_violated: concrete network."
  },
  {
   "property": "C125",
   "status": "proved",
   "theorems": [
    "Pyensys.C125_numbers"
   ],
   "note": "C125_numbers"
  },
  {
   "property": "C126",
   "status": "partial",
   "theorems": [
    "Pyensys.C126_violated",
    "Pyensys.C126_generators_partial"
   ],
   "note": "C126_generators_partial: holds when every low bus comes after every high bus; C126_violated: otherwise generators of kept buses may move to a supernode."
  },
  {
   "property": "C127",
   "status": "partial",
   "theorems": [
    "Pyensys.C127_fails_violated",
    "Pyensys.C127_succeeds_partial",
    "Pyensys.C127_exactly_partial"
   ],
   "note": "False for networks in which a group of buses below the level has no way up (IndexError) or no line lies at or above the level (C127_fails_violated). C127_succeeds_partial: all other consistent networks are reduced; C127_exactly_partial: success exactly in these cases."
  },
  {
   "property": "C128",
   "status": "partial",
   "theorems": [
    "Pyensys.C128_violated",
    "Pyensys.C128_ends_partial"
   ],
   "note": "C128_ends_partial: ends of every element by number and position; C128_violated: coupling buses do not list the artificial lines."
  },
  {
   "property": "C129",
   "status": "partial",
   "theorems": [
    "Pyensys.C129_branches_partial",
    "Pyensys.C129_violated"
   ],
   "note": "C129_branches_partial: which branches are in the tables; C129_violated: the original positions of preserved branches are wrong."
  },
  {
   "property": "C130",
   "status": "partial",
   "theorems": [
    "Pyensys.C130_no_elements_violated",
    "Pyensys.C130_succeeds_partial"
   ],
   "note": "Fails: C130_no_elements_violated, every network without element in service raises AssertionError. C130_succeeds_partial: on well formed networks it succeeds exactly when some element is in service (content: C131_islands)."
  },
  {
   "property": "C131",
   "status": "proved",
   "theorems": [
    "Pyensys.C131_islands",
    "Pyensys.C131_witness"
   ],
   "note": "C131_islands for any correct components (refComponents_ok: they exist)"
  },
  {
   "property": "C132",
   "status": "partial",
   "theorems": [
    "Pyensys.C132_order_partial",
    "Pyensys.C132_order_violated"
   ],
   "note": "Fails: C132_order_violated, positions are in the order of the bus table, and an element from a bus to itself raises IndexError. C132_order_partial: elements naming their buses in table order get the right positions."
  },
  {
   "property": "C133",
   "status": "partial",
   "theorems": [
    "Pyensys.C133_other_types_partial",
    "Pyensys.C133_delete_generators_violated",
    "Pyensys.C133_witness"
   ],
   "note": "Fails: C133_delete_generators_violated, for every network no bus lists any generator of the type afterwards and no island holds any. C133_other_types_partial: the network's own lists are right and other types are untouched."
  },
  {
   "property": "C134",
   "status": "proved",
   "theorems": [
    "Pyensys.C134_delete_elements",
    "Pyensys.C134_witness"
   ],
   "note": "C134_delete_elements"
  },
  {
   "property": "C135",
   "status": "partial",
   "theorems": [
    "Pyensys.C135_zero_violated",
    "Pyensys.C135_rows_violated",
    "Pyensys.C135_again_partial",
    "Pyensys.C135_again_violated",
    "Pyensys.C135_single_violated",
    "Pyensys.C135_parts_partial"
   ],
   "note": "C135_parts_partial proves the division for all rivers and all given parts (positive); C135_again_partial that re-initialising undivided rivers gives the same model. Violations: a zero among the parts stops the division (C135_zero_violated), more parts than rivers is a ValueError (C135_rows_violated), re-initialising two or more rivers of which one is divided is an IndexError (C135_again_violated) and a single divided river is divided again (C135_single_violated)."
  },
  {
   "property": "C136",
   "status": "partial",
   "theorems": [
    "Pyensys.C136_network_partial",
    "Pyensys.C136_parallel_violated"
   ],
   "note": "C136_network_partial proves the tables for every network whose rivers join different pairs of nodes; C136_parallel_violated: two rivers between the same nodes always raise IndexError."
  },
  {
   "property": "C137",
   "status": "partial",
   "theorems": [
    "Pyensys.C137_conservation_partial",
    "Pyensys.C137_day_partial",
    "Pyensys.C137_witness",
    "Pyensys.C137_double_violated"
   ],
   "note": "C137_conservation_partial, C137_day_partial prove the balance for every network, scenario and period (nodes numbered from 1, one input and one output per node); C137_witness is a concrete solution. Violation: of two inputs at a node the first is lost (C137_double_violated)."
  },
  {
   "property": "C138",
   "status": "partial",
   "theorems": [
    "Pyensys.C138_shares_partial",
    "Pyensys.C138_zero_violated",
    "Pyensys.C138_zero_example_violated"
   ],
   "note": "C138_shares_partial proves the proportions for every node; violation: a zero share before the last river of a junction is a ZeroDivisionError (C138_zero_violated, C138_zero_example_violated)."
  },
  {
   "property": "C139",
   "status": "partial",
   "theorems": [
    "Pyensys.C139_average_partial",
    "Pyensys.C139_full_violated"
   ],
   "note": "C139_average_partial proves the weighted average, its weights and the positive slope; violation: the flow of the full river is not the maximum, as the computed maximum volume is never used (C139_full_violated)."
  },
  {
   "property": "C140",
   "status": "partial",
   "theorems": [
    "Pyensys.C140_limits_partial",
    "Pyensys.C140_separate_partial",
    "Pyensys.C140_feas_violated"
   ],
   "note": "C140_limits_partial proves that every excess is paid in the penalty and that without penalty limits hold; violation: with the option off one common slack remains (C140_feas_violated)."
  },
  {
   "property": "C141",
   "status": "partial",
   "theorems": [
    "Pyensys.C141_ramp_violated",
    "Pyensys.C141_values_violated"
   ],
   "note": "Violated: the ramp constraints compare a flow with itself (C141_ramp_violated) and the user's ramps are not read, a single one is a ValueError (C141_values_violated)."
  },
  {
   "property": "C142",
   "status": "partial",
   "theorems": [
    "Pyensys.C142_storage_partial",
    "Pyensys.C142_first_violated",
    "Pyensys.C142_small_violated",
    "Pyensys.C142_double_violated"
   ],
   "note": "C142_storage_partial proves the capacity and the cycle; violations: storage cannot be used in the first period (C142_first_violated), capacity is truncated to whole units (C142_small_violated), of two units at a node the first is lost (C142_double_violated)."
  },
  {
   "property": "C143",
   "status": "partial",
   "theorems": [
    "Pyensys.C143_links_partial",
    "Pyensys.C143_none_violated",
    "Pyensys.C143_controlled_violated",
    "Pyensys.C143_controlled_partial"
   ],
   "note": "C143_links_partial proves the links; violations: no links is an UnboundLocalError (C143_none_violated), the scenario of a single controlled input is ignored (C143_controlled_violated)."
  },
  {
   "property": "C144",
   "status": "partial",
   "theorems": [
    "Pyensys.C144_inner_partial",
    "Pyensys.C144_outputs_partial",
    "Pyensys.C144_no_river_violated"
   ],
   "note": "C144_outputs_partial proves the minimum outflow; violation: an output on no river is an IndexError (C144_no_river_violated), so outputs are always on a river."
  },
  {
   "property": "C145",
   "status": "partial",
   "theorems": [
    "Pyensys.C145_downstream_partial",
    "Pyensys.C145_output_partial",
    "Pyensys.C145_last_violated",
    "Pyensys.C145_nowhere_violated",
    "Pyensys.C145_double_violated",
    "Pyensys.C145_witness"
   ],
   "note": "C145_downstream_partial, C145_output_partial prove the limits for units with rivers downstream and at outputs; violations: a unit with rivers downstream that is not at an output frees the unit at the last output (C145_last_violated; C145_witness has a solution with 100000 MW), units at no output and without rivers downstream are unlimited (C145_nowhere_violated), of two units at an output the first is unlimited (C145_double_violated)."
  },
  {
   "property": "C146",
   "status": "partial",
   "theorems": [
    "Pyensys.C146_delivery_partial",
    "Pyensys.C146_intake_partial",
    "Pyensys.C146_input_violated",
    "Pyensys.C146_efficiency_violated",
    "Pyensys.C146_no_hydro_violated",
    "Pyensys.C146_witness"
   ],
   "note": "C146_intake_partial and C146_delivery_partial prove intake and delivery for a pump to a node that is not an input; violations: pumps to an input use the variable of the pump before (C146_input_violated), worse efficiency lifts more water, so pumping and generating gains energy (C146_efficiency_violated), without hydropower units there is no link (C146_no_hydro_violated)."
  },
  {
   "property": "C147",
   "status": "partial",
   "theorems": [
    "Pyensys.C147_cycle_partial",
    "Pyensys.C147_fixed_violated",
    "Pyensys.C147_length_violated",
    "Pyensys.C147_vectors_violated",
    "Pyensys.C147_witness"
   ],
   "note": "C147_cycle_partial proves the cycle for every instance; violations: fixed flows are discarded (C147_fixed_violated), the length of periods is multiplied again on every initialisation (C147_length_violated), pump nodes become energy vectors on re-initialisation (C147_vectors_violated)."
  },
  {
   "property": "C148",
   "status": "partial",
   "theorems": [
    "Pyensys.C148_runs_partial",
    "Pyensys.C148_same_partial",
    "Pyensys.C148_returned_partial",
    "Pyensys.C148_negative_violated",
    "Pyensys.C148_uncertain_violated",
    "Pyensys.C148_witness",
    "Pyensys.C148_negative_witness",
    "Pyensys.C148_uncertain_witness"
   ],
   "note": "GLPK and Pyomo describe the same plans for every tree without uncertainty and every call succeeds (C148_runs_partial, C148_same_partial, C148_returned_partial). False with uncertainty: IndexError (C148_uncertain_violated). With data that would need negative storage there is no plan and numbers are returned silently (C148_negative_violated)."
  },
  {
   "property": "C149",
   "status": "partial",
   "theorems": [
    "Pyensys.C149_quantities_partial",
    "Pyensys.C149_quantities_given_partial",
    "Pyensys.C149_witness",
    "Pyensys.C149_pumps_witness",
    "Pyensys.C149_isolated_violated",
    "Pyensys.C149_pumps_violated",
    "Pyensys.C149_plans_partial",
    "Pyensys.C149_total_partial",
    "Pyensys.C149_balance_partial",
    "Pyensys.C149_all_plans_partial"
   ],
   "note": "The points of the linear program are exactly the plans of the network rules (C149_plans_partial, C149_all_plans_partial); the system balances (C149_total_partial). The balance per bus holds without pumps and isolated buses (C149_balance_partial); pumps are counted at every bus (C149_pumps_violated) and an isolated bus is a free source (C149_isolated_violated)."
  },
  {
   "property": "C150",
   "status": "partial",
   "theorems": [
    "Pyensys.C150_unmatched_violated",
    "Pyensys.C150_unmatched_witness",
    "Pyensys.C150_merged_violated",
    "Pyensys.C150_rate_witness",
    "Pyensys.C150_flows_partial",
    "Pyensys.C150_rate_violated"
   ],
   "note": "C150_flows_partial for contingencies that match a branch. A rating of 0 means flow 0 (C150_rate_violated); a contingency that matches no branch aborts or loses the flow law (C150_unmatched_violated, C150_merged_violated)."
  },
  {
   "property": "C151",
   "status": "partial",
   "theorems": [
    "Pyensys.C151_hours_violated",
    "Pyensys.C151_objective_partial",
    "Pyensys.C151_cheapest_partial",
    "Pyensys.C151_value_partial",
    "Pyensys.C151_hour_partial"
   ],
   "note": "The objective and its optimality are proved (C151_objective_partial, C151_cheapest_partial, C151_value_partial); the cost is the right one if every period is one hour (C151_hour_partial); hours are counted twice in the unit costs otherwise (C151_hours_violated)."
  },
  {
   "property": "C152",
   "status": "partial",
   "theorems": [
    "Pyensys.C152_violated"
   ],
   "note": "False in every case: AttributeError (C152_violated)."
  },
  {
   "property": "C153",
   "status": "partial",
   "theorems": [
    "Pyensys.C153_plans_partial",
    "Pyensys.C153_objective_partial",
    "Pyensys.C153_units_violated",
    "Pyensys.C153_witness",
    "Pyensys.C153_plan_witness",
    "Pyensys.C153_units_witness",
    "Pyensys.C153_names_witness",
    "Pyensys.C153_runs_partial",
    "Pyensys.C153_ramp_violated",
    "Pyensys.C153_names_violated",
    "Pyensys.C153_res_violated",
    "Pyensys.C153_water_partial"
   ],
   "note": "Plans, water and objective are proved for every tree without uncertainty (C153_plans_partial, C153_water_partial, C153_objective_partial); the call succeeds under side conditions (C153_runs_partial) and fails for ramps that are not positive, more than 11 trees with more than 10 instances, renewable units in the economic dispatch (C153_ramp_violated, C153_names_violated, C153_res_violated); trees without unit are tied to costs (C153_units_violated)."
  },
  {
   "property": "C154",
   "status": "partial",
   "theorems": [
    "Pyensys.C154_no_pieces_violated",
    "Pyensys.C154_single_violated",
    "Pyensys.C154_loop_violated",
    "Pyensys.C154_many_res_violated",
    "Pyensys.C154_more_pieces_violated",
    "Pyensys.C154_failures_witness",
    "Pyensys.C154_zero_demand_witness",
    "Pyensys.C154_runs_partial",
    "Pyensys.C154_zero_demand_violated",
    "Pyensys.C154_low_profile_violated"
   ],
   "note": "Proved for well formed networks with bounds in order (C154_runs_partial); fails for zero demand, low profiles, units without pieces, a single branch with contingencies, loops, more renewable than conventional units, unequal numbers of pieces (C154_*_violated)."
  },
  {
   "property": "C155",
   "status": "partial",
   "theorems": [
    "Pyensys.C155_witness",
    "Pyensys.C155_loss_witness",
    "Pyensys.C155_feasible_partial",
    "Pyensys.C155_returned_partial",
    "Pyensys.C155_loss_violated"
   ],
   "note": "Proved without demand losses (C155_feasible_partial, C155_returned_partial); with losses as a share of demand there may be no plan (C155_loss_violated)."
  },
  {
   "property": "C156",
   "status": "proved",
   "theorems": [
    "Pyensys.C156_numeral",
    "Pyensys.C156_only_numerals",
    "Pyensys.C156_refused",
    "Pyensys.C156_witness"
   ],
   "note": "C156_numeral: every decimal numeral is read with its exact (rational) value; C156_only_numerals: nothing else is; C156_refused: every other text raises ValueError. float() rounding, inf/nan and underscores are outside the model (DESIGN)."
  },
  {
   "property": "C157",
   "status": "partial",
   "theorems": [
    "Pyensys.C157_demands_partial",
    "Pyensys.C157_demands_witness",
    "Pyensys.C157_file_partial",
    "Pyensys.C157_cost_violated"
   ],
   "note": "C157_file_partial for every file of the layout and all three copies of the converter. Violated: a constant cost coefficient not written as a whole number is refused by the version in use (C157_cost_violated)."
  },
  {
   "property": "C158",
   "status": "partial",
   "theorems": [
    "Pyensys.C158_agree_partial",
    "Pyensys.C158_witness",
    "Pyensys.C158_violated"
   ],
   "note": "C158_agree_partial on the notation and layout both understand (witness C158_witness). Violated outside it: 1E2 is 100 for one and 12 for the other; two bus matrices are joined by one and the last one kept by the other (C158_violated)."
  },
  {
   "property": "C159",
   "status": "partial",
   "theorems": [
    "Pyensys.C159_glued_violated",
    "Pyensys.C159_truncated_violated",
    "Pyensys.C159_first_line_violated",
    "Pyensys.C159_piecewise_violated",
    "Pyensys.C159_bad_row_partial"
   ],
   "note": "C159_bad_row_partial: a line in a matrix that is not a row raises. Violated: glued names give an empty network (C159_glued_violated), fractions in whole-number columns are cut off (C159_truncated_violated), numbers on the opening line are ignored (C159_first_line_violated), half of a piecewise cost is dropped (C159_piecewise_violated)."
  },
  {
   "property": "C160",
   "status": "partial",
   "theorems": [
    "Pyensys.C160_path_partial",
    "Pyensys.C160_bare_violated",
    "Pyensys.C160_root_violated"
   ],
   "note": "C160_path_partial for every folder but the root and every name. Violated: a file without a folder raises IndexError (C160_bare_violated) and one in the root is looked for in the current folder (C160_root_violated)."
  },
  {
   "property": "C161",
   "status": "partial",
   "theorems": [
    "Pyensys.C161_round_trip_partial",
    "Pyensys.C161_lost_violated",
    "Pyensys.C161_reactive_violated",
    "Pyensys.C161_columns_partial",
    "Pyensys.C161_witness",
    "Pyensys.C161_costless_violated"
   ],
   "note": "C161_round_trip_partial for every network whose generators have a cost coefficient. Violated: hydropower, renewables and shunts are not written (C161_lost_violated), reactive limits are not scaled (C161_reactive_violated), a generator without coefficients makes an unreadable file (C161_costless_violated)."
  },
  {
   "property": "C162",
   "status": "partial",
   "theorems": [
    "Pyensys.C162_content_partial",
    "Pyensys.C162_violated",
    "Pyensys.C162_raises_violated",
    "Pyensys.C162_raises_last_violated",
    "Pyensys.C162_empty_partial",
    "Pyensys.C162_tool_violated",
    "Pyensys.C162_anticipative_violated",
    "Pyensys.C162_run_violated",
    "Pyensys.C162_clusters_partial"
   ],
   "note": "C162_content_partial gives the exact content of every saved report; C162_empty_partial: a plan without lines is reported. Violated for every other plan: no saved report shows any intervention (C162_violated), a plan that builds a line in the first or last scenario always raises (C162_raises_violated, C162_raises_last_violated, C162_run_violated for a whole run of the search), anticipative problems raise TypeError (C162_anticipative_violated)."
  },
  {
   "property": "C163",
   "status": "partial",
   "theorems": [
    "Pyensys.C163_first_partial",
    "Pyensys.C163_from_one_violated",
    "Pyensys.C163_second_violated"
   ],
   "note": "C163_first_partial: the cost of scenario 0 is reported. Violated: scenarios numbered from 1 (C163_from_one_violated), second scenario of plans without lines (C163_second_violated)."
  },
  {
   "property": "C164",
   "status": "partial",
   "theorems": [
    "Pyensys.C164_name_partial",
    "Pyensys.C164_bare_violated"
   ],
   "note": "C164_name_partial for every folder/name.extension. Violated: no folder or no extension raises IndexError after the search (C164_bare_violated)."
  },
  {
   "property": "C165",
   "status": "proved",
   "theorems": [
    "Pyensys.C165_peak",
    "Pyensys.C165_witness"
   ],
   "note": "Exact characterisation (iff) of success and result; negative hours, which count from the end in Python, are not in the statement."
  },
  {
   "property": "C166",
   "status": "partial",
   "theorems": [
    "Pyensys.C166_series_partial",
    "Pyensys.C166_reactive_violated",
    "Pyensys.C166_same_peak_partial",
    "Pyensys.C166_witness",
    "Pyensys.C166_order_violated"
   ],
   "note": "Proved for sheets with the same buses in the same order but for the peak of the reactive load; violated: the reactive peak is the active one, and rows of the other sheets are taken by position."
  },
  {
   "property": "C167",
   "status": "partial",
   "theorems": [
    "Pyensys.C167_recovery_partial",
    "Pyensys.C167_discount_violated",
    "Pyensys.C167_given_partial",
    "Pyensys.C167_witness"
   ],
   "note": "Capital recovery proved for every rate that is accepted; violated: the discount factors are 1/(1-d)^y and grow; with two or more years the rates 1, 0 and -2 raise ZeroDivisionError."
  },
  {
   "property": "C168",
   "status": "proved",
   "theorems": [
    "Pyensys.C168_restore",
    "Pyensys.C168_given",
    "Pyensys.C168_witness"
   ],
   "note": "Round trip, frame and exact condition for success."
  },
  {
   "property": "C169",
   "status": "partial",
   "theorems": [
    "Pyensys.C169_lengths_partial",
    "Pyensys.C169_costs_partial",
    "Pyensys.C169_default_partial",
    "Pyensys.C169_unknown_violated",
    "Pyensys.C169_twice_violated",
    "Pyensys.C169_witness"
   ],
   "note": "Lengths always agree; costs are those of the first place of the size (iff); violated: a size that occurs twice has the first cost, a size that is not in the catalogue stops the program."
  },
  {
   "property": "C170",
   "status": "partial",
   "theorems": [
    "Pyensys.C170_content_partial",
    "Pyensys.C170_years_violated",
    "Pyensys.C170_operation_violated",
    "Pyensys.C170_witness"
   ],
   "note": "All entries proved but for the operation cost of the path; violated: it is the same number for every path, yearly operation costs are zero if it is zero, more than four years raise IndexError."
  },
  {
   "property": "C171",
   "status": "proved",
   "theorems": [
    "Pyensys.C171_record",
    "Pyensys.C171_initial",
    "Pyensys.C171_invest",
    "Pyensys.C171_witness"
   ],
   "note": "Yearly peaks; the version with seasons, days and hours is not modelled."
  },
  {
   "property": "C172",
   "status": "partial",
   "theorems": [
    "Pyensys.C172_set_get_partial",
    "Pyensys.C172_history_partial",
    "Pyensys.C172_unknown_violated",
    "Pyensys.C172_new_partial",
    "Pyensys.C172_witness",
    "Pyensys.C172_kinds_partial",
    "Pyensys.C172_objects_partial"
   ],
   "note": "C172_set_get_partial, C172_history_partial, C172_new_partial prove reading after setting, kinds and non-interference for every history; C172_unknown_violated: an unknown name is silently ignored by set_element and read as None."
  },
  {
   "property": "C173",
   "status": "partial",
   "theorems": [
    "Pyensys.C173_positions_partial",
    "Pyensys.C173_live_violated",
    "Pyensys.C173_witness"
   ],
   "note": "C173_positions_partial proves element, list of elements (a new list) and length; C173_live_violated: ':' returns the list of the device itself, so changes by the caller change the device."
  },
  {
   "property": "C174",
   "status": "partial",
   "theorems": [
    "Pyensys.C174_transfer_partial",
    "Pyensys.C174_shared_violated",
    "Pyensys.C174_empty_violated",
    "Pyensys.C174_witness",
    "Pyensys.C174_empty_witness"
   ],
   "note": "C174_transfer_partial: objects and parameters are those of the other network. C174_shared_violated: the two share their lists in every later state. C174_empty_violated: no transfer if a list of devices of some kind is empty in either network."
  },
  {
   "property": "C175",
   "status": "proved",
   "theorems": [
    "Pyensys.C175_tables",
    "Pyensys.C175_reported",
    "Pyensys.C175_witness",
    "Pyensys.C175_reported_witness"
   ],
   "note": "C175_tables: all functions return, shapes, the plan is the one GLPK found; C175_reported: the reported tables obey the rules of C149 and are cheapest."
  },
  {
   "property": "C176",
   "status": "proved",
   "theorems": [
    "Pyensys.C176_states",
    "Pyensys.C176_duals",
    "Pyensys.C176_witness"
   ],
   "note": "C176_states and C176_duals, with the hypotheses of C148 (no uncertainty, non-negative states)."
  },
  {
   "property": "C177",
   "status": "partial",
   "theorems": [
    "Pyensys.C177_shown_partial",
    "Pyensys.C177_no_position_violated",
    "Pyensys.C177_hdf5_network_violated",
    "Pyensys.C177_excel_tree_violated",
    "Pyensys.C177_repeated_violated"
   ],
   "note": "Proved for networks in Excel files and trees in HDF5 files, for every list of regular values: C177_shown_partial. Missing because false: HDF5 tables of networks are always empty (the position is compared with the letters of a type name), nothing is written without a position, the Excel sheet of a tree raises, an output asked for twice has an empty second sheet."
  },
  {
   "property": "C178",
   "status": "partial",
   "theorems": [
    "Pyensys.C178_closed_partial",
    "Pyensys.C178_close_violated",
    "Pyensys.C178_endless_violated"
   ],
   "note": "Termination for regular values is part of C177_shown_partial (save_results returns with enough rounds). Missing because false: a value without identifier makes save_results fail or run forever (C178_endless_violated); close_output_files raises without HDF5 outputs (C178_close_violated)."
  },
  {
   "property": "C179",
   "status": "partial",
   "theorems": [
    "Pyensys.C179_transformers_partial",
    "Pyensys.C179_junk_violated",
    "Pyensys.C179_short_violated",
    "Pyensys.C179_watts_violated",
    "Pyensys.C179_cut_violated",
    "Pyensys.C179_witness"
   ],
   "note": "Proved for every list of transformers with both kinds present, units 1 and 2, reactances of a star within a factor of 100 of each other, and section at line 14554. Missing because false: files with one kind only get a branch of arbitrary numbers; shorter files raise; large reactances are cut; losses in watts are divided by the wrong base."
  },
  {
   "property": "C180",
   "status": "partial",
   "theorems": [
    "Pyensys.C180_buses_partial",
    "Pyensys.C180_single_violated",
    "Pyensys.C180_version_violated"
   ],
   "note": "Proved for every number of buses from two on. Missing because false: a single bus raises TypeError; the version has no influence on what is read."
  },
  {
   "property": "C181",
   "status": "partial",
   "theorems": [
    "Pyensys.C181_network_partial",
    "Pyensys.C181_demand_partial",
    "Pyensys.C181_demand_violated",
    "Pyensys.C181_reactive_violated",
    "Pyensys.C181_voltage_violated",
    "Pyensys.C181_transformer_violated",
    "Pyensys.C181_cost_violated",
    "Pyensys.C181_hydro_violated",
    "Pyensys.C181_isolated_violated",
    "Pyensys.C181_charging_violated",
    "Pyensys.C181_witness"
   ],
   "note": "Proved for every regular network: buses, generators, lines and transformers (C181_network_partial), demand of buses numbered 1, 2, ... (C181_demand_partial). Missing because false: demand goes to the bus whose number is the position plus one, reactive demand without active demand is lost, generator voltages have no effect, transformer impedances are on the wrong base, costs are per unit of base power, hydropower and line charging are left out, generators at isolated buses become references."
  },
  {
   "property": "C182",
   "status": "partial",
   "theorems": [
    "Pyensys.C182_tables_partial",
    "Pyensys.C182_names_violated",
    "Pyensys.C182_numbers_violated",
    "Pyensys.C182_cost_violated",
    "Pyensys.C182_total_violated",
    "Pyensys.C182_cost_partial",
    "Pyensys.C182_total_partial"
   ],
   "note": "Proved for every network with conventional generators only and buses numbered 1, 2, ... (C182_tables_partial); when active and reactive power are equal every cost is that of the active power (C182_cost_partial); with one period the objective is the weighted sum (C182_total_partial). Missing because false: with any other generator or numbering AttributeError; costs come from reactive power; the total is that of the last period."
  },
  {
   "property": "C183",
   "status": "proved",
   "theorems": [
    "Pyensys.C183_titles",
    "Pyensys.C183_titleError",
    "Pyensys.C183_idColumn",
    "Pyensys.C183_noId",
    "Pyensys.C183_sheet",
    "Pyensys.C183_ignored",
    "Pyensys.C183_stored",
    "Pyensys.C183_traceless",
    "Pyensys.C183_witness"
   ],
   "note": "For every sheet: C183_titles, C183_idColumn and C183_sheet (entries of all rows and columns, with characteristics), C183_noId and C183_titleError (errors), C183_stored/C183_ignored (what happens with each accepted title), C183_traceless (an element with characteristics only leaves no trace)."
  },
  {
   "property": "C184",
   "status": "partial",
   "theorems": [
    "Pyensys.C184_sheet_partial",
    "Pyensys.C184_model_partial",
    "Pyensys.C184_repeated_violated",
    "Pyensys.C184_noGap_violated",
    "Pyensys.C184_witness"
   ],
   "note": "C184_sheet_partial and C184_model_partial prove it for every sheet whose parts are separated by empty rows and give no level twice. What happens otherwise is proved too: C184_repeated_violated (a repeated level overwrites the first node), C184_noGap_violated (the next title is read as a level). Missing: sheets with cells that are neither."
  },
  {
   "property": "C185",
   "status": "partial",
   "theorems": [
    "Pyensys.C185_sheet_partial",
    "Pyensys.C185_unknownName_violated",
    "Pyensys.C185_shunt_violated",
    "Pyensys.C185_names_partial",
    "Pyensys.C185_witness"
   ],
   "note": "C185_sheet_partial proves it for every sheet with at least one and at most 19 empty rows between the blocks and known names. C185_unknownName_violated: a block with an unknown name and 20 or more elements ends the reading silently; C185_shunt_violated: 'Shunt susceptance' of buses is taken for that of branches; C185_names_partial: the other titles agree."
  },
  {
   "property": "C186",
   "status": "partial",
   "theorems": [
    "Pyensys.C186_correlate_partial",
    "Pyensys.C186_off_partial",
    "Pyensys.C186_entry_partial",
    "Pyensys.C186_unknownId_partial",
    "Pyensys.C186_sheet_partial",
    "Pyensys.C186_witness",
    "Pyensys.C186_overlap_violated",
    "Pyensys.C186_overlapOrder_partial",
    "Pyensys.C186_subtypeCase_violated",
    "Pyensys.C186_groupNumber_violated"
   ],
   "note": "C186_correlate_partial proves it for every model and list of profiles (any number, any order), provided that profiles of the same type, subtype, name and ID agree on group and zone, an ID is that of exactly one element, and no profile with an ID comes after one for all that covers its element. C186_overlap_violated: without the last condition the first hour is lost. C186_sheet_partial links the elements to the sheets, C186_unknownId_partial the error, C186_subtypeCase_violated and C186_groupNumber_violated what a user can run into."
  },
  {
   "property": "C187",
   "status": "proved",
   "theorems": [
    "Pyensys.C187_options",
    "Pyensys.C187_noActive",
    "Pyensys.C187_lengths",
    "Pyensys.C187_noProblem",
    "Pyensys.C187_active",
    "Pyensys.C187_losses",
    "Pyensys.C187_witness"
   ],
   "note": "the sheet with its five columns; errors for missing columns and different lengths. Findings: only the misspelt 'Lossess' is known; names that are not known share one nameless option"
  },
  {
   "property": "C188",
   "status": "partial",
   "theorems": [
    "Pyensys.C188_sheet_partial",
    "Pyensys.C188_item_partial",
    "Pyensys.C188_value_partial",
    "Pyensys.C188_for_partial",
    "Pyensys.C188_all_partial",
    "Pyensys.C188_update_partial",
    "Pyensys.C188_single_violated",
    "Pyensys.C188_or_violated",
    "Pyensys.C188_endless_violated",
    "Pyensys.C188_variable_violated",
    "Pyensys.C188_uc_violated",
    "Pyensys.C188_witness"
   ],
   "note": "blocks and the expansion of connections for all the elements of a type are proved; false of the code: connections for a single element never reach the model, and it is enough that subtype, group or zone agree; a block without 'end' never returns"
  },
  {
   "property": "C189",
   "status": "partial",
   "theorems": [
    "Pyensys.C189_item_partial",
    "Pyensys.C189_sheet_partial",
    "Pyensys.C189_lists_partial",
    "Pyensys.C189_lower_violated",
    "Pyensys.C189_variable_partial",
    "Pyensys.C189_endless_violated",
    "Pyensys.C189_witness"
   ],
   "note": "blocks are proved; false of the code: texts, so also IDs, are written in lower case; rows named after a variable raise unless the value is 'all' or a variable; a block without 'end' never returns"
  },
  {
   "property": "C190",
   "status": "partial",
   "theorems": [
    "Pyensys.C190_sheet_partial",
    "Pyensys.C190_item_partial",
    "Pyensys.C190_element_partial",
    "Pyensys.C190_type_violated",
    "Pyensys.C190_short_violated",
    "Pyensys.C190_order_violated",
    "Pyensys.C190_none_violated",
    "Pyensys.C190_single_violated",
    "Pyensys.C190_witness"
   ],
   "note": "tables with single values first and coefficients last are proved; false of the code: coefficients elsewhere end the reading silently, tables without coefficients give nothing, a table with coefficients only raises, the element is searched by its ID alone"
  },
  {
   "property": "C191",
   "status": "partial",
   "theorems": [
    "Pyensys.C191_kind_partial",
    "Pyensys.C191_parts_partial",
    "Pyensys.C191_order_partial",
    "Pyensys.C191_connections_partial",
    "Pyensys.C191_before_violated",
    "Pyensys.C191_twice_violated",
    "Pyensys.C191_model_partial",
    "Pyensys.C191_periods_partial",
    "Pyensys.C191_silent_violated",
    "Pyensys.C191_paths_violated",
    "Pyensys.C191_witness"
   ],
   "note": "order independence is proved for workbooks without connections (within elements the order of types is kept); false of the code: connections before elements raise a KeyError, a second sheet of connections doubles the first, a column 'paths' raises, profiles without 'representative periods' are left out silently"
  },
  {
   "property": "C192",
   "status": "partial",
   "theorems": [
    "Pyensys.C192_gen_cur_witness",
    "Pyensys.C192_percentage_witness",
    "Pyensys.C192_profiles_witness",
    "Pyensys.C192_profiles_partial",
    "Pyensys.C192_network_partial",
    "Pyensys.C192_coupled_partial",
    "Pyensys.C192_gen_cur_violated",
    "Pyensys.C192_percentage_violated",
    "Pyensys.C192_detailed_violated"
   ],
   "note": "Proved for the network model (C192_network_partial) and the coupled one (C192_coupled_partial), with the profiles (C192_profiles_partial). The code violates the rest: column gen_cur holds renewable generation without feasibility and in the dispatch, saving percentage losses raises NameError, detailed results always raise AttributeError."
  },
  {
   "property": "C193",
   "status": "partial",
   "theorems": [
    "Pyensys.C193_witness",
    "Pyensys.C193_contingency_violated",
    "Pyensys.C193_pumps_violated",
    "Pyensys.C193_balance_partial",
    "Pyensys.C193_network_partial",
    "Pyensys.C193_dispatch_partial"
   ],
   "note": "Proved: the exact relation between the columns for all options (C193_balance_partial), the plain balance without contingencies, pumps or given losses (C193_network_partial) and in the dispatch (C193_dispatch_partial). Violated with contingencies (losses and curtailment are added over all states) and pumps (each pump is counted at each bus)."
  },
  {
   "property": "C194",
   "status": "partial",
   "theorems": [
    "Pyensys.C194_totals_partial",
    "Pyensys.C194_feasibility_violated",
    "Pyensys.C194_periods_violated"
   ],
   "note": "Proved with feasibility on and at most 24 periods. Violated otherwise: the day has 24 places (IndexError) and without feasibility printing raises TypeError."
  },
  {
   "property": "C195",
   "status": "partial",
   "theorems": [
    "Pyensys.C195_rows_partial",
    "Pyensys.C195_totals_partial",
    "Pyensys.C195_losses_violated",
    "Pyensys.C195_witness"
   ],
   "note": "Rows and weighted totals proved for all sizes, weights and solutions without losses (C195_rows_partial, C195_totals_partial). Fails when losses are modelled: the loss report ends the program ('Just stop', C195_losses_violated)."
  },
  {
   "property": "C196",
   "status": "partial",
   "theorems": [
    "Pyensys.C196_parts_partial",
    "Pyensys.C196_objective_partial",
    "Pyensys.C196_history_partial",
    "Pyensys.C196_tables_partial",
    "Pyensys.C196_summary_partial",
    "Pyensys.C196_summary_violated",
    "Pyensys.C196_save_partial",
    "Pyensys.C196_witness"
   ],
   "note": "Sums over every history, the split of the objective and independence of saving proved (C196_parts_partial, C196_objective_partial, C196_history_partial, C196_tables_partial, C196_save_partial). Fails when only the main results folder is given: the summary raises TypeError (C196_summary_violated)."
  },
  {
   "property": "C197",
   "status": "partial",
   "theorems": [
    "Pyensys.C197_marginal_partial",
    "Pyensys.C197_small_violated"
   ],
   "note": "The reported value is within 1 of minus the dual and exact for whole numbers; values below 1 are reported as 0 because int() drops the fraction (C197_small_violated)."
  },
  {
   "property": "C198",
   "status": "partial",
   "theorems": [
    "Pyensys.C198_losses_partial",
    "Pyensys.C198_exact_partial",
    "Pyensys.C198_directions_violated",
    "Pyensys.C198_curtailment_violated",
    "Pyensys.C198_witness"
   ],
   "note": "Sum of the printed losses in closed form for every case; exact if all flows are positive and every bus has demand. Fails for flows in both directions (signed flows in the denominator, C198_directions_violated) and for buses without demand (the first curtailment is counted again, C198_curtailment_violated)."
  },
  {
   "property": "C199",
   "status": "partial",
   "theorems": [
    "Pyensys.C199_elements_partial",
    "Pyensys.C199_lookup_partial",
    "Pyensys.C199_value_partial",
    "Pyensys.C199_ids_violated",
    "Pyensys.C199_period_violated",
    "Pyensys.C199_witness"
   ],
   "note": "Every loaded parameter belongs to the one element of its ID; the answer to a lookup is the value given last among the parameters with the same characteristics, none, or a conflict (C199_elements_partial, C199_lookup_partial, C199_value_partial). Fails for two elements with the same ID and different types (C199_ids_violated) and if a value for one period is loaded after a value for all periods (C199_period_violated)."
  },
  {
   "property": "C200",
   "status": "proved",
   "theorems": [
    "Pyensys.C200_perunit",
    "Pyensys.C200_loaded"
   ],
   "note": "For every element as loaded by Python (C200_loaded), every power in every period is divided by the base power once, everything else is unchanged. Arithmetic over the rationals; a second conversion by an update of a status is the subject of a later property."
  },
  {
   "property": "C201",
   "status": "partial",
   "theorems": [
    "Pyensys.C201_points_partial",
    "Pyensys.C201_convex_partial",
    "Pyensys.C201_quadratic_partial",
    "Pyensys.C201_range_violated",
    "Pyensys.C201_given_partial",
    "Pyensys.C201_pieces_violated",
    "Pyensys.C201_witness"
   ],
   "note": "Exact set of the admitted costs for convex polynomials and for points, error bound for quadratic costs, within the break points. Fails outside: the last break point is min + max, so that for a negative smallest output the largest output is under-costed (C201_range_violated); more pieces than lines read beyond the vectors (C201_pieces_violated)."
  },
  {
   "property": "C202",
   "status": "partial",
   "theorems": [
    "Pyensys.C202_status_violated",
    "Pyensys.C202_witness",
    "Pyensys.C202_feasible_partial",
    "Pyensys.C202_objective_partial",
    "Pyensys.C202_limit_partial",
    "Pyensys.C202_reactance_violated",
    "Pyensys.C202_coupler_violated",
    "Pyensys.C202_columns_partial",
    "Pyensys.C202_rows_partial"
   ],
   "note": "Feasibility of the program is equivalent to the separate specification CDcOpf, the objective is the cost, rows and columns have different keys. Fails for negative reactances (no solution), couplers (carry nothing) and branch states that change from period to period (no model); buses of branches must exist and differ."
  },
  {
   "property": "C203",
   "status": "partial",
   "theorems": [
    "Pyensys.C203_quadratic_partial",
    "Pyensys.C203_single_partial",
    "Pyensys.C203_witness",
    "Pyensys.C203_hourcost_violated",
    "Pyensys.C203_hours_violated",
    "Pyensys.C203_lines_partial",
    "Pyensys.C203_periods_partial",
    "Pyensys.C203_model_partial",
    "Pyensys.C203_megawatts_partial",
    "Pyensys.C203_linear_violated"
   ],
   "note": "One program per period; balance, limits and flows in megawatts as given; quadratic costs covered if the output is within the limits of the first period. Fails: linear costs count 1/base of the cost (C203_linear_violated), hours of the first element only (C203_hours_violated), cost lines of the first hour are used in all hours (C203_hourcost_violated)."
  },
  {
   "property": "C204",
   "status": "partial",
   "theorems": [
    "Pyensys.C204_start_partial",
    "Pyensys.C204_history_partial",
    "Pyensys.C204_options_violated",
    "Pyensys.C204_single_violated",
    "Pyensys.C204_one_violated",
    "Pyensys.C204_order_violated",
    "Pyensys.C204_witness",
    "Pyensys.C204_values_partial"
   ],
   "note": "Proved for models with representative periods and hours: one evaluation (C204_values_partial), any history (C204_history_partial), the engine of initialise (C204_start_partial). Violated: without one of the two options no evaluation gives results (C204_options_violated, C204_single_violated: the program ends; C204_one_violated: old values are returned as results), and the order of the subscripts matters (C204_order_violated). The point the simplex method finds is an argument of the model."
  },
  {
   "property": "C205",
   "status": "partial",
   "theorems": [
    "Pyensys.C205_limit_partial",
    "Pyensys.C205_first_partial",
    "Pyensys.C205_history_partial",
    "Pyensys.C205_ignored_violated",
    "Pyensys.C205_unknown_violated",
    "Pyensys.C205_whole_violated",
    "Pyensys.C205_status_violated",
    "Pyensys.C205_witness",
    "Pyensys.C205_twice_violated",
    "Pyensys.C205_data_partial",
    "Pyensys.C205_feasible_partial"
   ],
   "note": "Proved for new limits of generators: one update in any order of its characteristics (C205_limit_partial), and any history of evaluations and updates, in terms of the optimal power flow with the limits given last (C205_history_partial, C205_feasible_partial, C205_data_partial, C205_first_partial). Violated: other parameters are ignored with the code of success (C205_ignored_violated); an unknown element or an update for all periods writes outside the data (C205_unknown_violated, C205_whole_violated); the status of a branch is not changed, the network is put into per unit a second time and the engine cannot be evaluated any more (C205_status_violated, C205_twice_violated)."
  },
  {
   "property": "C206",
   "status": "partial",
   "theorems": [
    "Pyensys.C206_variables_partial",
    "Pyensys.C206_run_partial",
    "Pyensys.C206_ids_violated",
    "Pyensys.C206_missing_violated",
    "Pyensys.C206_before_violated",
    "Pyensys.C206_parameters_partial",
    "Pyensys.C206_several_partial",
    "Pyensys.C206_witness",
    "Pyensys.C206_periods_violated",
    "Pyensys.C206_types_violated",
    "Pyensys.C206_subtypes_violated"
   ],
   "note": "Proved: outputs of variables for any order of characteristics (C206_variables_partial), after an evaluation (C206_run_partial), outputs of parameters as the entries with the hour, type and name (C206_parameters_partial), several outputs (C206_several_partial). Violated: IDs are ignored (C206_ids_violated); an element without the variable ends the program (C206_missing_violated); so does an output before an evaluation (C206_before_violated); parameters of all representative periods are returned and those without an hour are not (C206_periods_violated); no or several types, places that start again (C206_types_violated); duplicates for several subtypes (C206_subtypes_violated). The texts of characteristics returned with the values are not modelled."
  },
  {
   "property": "C207",
   "status": "partial",
   "theorems": [
    "Pyensys.C207_run_n_partial",
    "Pyensys.C207_run_en_partial",
    "Pyensys.C207_accepted_partial",
    "Pyensys.C207_example_partial",
    "Pyensys.C207_violated_example",
    "Pyensys.C207_violated_ac",
    "Pyensys.C207_violated_res"
   ],
   "note": "Proved for run-n and run-en (C207_run_n_partial, C207_run_en_partial, C207_accepted_partial: refused exactly with a negative number of units). Violated: run-example-hydro ignores the plants, losses, feasibility and time steps asked for, run-ac the plants; run-res never reaches the engine (C207_violated_*)."
  },
  {
   "property": "C208",
   "status": "proved",
   "theorems": [
    "Pyensys.C208_contingencies"
   ],
   "note": "Exactly the lists of branch numbers are accepted, and the tables are those of the specification cliOutages."
  },
  {
   "property": "C209",
   "status": "partial",
   "theorems": [
    "Pyensys.C209_start_partial",
    "Pyensys.C209_violated_units"
   ],
   "note": "C209_start_partial: exactly the calls of run-n and run-en without renewable units, without contingencies and with a time step start, with the plants asked for. Violated for --res (the arrays are replaced by numbers) and --sec (a list of characters): C209_violated_units."
  },
  {
   "property": "C210",
   "status": "proved",
   "theorems": [
    "Pyensys.C210_profiles",
    "Pyensys.C210_hours",
    "Pyensys.C210_no_more"
   ],
   "note": "For every file that is read; numpy's repetition of single rows and numbers included (tsCell)."
  },
  {
   "property": "C211",
   "status": "proved",
   "theorems": [
    "Pyensys.C211_plants"
   ],
   "note": "For every file that is read."
  },
  {
   "property": "C212",
   "status": "partial",
   "theorems": [
    "Pyensys.C212_accepted_partial",
    "Pyensys.C212_violated_single",
    "Pyensys.C212_violated_demand"
   ],
   "note": "C212_accepted_partial gives the exact condition: fewer plants than periods in total, which the property does not ask for (C212_violated_single: sources with one period each and a plant are never read); files with only a demand give nothing (C212_violated_demand)."
  },
  {
   "property": "C213",
   "status": "partial",
   "theorems": [
    "Pyensys.C213_run_partial",
    "Pyensys.C213_violated_object",
    "Pyensys.C213_violated_clp"
   ],
   "note": "Proved for every history of calls (C213_run_partial). False for the commands: run-en with pyomo and run-example-hydro hand a model to run, which is taken for the compiled engine (C213_violated_object: AttributeError after every history without a workbook), and run('CLP') imports a module that does not exist (C213_violated_clp). Missing: nothing beyond this."
  },
  {
   "property": "C214",
   "status": "partial",
   "theorems": [
    "Pyensys.C214_inputs_partial",
    "Pyensys.C214_water_partial",
    "Pyensys.C214_violated_numbers"
   ],
   "note": "Proved for numbers of existing plants (C214_inputs_partial, C214_water_partial). False otherwise: with several plants number 0 is the last one, with one plant every number is accepted (C214_violated_numbers)."
  },
  {
   "property": "C215",
   "status": "partial",
   "theorems": [
    "Pyensys.C215_flag_partial",
    "Pyensys.C215_violated_flag",
    "Pyensys.C215_mean_partial",
    "Pyensys.C215_left_partial"
   ],
   "note": "Proved: the flag is sound, and exact for integer duals (C215_flag_partial); mean within one (C215_mean_partial); water left (C215_left_partial). False: a fraction is dropped, so the flag may be missing although the value exceeds the penalty, and the GLPK report differs (C215_violated_flag)."
  },
  {
   "property": "C216",
   "status": "partial",
   "theorems": [
    "Pyensys.C216_set_partial",
    "Pyensys.C216_words_partial",
    "Pyensys.C216_all_partial",
    "Pyensys.C216_violated_number",
    "Pyensys.C216_violated_single"
   ],
   "note": "Proved for lists of positions (C216_set_partial, C216_all_partial). False for the numbering that the other controls use: positions start at zero (C216_violated_number), and a single number raises TypeError (C216_violated_single)."
  },
  {
   "property": "C217",
   "status": "partial",
   "theorems": [
    "Pyensys.C217_exact_partial",
    "Pyensys.C217_units_partial",
    "Pyensys.C217_violated_void",
    "Pyensys.C217_violated_high",
    "Pyensys.C217_violated_flags",
    "Pyensys.C217_violated_number"
   ],
   "note": "Proved: the exact set of dispatches that is admitted (C217_exact_partial). The property is false: the services are taken from the production of all units, so that a requirement of up to the whole production excludes nothing (C217_violated_void), more excludes everything (C217_violated_high), a list of False counts as True (C217_violated_flags), and with conventional units only the default settings raise (C217_violated_number)."
  },
  {
   "property": "C218",
   "status": "partial",
   "theorems": [
    "Pyensys.C218_without_partial",
    "Pyensys.C218_with_partial",
    "Pyensys.C218_violated_void",
    "Pyensys.C218_violated_first"
   ],
   "note": "Proved: the limit without support, which is exact (C218_without_partial), and what is left of it with support (C218_with_partial). False with support: the uncertainty then excludes nothing (C218_violated_void); only the first uncertainty is used (C218_violated_first)."
  },
  {
   "property": "C219",
   "status": "partial",
   "theorems": [
    "Pyensys.C219_own_partial",
    "Pyensys.C219_violated_other",
    "Pyensys.C219_violated_none",
    "Pyensys.C219_violated_charge"
   ],
   "note": "Proved for one bus with demand or the first instance (C219_own_partial). False otherwise: the curtailment belongs to another instance (C219_violated_other) and is charged with its weight (C219_violated_charge); without demand the model cannot be built (C219_violated_none)."
  },
  {
   "property": "C220",
   "status": "partial",
   "theorems": [
    "Pyensys.C220_history_partial",
    "Pyensys.C220_node_partial",
    "Pyensys.C220_violated_second",
    "Pyensys.C220_violated_unknown"
   ],
   "note": "Proved for profiles of different types or variables and modifiers of existing profiles: any history of visits (C220_history_partial), and in the non-anticipative search a node's profiles depend on this node only (C220_node_partial). False otherwise: of two profiles of the same type and variable only the first follows (C220_violated_second), a modifier without profile scales the last profile (C220_violated_unknown)."
  },
  {
   "property": "C221",
   "status": "partial",
   "theorems": [
    "Pyensys.C221_costs_partial",
    "Pyensys.C221_generator_partial",
    "Pyensys.C221_violated_generator",
    "Pyensys.C221_violated_static",
    "Pyensys.C221_violated_grids",
    "Pyensys.C221_violated_again"
   ],
   "note": "Proved for a network without generators whose costs are those of external grid 0 (C221_costs_partial). False otherwise: with a generator 0 the grid's cost is charged to it and the grid is free (C221_violated_generator), costs of static generators are charged to generators (C221_violated_static), of several grids one is kept (C221_violated_grids), and a second power flow on the same network never runs (C221_violated_again)."
  },
  {
   "property": "C222",
   "status": "partial",
   "theorems": [
    "Pyensys.C222_verdict_partial",
    "Pyensys.C222_violated_cost",
    "Pyensys.C222_violated_verdict"
   ],
   "note": "Proved: without continue_on_divergence, a run that ends converged in all steps (C222_verdict_partial). False: the cost is that of the last step (C222_violated_cost), and with continue_on_divergence so is the verdict (C222_violated_verdict)."
  },
  {
   "property": "C223",
   "status": "partial",
   "theorems": [
    "Pyensys.C223_violated",
    "Pyensys.C223_violated_alone",
    "Pyensys.C223_violated_copies"
   ],
   "note": "The property is false for every input: no tree and no connections give a program (C223_violated): what belongs to the tree is dropped when it is stored, so that the first row ends in an exception. Without the DC OPF or connections every tree is refused (C223_violated_alone), and so is every tree whose first of several levels has more than one name (C223_violated_copies), with a code that nobody sees."
  },
  {
   "property": "C224",
   "status": "partial",
   "theorems": [
    "Pyensys.C224_variables_partial",
    "Pyensys.C224_violated_missing",
    "Pyensys.C224_violated_engine"
   ],
   "note": "Proved if every branch has its data and the option is given once for the engine fdif (C224_variables_partial). False otherwise: a branch without vTEP hides all candidates after it and the objective, silently (C224_violated_missing); with another engine there are no variables (C224_violated_engine)."
  },
  {
   "property": "C225",
   "status": "partial",
   "theorems": [
    "Pyensys.C225_time_partial",
    "Pyensys.C225_probability_partial",
    "Pyensys.C225_violated_mean",
    "Pyensys.C225_violated_never"
   ],
   "note": "Proved: the tail probabilities are exponential at whole hours (C225_time_partial, C225_probability_partial, with Lebesgue measure on the numbers drawn). False: times are rounded down, so their mean is 1/(exp(1/mean)-1), less than the mean given (C225_violated_mean), and with probability 1-exp(-1/mttr) the element never fails (C225_violated_never)."
  },
  {
   "property": "C226",
   "status": "partial",
   "theorems": [
    "Pyensys.C226_pyomo_partial",
    "Pyensys.C226_violated_renewables",
    "Pyensys.C226_violated_weights",
    "Pyensys.C226_spill_partial",
    "Pyensys.C226_violated_contingencies"
   ],
   "note": "Proved: with Pyomo and without renewables the figures are the weighted energies (C226_pyomo_partial); with GLPK the spilled energy is available less produced, without weights (C226_spill_partial). False: with renewables the report with Pyomo raises (C226_violated_renewables), the figures of the solvers agree only if all weights are 1 (C226_violated_weights, exact), GLPK adds the curtailment of contingencies (C226_violated_contingencies)."
  },
  {
   "property": "C227",
   "status": "partial",
   "theorems": [
    "Pyensys.C227_generation_partial",
    "Pyensys.C227_flows_partial",
    "Pyensys.C227_angles_partial",
    "Pyensys.C227_curtailment_partial",
    "Pyensys.C227_tables_partial",
    "Pyensys.C227_pumps_violated",
    "Pyensys.C227_services_violated",
    "Pyensys.C227_commitment_partial",
    "Pyensys.C227_commitment_violated",
    "Pyensys.C227_complete_partial",
    "Pyensys.C227_network_violated",
    "Pyensys.C227_witness",
    "Pyensys.C227_state_violated",
    "Pyensys.C227_nonetwork_violated"
   ],
   "note": "Tables of generation, flows, angles, curtailment and (with a binary variable) commitment are proved to show the solution, and the report to be complete without unit commitment. False of the code and proved so: pumps are shifted by one row, services show the last period everywhere, with unit commitment and two generators without binary variables the report raises KeyError, a generator that cannot be switched shows the state of another, NM.print without the argument raises, without a network curtailment of an instance is shown elsewhere."
  },
  {
   "property": "C228",
   "status": "partial",
   "theorems": [
    "Pyensys.C228_estimated_partial",
    "Pyensys.C228_factor_partial",
    "Pyensys.C228_total_partial",
    "Pyensys.C228_witness",
    "Pyensys.C228_direction_violated",
    "Pyensys.C228_reversed_violated",
    "Pyensys.C228_pumps_violated",
    "Pyensys.C228_curtailment_violated"
   ],
   "note": "Estimated losses are shown as they are; with a loss factor the sum is right when all flows have the direction of their branches, no pumps run and all buses have demand or nothing is curtailed. Otherwise false of the code, with witnesses (direction, reversed, pumps, curtailment)."
  },
  {
   "property": "C229",
   "status": "proved",
   "theorems": [
    "Pyensys.C229_nodes",
    "Pyensys.C229_places",
    "Pyensys.C229_rivers",
    "Pyensys.C229_violations",
    "Pyensys.C229_complete",
    "Pyensys.C229_witness"
   ],
   "note": "Through the constraints of the hydrology model (C137 and others) for every feasible solution."
  },
  {
   "property": "C230",
   "status": "partial",
   "theorems": [
    "Pyensys.C230_values_partial",
    "Pyensys.C230_others_partial",
    "Pyensys.C230_complete_partial",
    "Pyensys.C230_all_violated",
    "Pyensys.C230_format_violated",
    "Pyensys.C230_witness"
   ],
   "note": "Proved: values in every time step, other elements untouched, complete documents are read and run. Missing because false of the code: all_indexes is read but never used (no element is driven), workbooks other than .xlsx are not read."
  },
  {
   "property": "C231",
   "status": "partial",
   "theorems": [
    "Pyensys.C231_created_partial",
    "Pyensys.C231_targets_partial",
    "Pyensys.C231_existing_violated",
    "Pyensys.C231_nocost_violated",
    "Pyensys.C231_again_violated",
    "Pyensys.C231_witness"
   ],
   "note": "Proved: one new generator and cost per distinct bus; parameters of rows go to them if the case has no static generator at the bus. Missing because false of the code: a static generator of the case at the bus takes the limits instead (or IndexError without cost); after the first pypower power flow the costs are marked gen and the lookup raises."
  },
  {
   "property": "C232",
   "status": "partial",
   "theorems": [
    "Pyensys.C232_buses_partial",
    "Pyensys.C232_branches_partial",
    "Pyensys.C232_network_partial",
    "Pyensys.C232_status_violated",
    "Pyensys.C232_peak_violated",
    "Pyensys.C232_read_partial",
    "Pyensys.C232_witness"
   ],
   "note": "Proved: data of all buses and branches (C232_buses_partial, C232_branches_partial), ends and ratings in the optimisation (C232_network_partial), every complete file is read (C232_read_partial). Missing because false of the code: the active peak is the reactive demand and the reactive peak is missing (C232_peak_violated); branches out of service are in service in the Pyomo model (C232_status_violated)."
  },
  {
   "property": "C233",
   "status": "partial",
   "theorems": [
    "Pyensys.C233_conventional_partial",
    "Pyensys.C233_units_partial",
    "Pyensys.C233_limits_partial",
    "Pyensys.C233_status_violated",
    "Pyensys.C233_ragged_violated",
    "Pyensys.C233_reactive_violated",
    "Pyensys.C233_witness"
   ],
   "note": "Proved: data, costs and settings of all units (C233_conventional_partial, C233_units_partial), limits and buses in the optimisation (C233_limits_partial). Missing because false of the code: units out of service keep their capacity (C233_status_violated); cost rows of different lengths (C233_ragged_violated) and rows for reactive power (C233_reactive_violated) make the reading fail."
  },
  {
   "property": "C234",
   "status": "proved",
   "theorems": [
    "Pyensys.C234_values",
    "Pyensys.C234_witness"
   ],
   "note": "C234_values: keys are injective (decimal numbers, first underscore), nodes are the blocks of parameters in order."
  },
  {
   "property": "C235",
   "status": "proved",
   "theorems": [
    "Pyensys.C235_accepted",
    "Pyensys.C235_witness"
   ],
   "note": "C235_accepted. A case without generators or branches raises UnboundLocalError (del of the loop variable)."
  },
  {
   "property": "C236",
   "status": "proved",
   "theorems": [
    "Pyensys.C236_edges",
    "Pyensys.C236_witness"
   ],
   "note": "C236_edges: the edges are a permutation of the specified ones."
  },
  {
   "property": "C237",
   "status": "partial",
   "theorems": [
    "Pyensys.C237_single_partial",
    "Pyensys.C237_series_partial",
    "Pyensys.C237_unknown_partial",
    "Pyensys.C237_violated_unknown",
    "Pyensys.C237_violated_section",
    "Pyensys.C237_violated_periods",
    "Pyensys.C237_violated_bar"
   ],
   "note": "Proved from the document to the call for complete documents (C237_single_partial, C237_series_partial) and that unknown solvers raise with inter_temporal (C237_unknown_partial). False otherwise: without inter_temporal an unknown solver or type runs no power flow silently (C237_violated_unknown); without the section pandapower_optimisation_settings the default solver is not used (C237_violated_section); without time settings an inter-temporal run covers no period (C237_violated_periods); pypower ignores the progress bar (C237_violated_bar)."
  },
  {
   "property": "C238",
   "status": "partial",
   "theorems": [
    "Pyensys.C238_writer_partial",
    "Pyensys.C238_violated_no_time"
   ],
   "note": "Proved for documents with output and time settings (C238_writer_partial). Without time settings there is no writer (C238_violated_no_time). That pandapower's writer records what it is told to is outside the model."
  },
  {
   "property": "C239",
   "status": "partial",
   "theorems": [
    "Pyensys.C239_fresh_partial",
    "Pyensys.C239_network_partial",
    "Pyensys.C239_violated_settings",
    "Pyensys.C239_violated_units"
   ],
   "note": "Proved for documents with a case file, a problem section and a pandapower section (C239_fresh_partial, C239_network_partial). Without them settings, case, writer and generators of the previous file stay (C239_violated_settings, C239_violated_units)."
  },
  {
   "property": "C240",
   "status": "partial",
   "theorems": [
    "Pyensys.C240_saved_partial",
    "Pyensys.C240_plan_partial",
    "Pyensys.C240_violated"
   ],
   "note": "The list of tables can be saved and the file holds exactly their rows (C240_saved_partial, C240_plan_partial). The value that main_access_function returns is a pair of that list and the information of the search (or None), for which save_in_json always raises TypeError and writes nothing (C240_violated; the repository's own test of GeneralManager does this)."
  },
  {
   "property": "C241",
   "status": "partial",
   "theorems": [
    "Pyensys.C241_violated",
    "Pyensys.C241_file_partial"
   ],
   "note": "The file is written only by a save that succeeds, and holds what the value holds then (C241_file_partial). Saving replaces the tables of its argument by dictionaries; a second save raises AttributeError (C241_violated)."
  },
  {
   "property": "C242",
   "status": "partial",
   "theorems": [
    "Pyensys.C242_json_partial",
    "Pyensys.C242_violated"
   ],
   "note": "Proved for name.json in any directory (C242_json_partial). Any other extension, .JSON included, gives the default parameters without an error (C242_violated)."
  },
  {
   "property": "C243",
   "status": "proved",
   "theorems": [
    "Pyensys.C243_lookahead"
   ],
   "note": "C243_lookahead. No code calls the look-ahead; its effects are those of the method of the class."
  },
  {
   "property": "C244",
   "status": "partial",
   "theorems": [
    "Pyensys.C244_lists_partial",
    "Pyensys.C244_hour_partial",
    "Pyensys.C244_constant_partial",
    "Pyensys.C244_violated_hour",
    "Pyensys.C244_violated_first",
    "Pyensys.C244_violated_position",
    "Pyensys.C244_violated_all_elements",
    "Pyensys.C244_violated_all_hours",
    "Pyensys.C244_violated_no_hours",
    "Pyensys.C244_violated_build"
   ],
   "note": "Proved for requests without a position, for lists of elements and lists of hours other than 0 or one hour other than 0 (C244_lists_partial, C244_hour_partial), and for values that do not change in time (C244_constant_partial), on networks that the caller built. False otherwise: hour 0 counts as no hour, so that the value of another hour is returned (C244_violated_hour, C244_violated_first); every request with a position, for all elements or for all hours ends in an exception (C244_violated_position, _all_elements, _all_hours); lists without hours are refused (C244_violated_no_hours); the graph built by the model itself holds none of its parameters (C244_violated_build)."
  },
  {
   "property": "C245",
   "status": "partial",
   "theorems": [
    "Pyensys.C245_violated_network",
    "Pyensys.C245_violated_read",
    "Pyensys.C245_violated_tree"
   ],
   "note": "False for every model: with an element in the graph setting ends in an exception, without one nothing is set (C245_violated_network, C245_violated_tree); whenever setting and reading succeed, None is read (C245_violated_read)."
  },
  {
   "property": "C246",
   "status": "partial",
   "theorems": [
    "Pyensys.C246_loaded_partial",
    "Pyensys.C246_violated_sheet",
    "Pyensys.C246_violated_option",
    "Pyensys.C246_violated_empty"
   ],
   "note": "Proved for data whose values have their declared types, with all three sheets, options with known names and characteristics with different names and no empty lists (C246_loaded_partial). False otherwise: without buses, generators or branches loading raises (C246_violated_sheet); an option with another name takes the value loaded before it (C246_violated_option); a characteristic with an empty list is dropped (C246_violated_empty)."
  }
 ]
}