{
 "C100": {
  "status": "partial",
  "note": "C100_hours_partial proves it for every solver result; hours in which the optimisation is infeasible are stored as zero curtailment (C100_infeasible_violated). The optimisation model itself is a parameter."
 },
 "C101": {
  "status": "partial",
  "note": "Connections, totality and unknown buses proved; a single rural load type is stored as a list instead of a number: C101_load_type_violated."
 },
 "C102": {
  "status": "partial",
  "note": "The objective is the expected weighted sum of the cost variables, but these already carry the weight, so generation costs count with the square of the weight: C102_weights_violated; with unit weights it is as expected."
 },
 "C103": {
  "status": "partial",
  "note": "Conservation proved for estimated losses in every security scenario and for precalculated losses in the intact network, with pumps at different buses. Fails otherwise: of two pumps at one bus the first is in no balance, a pump is counted at position bus number minus one, and precalculated losses raise an IndexError in contingencies."
 },
 "C104": {
  "status": "partial",
  "note": "Proved exactly for flows within the range of the points (3 per unit by default); beyond the last point losses below the quadratic ones are admissible."
 },
 "C105": {
  "status": "proved",
  "note": ""
 },
 "C106": {
  "status": "partial",
  "note": "Proved for links to existing profiles and for the defaults; with fewer profiles than scenarios the defaults raise an IndexError, and a link to profile zero silently uses the last profile."
 },
 "C107": {
  "status": "partial",
  "note": "Minimum times hold for a unit if every committed conventional unit before it has the same kind of minimum time (C107_down_partial, C107_up_partial, for M <= N). Violated otherwise: the rules use the number of the minimum-time variable as number of the binary variable, i.e. that of another unit (C107_other_unit_violated: any schedule is allowed); no unit can be switched in the first period, so admissible schedules are excluded (C107_first_period_violated)."
 },
 "C108": {
  "status": "partial",
  "note": "Proved with and without unit commitment, and the derated maximum without unit commitment. Violated with unit commitment and cooling for units without minimum output (not derated), and the minimum output is not derated, so a strong derating makes the problem infeasible."
 },
 "C109": {
  "status": "partial",
  "note": "The ramp constraints are characterised exactly (iff), and the choice of settings for one, all or no values. Violated for a list of two or more settings shorter than the number of units: IndexError instead of no limit."
 },
 "C110": {
  "status": "partial",
  "note": "Proved without types and with pairwise different types. Violated for equal types: the search for repeated cases compares with overwritten links, so a unit may get the temperature of another (C110_same_type_violated)."
 },
 "C111": {
  "status": "partial",
  "note": "Proved for equal weights when some hydropower unit has baseload. Violated: the baseload of conventional units is ignored if no hydropower unit has baseload, and with unequal weights constant production is infeasible."
 },
 "C112": {
  "status": "partial",
  "note": "Proved for links to existing profiles, the default links and the single profile. Violated for link 0, which uses the last profile instead of being rejected."
 },
 "C113": {
  "status": "partial",
  "note": "Holds for flows, voltages, losses, generation, costs, pumps and curtailment, and for binaries when the declared range is large enough; C113_binaries_violated: binary variables of later instances lie outside the declared range (KeyError) when few units need them."
 },
 "C114": {
  "status": "proved",
  "note": "All trees of periods and names with weights for every name (first period without uncertainty)."
 },
 "C115": {
  "status": "proved",
  "note": "All trees, inputs, outputs and feasible solutions; the water is given to the first name of the first period only, as set_Hydro does."
 },
 "C116": {
  "status": "proved",
  "note": "Reports as weighted sums, totals by class and load type, conservation law, spilled renewables; losses are those of the solution because the program's own report of losses fails (C117)."
 },
 "C117": {
  "status": "partial",
  "note": "Positive parts: no losses, net demand without demand. Violated: get_AllLoss never returns with losses and a branch; get_NetDemand never returns with demand; list load types raise; bus 0 is the last bus; without demand profiles the report uses the period's value while the balance uses the first."
 },
 "C118": {
  "status": "partial",
  "note": "Equal if all period weights are 1; violated otherwise (parts ignore period weights)."
 },
 "C119": {
  "status": "partial",
  "note": "Stored exactly for 1..Number, averages, initial profiles; violated: unknown scenarios ignored silently, negative numbers overwrite another scenario, 0 raises, only the first 24 values count for two periods."
 },
 "C120": {
  "status": "proved",
  "note": "All units, profiles; overwriting."
 },
 "C121": {
  "status": "partial",
  "note": "Capacity, off and status of elements other than the first; violated: switching on divides the per-unit maximum by the base again, cannot undo off; element 0 refused."
 },
 "C122": {
  "status": "partial",
  "note": "C122_supernodes_partial: whenever the search succeeds the supernodes are the components, and it succeeds whenever the recursion limit exceeds the number of low buses. C122_recursion_violated: a chain of low buses longer than Python's recursion limit raises RecursionError."
 },
 "C123": {
  "status": "proved",
  "note": "C123_demand"
 },
 "C124": {
  "status": "partial",
  "note": "C124_losses_partial: exact surplus (losses of elements replaced by artificial lines are counted twice when a supernode has several coupling buses); C124_violated: concrete network."
 },
 "C125": {
  "status": "proved",
  "note": "C125_numbers"
 },
 "C126": {
  "status": "partial",
  "note": "C126_generators_partial: holds when every low bus comes after every high bus; C126_violated: otherwise generators of kept buses may move to a supernode."
 },
 "C127": {
  "status": "partial",
  "note": "False for networks in which a group of buses below the level has no way up (IndexError) or no line lies at or above the level (C127_fails_violated). C127_succeeds_partial: all other consistent networks are reduced; C127_exactly_partial: success exactly in these cases."
 },
 "C128": {
  "status": "partial",
  "note": "C128_ends_partial: ends of every element by number and position; C128_violated: coupling buses do not list the artificial lines."
 },
 "C129": {
  "status": "partial",
  "note": "C129_branches_partial: which branches are in the tables; C129_violated: the original positions of preserved branches are wrong."
 },
 "C130": {
  "status": "partial",
  "note": "Fails: C130_no_elements_violated, every network without element in service raises AssertionError. C130_succeeds_partial: on well formed networks it succeeds exactly when some element is in service (content: C131_islands)."
 },
 "C131": {
  "status": "proved",
  "note": "C131_islands for any correct components (refComponents_ok: they exist)"
 },
 "C132": {
  "status": "partial",
  "note": "Fails: C132_order_violated, positions are in the order of the bus table, and an element from a bus to itself raises IndexError. C132_order_partial: elements naming their buses in table order get the right positions."
 },
 "C133": {
  "status": "partial",
  "note": "Fails: C133_delete_generators_violated, for every network no bus lists any generator of the type afterwards and no island holds any. C133_other_types_partial: the network's own lists are right and other types are untouched."
 },
 "C134": {
  "status": "proved",
  "note": "C134_delete_elements"
 },
 "C135": {
  "status": "partial",
  "note": "C135_parts_partial proves the division for all rivers and all given parts (positive); C135_again_partial that re-initialising undivided rivers gives the same model. Violations: a zero among the parts stops the division (C135_zero_violated), more parts than rivers is a ValueError (C135_rows_violated), re-initialising two or more rivers of which one is divided is an IndexError (C135_again_violated) and a single divided river is divided again (C135_single_violated)."
 },
 "C136": {
  "status": "partial",
  "note": "C136_network_partial proves the tables for every network whose rivers join different pairs of nodes; C136_parallel_violated: two rivers between the same nodes always raise IndexError."
 },
 "C137": {
  "status": "partial",
  "note": "C137_conservation_partial, C137_day_partial prove the balance for every network, scenario and period (nodes numbered from 1, one input and one output per node); C137_witness is a concrete solution. Violation: of two inputs at a node the first is lost (C137_double_violated)."
 },
 "C138": {
  "status": "partial",
  "note": "C138_shares_partial proves the proportions for every node; violation: a zero share before the last river of a junction is a ZeroDivisionError (C138_zero_violated, C138_zero_example_violated)."
 },
 "C139": {
  "status": "partial",
  "note": "C139_average_partial proves the weighted average, its weights and the positive slope; violation: the flow of the full river is not the maximum, as the computed maximum volume is never used (C139_full_violated)."
 },
 "C14": {
  "status": "partial",
  "note": "The property is false of the code: C14_leaf_lowers_times_violated (every non-root leaf) and C14_violated (observable in the recorded plan). Proved remainder: all times shift by one common non-positive amount."
 },
 "C140": {
  "status": "partial",
  "note": "C140_limits_partial proves that every excess is paid in the penalty and that without penalty limits hold; violation: with the option off one common slack remains (C140_feas_violated)."
 },
 "C141": {
  "status": "partial",
  "note": "Violated: the ramp constraints compare a flow with itself (C141_ramp_violated) and the user's ramps are not read, a single one is a ValueError (C141_values_violated)."
 },
 "C142": {
  "status": "partial",
  "note": "C142_storage_partial proves the capacity and the cycle; violations: storage cannot be used in the first period (C142_first_violated), capacity is truncated to whole units (C142_small_violated), of two units at a node the first is lost (C142_double_violated)."
 },
 "C143": {
  "status": "partial",
  "note": "C143_links_partial proves the links; violations: no links is an UnboundLocalError (C143_none_violated), the scenario of a single controlled input is ignored (C143_controlled_violated)."
 },
 "C144": {
  "status": "partial",
  "note": "C144_outputs_partial proves the minimum outflow; violation: an output on no river is an IndexError (C144_no_river_violated), so outputs are always on a river."
 },
 "C145": {
  "status": "partial",
  "note": "C145_downstream_partial, C145_output_partial prove the limits for units with rivers downstream and at outputs; violations: a unit with rivers downstream that is not at an output frees the unit at the last output (C145_last_violated; C145_witness has a solution with 100000 MW), units at no output and without rivers downstream are unlimited (C145_nowhere_violated), of two units at an output the first is unlimited (C145_double_violated)."
 },
 "C146": {
  "status": "partial",
  "note": "C146_intake_partial and C146_delivery_partial prove intake and delivery for a pump to a node that is not an input; violations: pumps to an input use the variable of the pump before (C146_input_violated), worse efficiency lifts more water, so pumping and generating gains energy (C146_efficiency_violated), without hydropower units there is no link (C146_no_hydro_violated)."
 },
 "C147": {
  "status": "partial",
  "note": "C147_cycle_partial proves the cycle for every instance; violations: fixed flows are discarded (C147_fixed_violated), the length of periods is multiplied again on every initialisation (C147_length_violated), pump nodes become energy vectors on re-initialisation (C147_vectors_violated)."
 },
 "C148": {
  "status": "partial",
  "note": "GLPK and Pyomo describe the same plans for every tree without uncertainty and every call succeeds (C148_runs_partial, C148_same_partial, C148_returned_partial). False with uncertainty: IndexError (C148_uncertain_violated). With data that would need negative storage there is no plan and numbers are returned silently (C148_negative_violated)."
 },
 "C149": {
  "status": "partial",
  "note": "The points of the linear program are exactly the plans of the network rules (C149_plans_partial, C149_all_plans_partial); the system balances (C149_total_partial). The balance per bus holds without pumps and isolated buses (C149_balance_partial); pumps are counted at every bus (C149_pumps_violated) and an isolated bus is a free source (C149_isolated_violated)."
 },
 "C150": {
  "status": "partial",
  "note": "C150_flows_partial for contingencies that match a branch. A rating of 0 means flow 0 (C150_rate_violated); a contingency that matches no branch aborts or loses the flow law (C150_unmatched_violated, C150_merged_violated)."
 },
 "C151": {
  "status": "partial",
  "note": "The objective and its optimality are proved (C151_objective_partial, C151_cheapest_partial, C151_value_partial); the cost is the right one if every period is one hour (C151_hour_partial); hours are counted twice in the unit costs otherwise (C151_hours_violated)."
 },
 "C152": {
  "status": "partial",
  "note": "False in every case: AttributeError (C152_violated)."
 },
 "C153": {
  "status": "partial",
  "note": "Plans, water and objective are proved for every tree without uncertainty (C153_plans_partial, C153_water_partial, C153_objective_partial); the call succeeds under side conditions (C153_runs_partial) and fails for ramps that are not positive, more than 11 trees with more than 10 instances, renewable units in the economic dispatch (C153_ramp_violated, C153_names_violated, C153_res_violated); trees without unit are tied to costs (C153_units_violated)."
 },
 "C154": {
  "status": "partial",
  "note": "Proved for well formed networks with bounds in order (C154_runs_partial); fails for zero demand, low profiles, units without pieces, a single branch with contingencies, loops, more renewable than conventional units, unequal numbers of pieces (C154_*_violated)."
 },
 "C155": {
  "status": "partial",
  "note": "Proved without demand losses (C155_feasible_partial, C155_returned_partial); with losses as a share of demand there may be no plan (C155_loss_violated)."
 },
 "C156": {
  "status": "proved",
  "note": "C156_numeral: every decimal numeral is read with its exact (rational) value; C156_only_numerals: nothing else is; C156_refused: every other text raises ValueError. float() rounding, inf/nan and underscores are outside the model (DESIGN)."
 },
 "C157": {
  "status": "partial",
  "note": "C157_file_partial for every file of the layout and all three copies of the converter. Violated: a constant cost coefficient not written as a whole number is refused by the version in use (C157_cost_violated)."
 },
 "C158": {
  "status": "partial",
  "note": "C158_agree_partial on the notation and layout both understand (witness C158_witness). Violated outside it: 1E2 is 100 for one and 12 for the other; two bus matrices are joined by one and the last one kept by the other (C158_violated)."
 },
 "C159": {
  "status": "partial",
  "note": "C159_bad_row_partial: a line in a matrix that is not a row raises. Violated: glued names give an empty network (C159_glued_violated), fractions in whole-number columns are cut off (C159_truncated_violated), numbers on the opening line are ignored (C159_first_line_violated), half of a piecewise cost is dropped (C159_piecewise_violated)."
 },
 "C160": {
  "status": "partial",
  "note": "C160_path_partial for every folder but the root and every name. Violated: a file without a folder raises IndexError (C160_bare_violated) and one in the root is looked for in the current folder (C160_root_violated)."
 },
 "C161": {
  "status": "partial",
  "note": "C161_round_trip_partial for every network whose generators have a cost coefficient. Violated: hydropower, renewables and shunts are not written (C161_lost_violated), reactive limits are not scaled (C161_reactive_violated), a generator without coefficients makes an unreadable file (C161_costless_violated)."
 },
 "C162": {
  "status": "partial",
  "note": "C162_content_partial gives the exact content of every saved report; C162_empty_partial: a plan without lines is reported. Violated for every other plan: no saved report shows any intervention (C162_violated), a plan that builds a line in the first or last scenario always raises (C162_raises_violated, C162_raises_last_violated, C162_run_violated for a whole run of the search), anticipative problems raise TypeError (C162_anticipative_violated)."
 },
 "C163": {
  "status": "partial",
  "note": "C163_first_partial: the cost of scenario 0 is reported. Violated: scenarios numbered from 1 (C163_from_one_violated), second scenario of plans without lines (C163_second_violated)."
 },
 "C164": {
  "status": "partial",
  "note": "C164_name_partial for every folder/name.extension. Violated: no folder or no extension raises IndexError after the search (C164_bare_violated)."
 },
 "C165": {
  "status": "proved",
  "note": "Exact characterisation (iff) of success and result; negative hours, which count from the end in Python, are not in the statement."
 },
 "C166": {
  "status": "partial",
  "note": "Proved for sheets with the same buses in the same order but for the peak of the reactive load; violated: the reactive peak is the active one, and rows of the other sheets are taken by position."
 },
 "C167": {
  "status": "partial",
  "note": "Capital recovery proved for every rate that is accepted; violated: the discount factors are 1/(1-d)^y and grow; with two or more years the rates 1, 0 and -2 raise ZeroDivisionError."
 },
 "C168": {
  "status": "proved",
  "note": "Round trip, frame and exact condition for success."
 },
 "C169": {
  "status": "partial",
  "note": "Lengths always agree; costs are those of the first place of the size (iff); violated: a size that occurs twice has the first cost, a size that is not in the catalogue stops the program."
 },
 "C17": {
  "status": "proved",
  "note": "Monotone over every call of solve made in the run; the recording step keeps the cheaper of incumbent and recorded plan."
 },
 "C170": {
  "status": "partial",
  "note": "All entries proved but for the operation cost of the path; violated: it is the same number for every path, yearly operation costs are zero if it is zero, more than four years raise IndexError."
 },
 "C171": {
  "status": "proved",
  "note": "Yearly peaks; the version with seasons, days and hours is not modelled."
 },
 "C172": {
  "status": "partial",
  "note": "C172_set_get_partial, C172_history_partial, C172_new_partial prove reading after setting, kinds and non-interference for every history; C172_unknown_violated: an unknown name is silently ignored by set_element and read as None."
 },
 "C173": {
  "status": "partial",
  "note": "C173_positions_partial proves element, list of elements (a new list) and length; C173_live_violated: ':' returns the list of the device itself, so changes by the caller change the device."
 },
 "C174": {
  "status": "partial",
  "note": "C174_transfer_partial: objects and parameters are those of the other network. C174_shared_violated: the two share their lists in every later state. C174_empty_violated: no transfer if a list of devices of some kind is empty in either network."
 },
 "C175": {
  "status": "proved",
  "note": "C175_tables: all functions return, shapes, the plan is the one GLPK found; C175_reported: the reported tables obey the rules of C149 and are cheapest."
 },
 "C176": {
  "status": "proved",
  "note": "C176_states and C176_duals, with the hypotheses of C148 (no uncertainty, non-negative states)."
 },
 "C177": {
  "status": "partial",
  "note": "Proved for networks in Excel files and trees in HDF5 files, for every list of regular values: C177_shown_partial. Missing because false: HDF5 tables of networks are always empty (the position is compared with the letters of a type name), nothing is written without a position, the Excel sheet of a tree raises, an output asked for twice has an empty second sheet."
 },
 "C178": {
  "status": "partial",
  "note": "Termination for regular values is part of C177_shown_partial (save_results returns with enough rounds). Missing because false: a value without identifier makes save_results fail or run forever (C178_endless_violated); close_output_files raises without HDF5 outputs (C178_close_violated)."
 },
 "C179": {
  "status": "partial",
  "note": "Proved for every list of transformers with both kinds present, units 1 and 2, reactances of a star within a factor of 100 of each other, and section at line 14554. Missing because false: files with one kind only get a branch of arbitrary numbers; shorter files raise; large reactances are cut; losses in watts are divided by the wrong base."
 },
 "C180": {
  "status": "partial",
  "note": "Proved for every number of buses from two on. Missing because false: a single bus raises TypeError; the version has no influence on what is read."
 },
 "C181": {
  "status": "partial",
  "note": "Proved for every regular network: buses, generators, lines and transformers (C181_network_partial), demand of buses numbered 1, 2, ... (C181_demand_partial). Missing because false: demand goes to the bus whose number is the position plus one, reactive demand without active demand is lost, generator voltages have no effect, transformer impedances are on the wrong base, costs are per unit of base power, hydropower and line charging are left out, generators at isolated buses become references."
 },
 "C182": {
  "status": "partial",
  "note": "Proved for every network with conventional generators only and buses numbered 1, 2, ... (C182_tables_partial); when active and reactive power are equal every cost is that of the active power (C182_cost_partial); with one period the objective is the weighted sum (C182_total_partial). Missing because false: with any other generator or numbering AttributeError; costs come from reactive power; the total is that of the last period."
 },
 "C183": {
  "status": "proved",
  "note": "For every sheet: C183_titles, C183_idColumn and C183_sheet (entries of all rows and columns, with characteristics), C183_noId and C183_titleError (errors), C183_stored/C183_ignored (what happens with each accepted title), C183_traceless (an element with characteristics only leaves no trace)."
 },
 "C184": {
  "status": "partial",
  "note": "C184_sheet_partial and C184_model_partial prove it for every sheet whose parts are separated by empty rows and give no level twice. What happens otherwise is proved too: C184_repeated_violated (a repeated level overwrites the first node), C184_noGap_violated (the next title is read as a level). Missing: sheets with cells that are neither."
 },
 "C185": {
  "status": "partial",
  "note": "C185_sheet_partial proves it for every sheet with at least one and at most 19 empty rows between the blocks and known names. C185_unknownName_violated: a block with an unknown name and 20 or more elements ends the reading silently; C185_shunt_violated: 'Shunt susceptance' of buses is taken for that of branches; C185_names_partial: the other titles agree."
 },
 "C186": {
  "status": "partial",
  "note": "C186_correlate_partial proves it for every model and list of profiles (any number, any order), provided that profiles of the same type, subtype, name and ID agree on group and zone, an ID is that of exactly one element, and no profile with an ID comes after one for all that covers its element. C186_overlap_violated: without the last condition the first hour is lost. C186_sheet_partial links the elements to the sheets, C186_unknownId_partial the error, C186_subtypeCase_violated and C186_groupNumber_violated what a user can run into."
 },
 "C187": {
  "status": "proved",
  "note": "the sheet with its five columns; errors for missing columns and different lengths. Findings: only the misspelt 'Lossess' is known; names that are not known share one nameless option"
 },
 "C188": {
  "status": "partial",
  "note": "blocks and the expansion of connections for all the elements of a type are proved; false of the code: connections for a single element never reach the model, and it is enough that subtype, group or zone agree; a block without 'end' never returns"
 },
 "C189": {
  "status": "partial",
  "note": "blocks are proved; false of the code: texts, so also IDs, are written in lower case; rows named after a variable raise unless the value is 'all' or a variable; a block without 'end' never returns"
 },
 "C190": {
  "status": "partial",
  "note": "tables with single values first and coefficients last are proved; false of the code: coefficients elsewhere end the reading silently, tables without coefficients give nothing, a table with coefficients only raises, the element is searched by its ID alone"
 },
 "C191": {
  "status": "partial",
  "note": "order independence is proved for workbooks without connections (within elements the order of types is kept); false of the code: connections before elements raise a KeyError, a second sheet of connections doubles the first, a column 'paths' raises, profiles without 'representative periods' are left out silently"
 },
 "C192": {
  "status": "partial",
  "note": "Proved for the network model (C192_network_partial) and the coupled one (C192_coupled_partial), with the profiles (C192_profiles_partial). The code violates the rest: column gen_cur holds renewable generation without feasibility and in the dispatch, saving percentage losses raises NameError, detailed results always raise AttributeError."
 },
 "C193": {
  "status": "partial",
  "note": "Proved: the exact relation between the columns for all options (C193_balance_partial), the plain balance without contingencies, pumps or given losses (C193_network_partial) and in the dispatch (C193_dispatch_partial). Violated with contingencies (losses and curtailment are added over all states) and pumps (each pump is counted at each bus)."
 },
 "C194": {
  "status": "partial",
  "note": "Proved with feasibility on and at most 24 periods. Violated otherwise: the day has 24 places (IndexError) and without feasibility printing raises TypeError."
 },
 "C195": {
  "status": "partial",
  "note": "Rows and weighted totals proved for all sizes, weights and solutions without losses (C195_rows_partial, C195_totals_partial). Fails when losses are modelled: the loss report ends the program ('Just stop', C195_losses_violated)."
 },
 "C196": {
  "status": "partial",
  "note": "Sums over every history, the split of the objective and independence of saving proved (C196_parts_partial, C196_objective_partial, C196_history_partial, C196_tables_partial, C196_save_partial). Fails when only the main results folder is given: the summary raises TypeError (C196_summary_violated)."
 },
 "C197": {
  "status": "partial",
  "note": "The reported value is within 1 of minus the dual and exact for whole numbers; values below 1 are reported as 0 because int() drops the fraction (C197_small_violated)."
 },
 "C198": {
  "status": "partial",
  "note": "Sum of the printed losses in closed form for every case; exact if all flows are positive and every bus has demand. Fails for flows in both directions (signed flows in the denominator, C198_directions_violated) and for buses without demand (the first curtailment is counted again, C198_curtailment_violated)."
 },
 "C199": {
  "status": "partial",
  "note": "Every loaded parameter belongs to the one element of its ID; the answer to a lookup is the value given last among the parameters with the same characteristics, none, or a conflict (C199_elements_partial, C199_lookup_partial, C199_value_partial). Fails for two elements with the same ID and different types (C199_ids_violated) and if a value for one period is loaded after a value for all periods (C199_period_violated)."
 },
 "C20": {
  "status": "partial",
  "note": "False of the code (C20_violated, and C20_violated_in_run at a reachable state). Proved: the exact keys after renumbering, and the exact condition under which they are distinct and equal 0..n-1."
 },
 "C200": {
  "status": "proved",
  "note": "For every element as loaded by Python (C200_loaded), every power in every period is divided by the base power once, everything else is unchanged. Arithmetic over the rationals; a second conversion by an update of a status is the subject of a later property."
 },
 "C201": {
  "status": "partial",
  "note": "Exact set of the admitted costs for convex polynomials and for points, error bound for quadratic costs, within the break points. Fails outside: the last break point is min + max, so that for a negative smallest output the largest output is under-costed (C201_range_violated); more pieces than lines read beyond the vectors (C201_pieces_violated)."
 },
 "C202": {
  "status": "partial",
  "note": "Feasibility of the program is equivalent to the separate specification CDcOpf, the objective is the cost, rows and columns have different keys. Fails for negative reactances (no solution), couplers (carry nothing) and branch states that change from period to period (no model); buses of branches must exist and differ."
 },
 "C203": {
  "status": "partial",
  "note": "One program per period; balance, limits and flows in megawatts as given; quadratic costs covered if the output is within the limits of the first period. Fails: linear costs count 1/base of the cost (C203_linear_violated), hours of the first element only (C203_hours_violated), cost lines of the first hour are used in all hours (C203_hourcost_violated)."
 },
 "C204": {
  "status": "partial",
  "note": "Proved for models with representative periods and hours: one evaluation (C204_values_partial), any history (C204_history_partial), the engine of initialise (C204_start_partial). Violated: without one of the two options no evaluation gives results (C204_options_violated, C204_single_violated: the program ends; C204_one_violated: old values are returned as results), and the order of the subscripts matters (C204_order_violated). The point the simplex method finds is an argument of the model."
 },
 "C205": {
  "status": "partial",
  "note": "Proved for new limits of generators: one update in any order of its characteristics (C205_limit_partial), and any history of evaluations and updates, in terms of the optimal power flow with the limits given last (C205_history_partial, C205_feasible_partial, C205_data_partial, C205_first_partial). Violated: other parameters are ignored with the code of success (C205_ignored_violated); an unknown element or an update for all periods writes outside the data (C205_unknown_violated, C205_whole_violated); the status of a branch is not changed, the network is put into per unit a second time and the engine cannot be evaluated any more (C205_status_violated, C205_twice_violated)."
 },
 "C206": {
  "status": "partial",
  "note": "Proved: outputs of variables for any order of characteristics (C206_variables_partial), after an evaluation (C206_run_partial), outputs of parameters as the entries with the hour, type and name (C206_parameters_partial), several outputs (C206_several_partial). Violated: IDs are ignored (C206_ids_violated); an element without the variable ends the program (C206_missing_violated); so does an output before an evaluation (C206_before_violated); parameters of all representative periods are returned and those without an hour are not (C206_periods_violated); no or several types, places that start again (C206_types_violated); duplicates for several subtypes (C206_subtypes_violated). The texts of characteristics returned with the values are not modelled."
 },
 "C207": {
  "status": "partial",
  "note": "Proved for run-n and run-en (C207_run_n_partial, C207_run_en_partial, C207_accepted_partial: refused exactly with a negative number of units). Violated: run-example-hydro ignores the plants, losses, feasibility and time steps asked for, run-ac the plants; run-res never reaches the engine (C207_violated_*)."
 },
 "C208": {
  "status": "proved",
  "note": "Exactly the lists of branch numbers are accepted, and the tables are those of the specification cliOutages."
 },
 "C209": {
  "status": "partial",
  "note": "C209_start_partial: exactly the calls of run-n and run-en without renewable units, without contingencies and with a time step start, with the plants asked for. Violated for --res (the arrays are replaced by numbers) and --sec (a list of characters): C209_violated_units."
 },
 "C21": {
  "status": "proved",
  "note": "Proved for incumbents with distinct keys; C21_needs_distinct_keys shows the hypothesis is necessary (C20 fails in general)."
 },
 "C210": {
  "status": "proved",
  "note": "For every file that is read; numpy's repetition of single rows and numbers included (tsCell)."
 },
 "C211": {
  "status": "proved",
  "note": "For every file that is read."
 },
 "C212": {
  "status": "partial",
  "note": "C212_accepted_partial gives the exact condition: fewer plants than periods in total, which the property does not ask for (C212_violated_single: sources with one period each and a plant are never read); files with only a demand give nothing (C212_violated_demand)."
 },
 "C213": {
  "status": "partial",
  "note": "Proved for every history of calls (C213_run_partial). False for the commands: run-en with pyomo and run-example-hydro hand a model to run, which is taken for the compiled engine (C213_violated_object: AttributeError after every history without a workbook), and run('CLP') imports a module that does not exist (C213_violated_clp). Missing: nothing beyond this."
 },
 "C214": {
  "status": "partial",
  "note": "Proved for numbers of existing plants (C214_inputs_partial, C214_water_partial). False otherwise: with several plants number 0 is the last one, with one plant every number is accepted (C214_violated_numbers)."
 },
 "C215": {
  "status": "partial",
  "note": "Proved: the flag is sound, and exact for integer duals (C215_flag_partial); mean within one (C215_mean_partial); water left (C215_left_partial). False: a fraction is dropped, so the flag may be missing although the value exceeds the penalty, and the GLPK report differs (C215_violated_flag)."
 },
 "C216": {
  "status": "partial",
  "note": "Proved for lists of positions (C216_set_partial, C216_all_partial). False for the numbering that the other controls use: positions start at zero (C216_violated_number), and a single number raises TypeError (C216_violated_single)."
 },
 "C217": {
  "status": "partial",
  "note": "Proved: the exact set of dispatches that is admitted (C217_exact_partial). The property is false: the services are taken from the production of all units, so that a requirement of up to the whole production excludes nothing (C217_violated_void), more excludes everything (C217_violated_high), a list of False counts as True (C217_violated_flags), and with conventional units only the default settings raise (C217_violated_number)."
 },
 "C218": {
  "status": "partial",
  "note": "Proved: the limit without support, which is exact (C218_without_partial), and what is left of it with support (C218_with_partial). False with support: the uncertainty then excludes nothing (C218_violated_void); only the first uncertainty is used (C218_violated_first)."
 },
 "C219": {
  "status": "partial",
  "note": "Proved for one bus with demand or the first instance (C219_own_partial). False otherwise: the curtailment belongs to another instance (C219_violated_other) and is charged with its weight (C219_violated_charge); without demand the model cannot be built (C219_violated_none)."
 },
 "C22": {
  "status": "partial",
  "note": "False of the code in general: C22_violated is a well-formed problem (three levels) whose recorded plan is anticipative. Proved for all problems of two stages (one root, at least two leaves, interventions without construction time, OPF a function of node and set of active interventions): C22_two_stage_partial."
 },
 "C220": {
  "status": "partial",
  "note": "Proved for profiles of different types or variables and modifiers of existing profiles: any history of visits (C220_history_partial), and in the non-anticipative search a node's profiles depend on this node only (C220_node_partial). False otherwise: of two profiles of the same type and variable only the first follows (C220_violated_second), a modifier without profile scales the last profile (C220_violated_unknown)."
 },
 "C221": {
  "status": "partial",
  "note": "Proved for a network without generators whose costs are those of external grid 0 (C221_costs_partial). False otherwise: with a generator 0 the grid's cost is charged to it and the grid is free (C221_violated_generator), costs of static generators are charged to generators (C221_violated_static), of several grids one is kept (C221_violated_grids), and a second power flow on the same network never runs (C221_violated_again)."
 },
 "C222": {
  "status": "partial",
  "note": "Proved: without continue_on_divergence, a run that ends converged in all steps (C222_verdict_partial). False: the cost is that of the last step (C222_violated_cost), and with continue_on_divergence so is the verdict (C222_violated_verdict)."
 },
 "C223": {
  "status": "partial",
  "note": "The property is false for every input: no tree and no connections give a program (C223_violated): what belongs to the tree is dropped when it is stored, so that the first row ends in an exception. Without the DC OPF or connections every tree is refused (C223_violated_alone), and so is every tree whose first of several levels has more than one name (C223_violated_copies), with a code that nobody sees."
 },
 "C224": {
  "status": "partial",
  "note": "Proved if every branch has its data and the option is given once for the engine fdif (C224_variables_partial). False otherwise: a branch without vTEP hides all candidates after it and the objective, silently (C224_violated_missing); with another engine there are no variables (C224_violated_engine)."
 },
 "C225": {
  "status": "partial",
  "note": "Proved: the tail probabilities are exponential at whole hours (C225_time_partial, C225_probability_partial, with Lebesgue measure on the numbers drawn). False: times are rounded down, so their mean is 1/(exp(1/mean)-1), less than the mean given (C225_violated_mean), and with probability 1-exp(-1/mttr) the element never fails (C225_violated_never)."
 },
 "C226": {
  "status": "partial",
  "note": "Proved: with Pyomo and without renewables the figures are the weighted energies (C226_pyomo_partial); with GLPK the spilled energy is available less produced, without weights (C226_spill_partial). False: with renewables the report with Pyomo raises (C226_violated_renewables), the figures of the solvers agree only if all weights are 1 (C226_violated_weights, exact), GLPK adds the curtailment of contingencies (C226_violated_contingencies)."
 },
 "C227": {
  "status": "partial",
  "note": "Tables of generation, flows, angles, curtailment and (with a binary variable) commitment are proved to show the solution, and the report to be complete without unit commitment. False of the code and proved so: pumps are shifted by one row, services show the last period everywhere, with unit commitment and two generators without binary variables the report raises KeyError, a generator that cannot be switched shows the state of another, NM.print without the argument raises, without a network curtailment of an instance is shown elsewhere."
 },
 "C228": {
  "status": "partial",
  "note": "Estimated losses are shown as they are; with a loss factor the sum is right when all flows have the direction of their branches, no pumps run and all buses have demand or nothing is curtailed. Otherwise false of the code, with witnesses (direction, reversed, pumps, curtailment)."
 },
 "C229": {
  "status": "proved",
  "note": "Through the constraints of the hydrology model (C137 and others) for every feasible solution."
 },
 "C23": {
  "status": "partial",
  "note": "False of the code in general: C23_violated (recorded plan 750, achievable 20, three levels) and C23_no_plan_recorded_violated (one scenario). Proved for all problems of two stages (one root, at least two leaves, interventions without construction time, OPF a function of node and set of active interventions): a plan is recorded iff there is a feasible decision, it is the plan of a feasible decision, and no feasible decision is cheaper (C23_two_stage_partial)."
 },
 "C230": {
  "status": "partial",
  "note": "Proved: values in every time step, other elements untouched, complete documents are read and run. Missing because false of the code: all_indexes is read but never used (no element is driven), workbooks other than .xlsx are not read."
 },
 "C231": {
  "status": "partial",
  "note": "Proved: one new generator and cost per distinct bus; parameters of rows go to them if the case has no static generator at the bus. Missing because false of the code: a static generator of the case at the bus takes the limits instead (or IndexError without cost); after the first pypower power flow the costs are marked gen and the lookup raises."
 },
 "C232": {
  "status": "partial",
  "note": "Proved: data of all buses and branches (C232_buses_partial, C232_branches_partial), ends and ratings in the optimisation (C232_network_partial), every complete file is read (C232_read_partial). Missing because false of the code: the active peak is the reactive demand and the reactive peak is missing (C232_peak_violated); branches out of service are in service in the Pyomo model (C232_status_violated)."
 },
 "C233": {
  "status": "partial",
  "note": "Proved: data, costs and settings of all units (C233_conventional_partial, C233_units_partial), limits and buses in the optimisation (C233_limits_partial). Missing because false of the code: units out of service keep their capacity (C233_status_violated); cost rows of different lengths (C233_ragged_violated) and rows for reactive power (C233_reactive_violated) make the reading fail."
 },
 "C234": {
  "status": "proved",
  "note": "C234_values: keys are injective (decimal numbers, first underscore), nodes are the blocks of parameters in order."
 },
 "C235": {
  "status": "proved",
  "note": "C235_accepted. A case without generators or branches raises UnboundLocalError (del of the loop variable)."
 },
 "C236": {
  "status": "proved",
  "note": "C236_edges: the edges are a permutation of the specified ones."
 },
 "C237": {
  "status": "partial",
  "note": "Proved from the document to the call for complete documents (C237_single_partial, C237_series_partial) and that unknown solvers raise with inter_temporal (C237_unknown_partial). False otherwise: without inter_temporal an unknown solver or type runs no power flow silently (C237_violated_unknown); without the section pandapower_optimisation_settings the default solver is not used (C237_violated_section); without time settings an inter-temporal run covers no period (C237_violated_periods); pypower ignores the progress bar (C237_violated_bar)."
 },
 "C238": {
  "status": "partial",
  "note": "Proved for documents with output and time settings (C238_writer_partial). Without time settings there is no writer (C238_violated_no_time). That pandapower's writer records what it is told to is outside the model."
 },
 "C239": {
  "status": "partial",
  "note": "Proved for documents with a case file, a problem section and a pandapower section (C239_fresh_partial, C239_network_partial). Without them settings, case, writer and generators of the previous file stay (C239_violated_settings, C239_violated_units)."
 },
 "C24": {
  "status": "partial",
  "note": "False of the code (C24_violated). Proved: equality when installation times are <= 0 and years are ordered; never understated for non-negative costs and rate below 100."
 },
 "C240": {
  "status": "partial",
  "note": "The list of tables can be saved and the file holds exactly their rows (C240_saved_partial, C240_plan_partial). The value that main_access_function returns is a pair of that list and the information of the search (or None), for which save_in_json always raises TypeError and writes nothing (C240_violated; the repository's own test of GeneralManager does this)."
 },
 "C241": {
  "status": "partial",
  "note": "The file is written only by a save that succeeds, and holds what the value holds then (C241_file_partial). Saving replaces the tables of its argument by dictionaries; a second save raises AttributeError (C241_violated)."
 },
 "C242": {
  "status": "partial",
  "note": "Proved for name.json in any directory (C242_json_partial). Any other extension, .JSON included, gives the default parameters without an error (C242_violated)."
 },
 "C243": {
  "status": "proved",
  "note": "C243_lookahead. No code calls the look-ahead; its effects are those of the method of the class."
 },
 "C244": {
  "status": "partial",
  "note": "Proved for requests without a position, for lists of elements and lists of hours other than 0 or one hour other than 0 (C244_lists_partial, C244_hour_partial), and for values that do not change in time (C244_constant_partial), on networks that the caller built. False otherwise: hour 0 counts as no hour, so that the value of another hour is returned (C244_violated_hour, C244_violated_first); every request with a position, for all elements or for all hours ends in an exception (C244_violated_position, _all_elements, _all_hours); lists without hours are refused (C244_violated_no_hours); the graph built by the model itself holds none of its parameters (C244_violated_build)."
 },
 "C245": {
  "status": "partial",
  "note": "False for every model: with an element in the graph setting ends in an exception, without one nothing is set (C245_violated_network, C245_violated_tree); whenever setting and reading succeed, None is read (C245_violated_read)."
 },
 "C246": {
  "status": "partial",
  "note": "Proved for data whose values have their declared types, with all three sheets, options with known names and characteristics with different names and no empty lists (C246_loaded_partial). False otherwise: without buses, generators or branches loading raises (C246_violated_sheet); an option with another name takes the value loaded before it (C246_violated_option); a characteristic with an empty list is dropped (C246_violated_empty)."
 },
 "C31": {
  "status": "partial",
  "note": "Proved for every plan with distinct keys (C31_tables_partial, C31_lines_only_partial, C31_one_cost_per_scenario_partial) and for every run whose recorded keys are distinct. False in general: C31_violated is a run on a well-formed problem whose recorded keys repeat, so one scenario's interventions are reported for another and a recorded line is missing."
 },
 "C35": {
  "status": "proved",
  "note": "Buses and flexible units; unknown year raises; averages lie between extremes. NaN cells are not modelled."
 },
 "C36": {
  "status": "proved",
  "note": "For all label vectors: contiguous labels give exact cluster means, any gap raises IndexError (clusters are never mixed)."
 },
 "C37": {
  "status": "proved",
  "note": "Sum preserved and centroids between bounds, for every successful call."
 },
 "C38": {
  "status": "proved",
  "note": "Any history of updates (successful, raising half-way, OPF runs) is quantified by the inductive Reached; repeat-call and the accumulation without initialise are separate theorems."
 },
 "C39": {
  "status": "proved",
  "note": "Single lines (0-based) and clusters (1-based numbers minus one); floats are an ordered field, 3**0.5 a positive parameter."
 },
 "C40": {
  "status": "proved",
  "note": "Closed form of any list of upgrades, permutation invariance, same-line additivity."
 },
 "C41": {
  "status": "proved",
  "note": "First load of the bus, frame condition, IndexError iff no load."
 },
 "C42": {
  "status": "proved",
  "note": ""
 },
 "C45": {
  "status": "proved",
  "note": ""
 },
 "C46": {
  "status": "proved",
  "note": ""
 },
 "C47": {
  "status": "proved",
  "note": "Each requirement is rounded up to the smallest size of the catalogue of its kind of branch; ValueError exactly when it exceeds all sizes."
 },
 "C48": {
  "status": "proved",
  "note": "Clusters returned are different, found by screening, at most the limit; all non-empty ones if within the limit, exactly the limit otherwise; the ideal costs are evenly spaced."
 },
 "C49": {
  "status": "proved",
  "note": "C49_tree_shape (2^y values in year y), C49_growth (first/last grown at their economies' rates, the rest evenly spaced), C49_between (bounds), C49_complete (when the tree is built), C49_position / C49_path (position of a scenario in year y is the ancestor of its position in year y+1). The bound is between the two ends of the row; the first year's rate is used as a fraction although the others are percentages (CA:963)."
 },
 "C50": {
  "status": "proved",
  "note": "Every layout: no exception, numbering without gaps, each node but the root in the child range of exactly one node with a smaller number (C50_tree); sizes (C50_measure)."
 },
 "C51": {
  "status": "proved",
  "note": "Every layout: as many final nodes as scenarios, scenario i ends in the i-th final node, ranges of children are consecutive and make up the parent's."
 },
 "C52": {
  "status": "partial",
  "note": "Proved for explicit contingency lists. The SecurityFlag option numbers contingencies from 0, so the first contingency fails nothing, the last branch never fails and the last flow variable is undeclared: C52_flag_violated."
 },
 "C53": {
  "status": "proved",
  "note": "For cutIn \u2264 rated \u2264 cutOut (in exact arithmetic over the reals): limits, zero outside, rated in between, monotone up to cut-out. Outside the hypothesis it fails: C53_unordered_violated (rated above cut-out keeps running)."
 },
 "C54": {
  "status": "partial",
  "note": "C54_times_partial, C54_row_partial and C54_matrix_partial give the status of every component and the intact flag for non-negative sampled times. The claim fails where a sampled time to failure is 0 (C54_zero_partial, C54_zero_violated: the component is up for the whole horizon), negative means never terminate (C54_negative_violated); the same sampled pair repeats in each cycle. Random numbers are inputs of the model."
 },
 "C55": {
  "status": "partial",
  "note": "Lines interpolate the polynomial at consecutive break points, are exact there for convex costs and overestimate by at most a*Delta^2/4 in between (C55_break_points_partial, C55_convex_partial, C55_exact_partial, C55_quadratic_partial, C55_piecewise_partial, C55_unit_partial). The break points cover [Min, Min+floor(Max/Delta)*Delta] only, a step above the capacity makes generation free, zero capacity raises and concave costs are overestimated at break points (C55_*_violated)."
 },
 "C56": {
  "status": "partial",
  "note": "C56_exact_partial/C56_verification_partial state exactly which cluster is returned: the first in cost order that works on the network with its own upgrades and those of all clusters tried before. Own upgrades only: proved when earlier clusters are empty (C56_own_upgrades_partial), false in general (C56_own_upgrades_violated)."
 },
 "C57": {
  "status": "partial",
  "note": "False of the code in both directions (two witnesses on well-formed problems). Proved for problems of two stages: reported success implies a recorded plan (C57_two_stage_partial); the converse fails."
 },
 "C58": {
  "status": "partial",
  "note": "False of the code (C58_violated), because recorded plans can be anticipative (C22). Proved for non-anticipative plans."
 },
 "C59": {
  "status": "partial",
  "note": "False of the code for four or more years (C59_violated); proved for two and three years."
 },
 "C60": {
  "status": "partial",
  "note": "False of the code when scenarios differ in the first year (C60_violated, C60_two_predecessors_violated); proved when the first year is common."
 },
 "C62": {
  "status": "proved",
  "note": "Closed form for single and cluster investments plus bus demands (node data without flexible units, see C63). The base (anticipative) solver violates it: C62_base_violated."
 },
 "C63": {
  "status": "partial",
  "note": "Violated for every non-empty table: sgen/poly_cost parameters reach the line branch and raise. No positive case exists beyond tables without flexible units (covered by C62)."
 },
 "C64": {
  "status": "proved",
  "note": "Proved for the non-anticipative solver; the base solver violates it when there are no new interventions (C64_base_violated)."
 },
 "C65": {
  "status": "proved",
  "note": "iff theorem plus the merge witness for the converse."
 },
 "C66": {
  "status": "proved",
  "note": "Proved for every table the reader accepts, whatever the order of its years (the reader sorts them): C66_year_of_node. C66_years_agree_iff: sorting is necessary and sufficient."
 },
 "C67": {
  "status": "proved",
  "note": "Composition of C35 and C62; data without flexible units (see C63)."
 },
 "C69": {
  "status": "partial",
  "note": "False of the code: 5e15 is read as 5e-5, 1E5 as 15, [-5 as 5 (general theorems). Proved: several points, text after an exponent, one-digit unsigned exponents and bare points are rejected."
 },
 "C71": {
  "status": "partial",
  "note": "False of the code: any short line inside a matrix silently ends it, and a row on the line 'mpc.x=[...' is dropped. Proved: stored rows are read from consecutive lines, none invented; C70 gives the layouts that are read completely."
 },
 "C72": {
  "status": "partial",
  "note": "False of the code: binary variables of successive readings accumulate and the table dictionary is only updated (C72_binary_variables_violated). Proved for every history: every other settings group is exactly that of a fresh reader (C72_fresh_except_partial)."
 },
 "C73": {
  "status": "proved",
  "note": "C73_demand_table: one row per chosen scenario, year and demand bus, with the factor of the scenario's path."
 },
 "C74": {
  "status": "proved",
  "note": "C74_document_is_readable and C74_document_to_plan (composition with C68): k-means labels are arbitrary contiguous labels; floats are rationals."
 },
 "C75": {
  "status": "proved",
  "note": "C75_options is an equivalence with the independent specification IsOption/Bought; C75_complete gives a simple sufficient condition."
 },
 "C76": {
  "status": "proved",
  "note": "C76_pool and C76_option_upgrades, by composition with C39/C40. That line i of the pandapower network is branch i of the MATPOWER case is pandapower's conversion and is not modelled."
 },
 "C77": {
  "status": "partial",
  "note": "Holds only for lists of one-digit numbers (C77_single_digits_partial); false in general: C77_violated_only_digits, C77_violated. Missing: nothing more holds."
 },
 "C78": {
  "status": "partial",
  "note": "True for 2030, 2040 and the active economy of 2050 (C78_rows_partial); the slow economy of 2050 grows from the second scenario of 2040 (C78_violated_slow_2050 characterises exactly when this does not matter)."
 },
 "C79": {
  "status": "proved",
  "note": "The LP solver is an arbitrary function of branch count, previous investments and multipliers; numbers are exact rationals."
 },
 "C80": {
  "status": "proved",
  "note": "Selection by cost relative to the cost of the cluster that the code's exchange pass leaves last (C81 shows it need not be the largest)."
 },
 "C81": {
  "status": "partial",
  "note": "False of the code: the exchange pass with 'any column greater' is not a sort and an empty cluster may be kept (C81_violated_*). Proved when all found clusters are comparable."
 },
 "C82": {
  "status": "partial",
  "note": "False of the code: costs of transformer sizes are looked up in the line catalogue (IndexError), a limit of 0 divides by zero. Proved when the sizes of transformers also occur among those of lines and the limit is positive."
 },
 "C83": {
  "status": "proved",
  "note": "glpk itself is not modelled; constraints are predicates on points, floats are rationals, one time point as in every call."
 },
 "C84": {
  "status": "proved",
  "note": ""
 },
 "C85": {
  "status": "proved",
  "note": ""
 },
 "C86": {
  "status": "partial",
  "note": "False of the code: previous investments are not counted against the reverse flow (C86_violated). Proved for branches without previous investment."
 },
 "C87": {
  "status": "proved",
  "note": "Up to PMIN+PMAX; beyond it (multipliers above one) strictly convex costs are underestimated (C87_beyond_violated)."
 },
 "C88": {
  "status": "partial",
  "note": "False of the code: piecewise costs, missing costs and a first generator of size zero always raise; reactive demand cannot be curtailed so there may be no plan. Proved for polynomial costs with a first generator of positive size, and plans exist for active demand only."
 },
 "C89": {
  "status": "proved",
  "note": "Exactness of the solver is a hypothesis; an example shows it is satisfiable."
 },
 "C90": {
  "status": "partial",
  "note": "Upgrades by branch and which clusters raise are proved exactly; the three-phase clause is false: the added power is sqrt(3) times the MVA bought (C90_three_phase_violated)."
 },
 "C91": {
  "status": "proved",
  "note": "Numbering, per-node result, failure flag, node loads and additional loads, and exceptions for non-binary trees, for all trees and OPF behaviours (OPF is an oracle on networks)."
 },
 "C92": {
  "status": "partial",
  "note": "Report paths, IndexError beyond four years and cost monotonicity are proved; 'total is the cost of the scenario's investments' fails: it is the last year's cost (C92_total_violated)."
 },
 "C93": {
  "status": "partial",
  "note": "Without given clusters the command is characterised fully (C93_screened_partial); given clusters are ignored in favour of the files of an earlier run (C93_given_clusters_violated, C93_repeats_earlier_violated) or raise (C93_without_files_violated)."
 },
 "C94": {
  "status": "proved",
  "note": "All layouts without an empty period; from connect_spec (closed form of the recursive Mapping)."
 },
 "C95": {
  "status": "proved",
  "note": "Feasible states for arbitrary rational weights/inputs/outputs; accounting, uniqueness and existence (non-negativity of vSoC is not part of EnFeasible: dropping it makes the accounting theorem stronger, the existence is before it), and the closing of the horizon. Excluded: first period flagged (C96_root_raises_violated) and exactly one uncertain node (C96_one_uncertain_violated)."
 },
 "C96": {
  "status": "partial",
  "note": "False of the code for a flag in the first period, which always raises (C96_root_raises_violated), and for a single uncertain node, which loses its constraint (C96_one_uncertain_violated). Proved for the other flags (C96_flags_partial): with at least two names and no flag in the first period every choice of flags is accepted, all nodes of flagged periods are uncertain, the states are unique, and the end of an uncertain node is given by its weight, net input and the changes along its alternatives."
 },
 "C97": {
  "status": "partial",
  "note": "Holds for aligned data (C97_data_partial) and with a fixed number of vectors (C97_fixed_partial); fails silently when numbers of weights and names differ (C97_shifted_violated) and for a first period given as one row (C97_row_violated)."
 },
 "C98": {
  "status": "proved",
  "note": "For sensible data (CoolingOk); with a shutdown above the maximum temperature the factor becomes negative (C98_shutdown_violated). numpy's argument defaults (list of lists) are not modelled."
 },
 "C99": {
  "status": "partial",
  "note": "Bounds, proportionality, order and positions proved over the reals; C99_domain_partial says exactly when the angles exist (they do not at latitude 0 or with the sun in the zenith); a flat fixed collector receives no diffuse light (C99_flat_violated)."
 }
}