{"id": "C01", "title": "Dictionary-mode container is a map", "statement": "After any sequence of append / item assignment / extend / pop calls on a container created with create_dictionary, get(key) returns exactly the last value written to that key that has not been popped since (None if there is none), [key] and pop raise KeyError exactly when there is none, and len() is the number of distinct live keys; a failing call changes nothing.", "quantifier": "every finite sequence of operations, all keys and values", "why_tests_cant": "a test exercises a few fixed sequences; the claim is about every history of writes and pops", "anchors": ["pyensys/DataContainersInterface/AbstractDataContainer.py:AbstractDataContainer.append", "pyensys/DataContainersInterface/AbstractDataContainer.py:AbstractDataContainer.__setitem__", "pyensys/DataContainersInterface/AbstractDataContainer.py:AbstractDataContainer.get", "pyensys/DataContainersInterface/AbstractDataContainer.py:AbstractDataContainer.pop", "pyensys/DataContainersInterface/AbstractDataContainer.py:AbstractDataContainer.extend"]}
{"id": "C02", "title": "List-mode container is an insertion-ordered multimap with stack removal", "statement": "After any sequence of append / pop / item assignment / extend on a container created with create_list, iteration yields the live entries in insertion order, get/[key] return the OLDEST live entry with that key (None if absent, never KeyError), pop(key) removes and returns the NEWEST entry with that key and raises KeyError (changing nothing) iff there is none, and len() is the number of live entries.", "quantifier": "every finite sequence of operations, all keys and values, duplicates included", "why_tests_cant": "the oldest/newest asymmetry only shows on histories with repeated keys, of which there are infinitely many", "anchors": ["pyensys/DataContainersInterface/AbstractDataContainer.py:AbstractDataContainer.get", "pyensys/DataContainersInterface/AbstractDataContainer.py:AbstractDataContainer.pop", "pyensys/DataContainersInterface/AbstractDataContainer.py:AbstractDataContainer.append"]}
{"id": "C03", "title": "append then pop is the identity in list mode", "statement": "For every list-mode container and every key and value (also when the key is already present), append(key, value) followed by pop(key) returns value and leaves the container exactly as it was; the same holds for any well-nested bracket of appends and pops.", "quantifier": "all containers, keys, values; all well-nested append/pop sequences", "why_tests_cant": "the search relies on undoing its own updates at any recursion depth; tests check a single fixed depth", "anchors": ["pyensys/DataContainersInterface/AbstractDataContainer.py:AbstractDataContainer.append", "pyensys/DataContainersInterface/AbstractDataContainer.py:AbstractDataContainer.pop", "pyensys/Optimisers/RecursiveFunction.py:RecursiveFunction._return_to_previous_state"]}
{"id": "C04", "title": "Item assignment in list mode touches every entry with the key and nothing else", "statement": "container[key] = value on a list-mode container sets the value of every entry whose key equals key, leaves all other entries, the order and the length unchanged, and never creates an entry when the key is absent (in dictionary mode it does create one).", "quantifier": "all containers, keys and values", "why_tests_cant": "frame conditions (nothing else changed) range over all containers", "anchors": ["pyensys/DataContainersInterface/AbstractDataContainer.py:AbstractDataContainer.__setitem__"]}
{"id": "C05", "title": "Container difference removes exactly the equal items", "statement": "difference_abstract_data_containers(a, b) on lists is the sub-sequence of a (order and multiplicity preserved) of the (key, value) items that do not occur in b, and neither input changes; on dictionaries it keeps exactly the entries of a that b does not map to an equal value - except that entries whose value is None are never removed.", "quantifier": "all pairs of containers of equal kind", "why_tests_cant": "set-theoretic characterisation over all inputs; the None exception is invisible to the existing tests", "anchors": ["pyensys/DataContainersInterface/OperationsAbstractDataContainer.py:difference_abstract_data_containers"]}
{"id": "C06", "title": "Containment is a preorder; for dictionaries it is antisymmetric", "statement": "`b in a` holds iff every item of b is an item of a; it is reflexive and transitive on each kind; for dictionaries b in a and a in b together mean a == b, for lists this fails (order and multiplicity are ignored).", "quantifier": "all containers of equal kind", "why_tests_cant": "algebraic laws over all triples of containers", "anchors": ["pyensys/DataContainersInterface/AbstractDataContainer.py:AbstractDataContainer.__contains__"]}
{"id": "C07", "title": "Operations on containers of different kinds are rejected without effect", "statement": "==, !=, in, extend and difference raise TypeError whenever the two containers are not both dictionaries or both lists (== alone accepts two uninitialised containers and answers True, while != raises on the same pair), and a call that raises leaves both containers unchanged.", "quantifier": "all pairs of container states, including containers on which both create_* were called", "why_tests_cant": "the case table ranges over all flag combinations and contents", "anchors": ["pyensys/DataContainersInterface/AbstractDataContainer.py:AbstractDataContainer.__eq__", "pyensys/DataContainersInterface/AbstractDataContainer.py:AbstractDataContainer.__ne__", "pyensys/DataContainersInterface/AbstractDataContainer.py:AbstractDataContainer.extend"]}
{"id": "C08", "title": "A single loop over a container sees every item once; a nested loop over the same container does not", "statement": "`for k, v in c` visits exactly the items of c in order when the body does not iterate c again; because the container is its own iterator, a body that also loops over the same container makes the outer loop stop after its first item, for every container with at least one item.", "quantifier": "all containers, all lengths", "why_tests_cant": "iterator state is hidden; tests only ever nest loops over different containers", "anchors": ["pyensys/DataContainersInterface/AbstractDataContainer.py:AbstractDataContainer.__iter__", "pyensys/DataContainersInterface/AbstractDataContainer.py:AbstractDataContainer.__next__"]}
{"id": "C09", "title": "extend concatenates lists and overrides dictionaries", "statement": "a.extend(b) on lists yields the items of a followed by those of b; on dictionaries lookups afterwards return b's value where b has the key and a's otherwise; extend is associative, and extending by an empty container of the same kind is the identity.", "quantifier": "all containers of equal kind", "why_tests_cant": "algebraic laws over all containers", "anchors": ["pyensys/DataContainersInterface/AbstractDataContainer.py:AbstractDataContainer.extend"]}
{"id": "C10", "title": "The pool enumerates each complete option exactly once with consecutive keys", "statement": "After initialise, the pool of interventions contains, in input order, one entry per position up to the SHORTEST of the costs / elements_positions / installation_time / capacity_to_be_added_MW lists of each option group (excess entries are silently dropped), and its keys are '0','1',...,'n-1' without repetition.", "quantifier": "all lists of option groups, of all lengths", "why_tests_cant": "truncation by zip and key uniqueness must hold for every input size", "anchors": ["pyensys/Optimisers/RecursiveFunction.py:RecursiveFunction._create_pool_interventions"]}
{"id": "C11", "title": "Available interventions are the pool minus everything already chosen", "statement": "At any point of the search an intervention offered at a node belongs to the pool, keeps its pool key, and is not equal to any intervention already taken in the candidate at the same key on the path from the root nor among the current new interventions; every other pool entry is offered, once and in pool order.", "quantifier": "all pools, all candidate histories", "why_tests_cant": "ranges over all search states", "anchors": ["pyensys/Optimisers/RecursiveFunction.py:RecursiveFunction._calculate_available_interventions", "pyensys/DataContainersInterface/OperationsAbstractDataContainer.py:difference_abstract_data_containers"]}
{"id": "C12", "title": "All non-empty subsets of the available interventions are tried, each once", "statement": "At every node the combinations that the search tries are exactly the non-empty sub-selections of the available interventions, grouped by increasing size, each tried exactly once (2^n - 1 in total for n available interventions).", "quantifier": "every number of available interventions", "why_tests_cant": "completeness of an enumeration for every n", "anchors": ["pyensys/Optimisers/RecursiveFunction.py:RecursiveFunction._calculate_all_combinations", "pyensys/Optimisers/NonAnticipativeRecursiveFunction.py:NonAnticipativeRecursiveFunction._interventions_handler"]}
{"id": "C13", "title": "Exploring a subtree leaves the candidate exactly as it was", "statement": "For every control tree, pool, OPF behaviour and candidate, a call of solve for a node returns with the candidate path, candidate interventions and candidate operation costs it was called with, with the same current node, and with the level decreased by exactly one.", "quantifier": "all finite trees, all pools, all sequences of OPF outcomes, all candidate states", "why_tests_cant": "an undo property over the whole recursion; tests run trees of fixed shape with mocked solvers", "anchors": ["pyensys/Optimisers/NonAnticipativeRecursiveFunction.py:NonAnticipativeRecursiveFunction.solve", "pyensys/Optimisers/RecursiveFunction.py:RecursiveFunction._return_to_previous_state"]}
{"id": "C14", "title": "Remaining construction times are restored after a subtree has been explored", "statement": "After solve returns, the remaining construction time of every intervention of the candidate is the one it had before the call, so sibling scenarios are all evaluated with the same construction progress.", "quantifier": "all trees, pools, years, OPF behaviours", "why_tests_cant": "the defect (a leaf shifts the times and does not shift them back) needs a tree with two leaves and lead times; quantifies over all trees", "anchors": ["pyensys/Optimisers/NonAnticipativeRecursiveFunction.py:NonAnticipativeRecursiveFunction.solve", "pyensys/Optimisers/NonAnticipativeRecursiveFunction.py:update_remaining_construction_time"]}
{"id": "C15", "title": "The search never raises on a well-formed problem", "statement": "When the control graph is a finite tree whose depth matches the list of years and the return rate is not 100%, solve started from freshly created list containers terminates and raises no exception, whatever the OPF answers.", "quantifier": "all trees, pools, years, sequences of OPF outcomes", "why_tests_cant": "termination and exception freedom over all executions", "anchors": ["pyensys/Optimisers/NonAnticipativeRecursiveFunction.py:NonAnticipativeRecursiveFunction.solve", "pyensys/managers/GeneralManager.py:main_access_function"]}
{"id": "C16", "title": "The reported plan covers every node of the scenario tree", "statement": "Whenever the search has recorded a complete plan, every node of the control tree occurs on at least one of the recorded paths.", "quantifier": "all trees, pools, OPF behaviours, all moments of the search", "why_tests_cant": "an invariant over every intermediate state of an unbounded search", "anchors": ["pyensys/Optimisers/NonAnticipativeRecursiveFunction.py:NonAnticipativeRecursiveFunction._check_if_all_nodes_in_tree_have_been_visited", "pyensys/Optimisers/NonAnticipativeRecursiveFunction.py:_replacement_of_investments_for_whole_tree"]}
{"id": "C17", "title": "The cost of the recorded complete plan never increases", "statement": "Once a complete plan is recorded it is only ever replaced by one of strictly smaller total (investment + operation) cost, so the final plan is the cheapest of all complete incumbents met during the search.", "quantifier": "all executions of the search", "why_tests_cant": "monotonicity along every history", "anchors": ["pyensys/Optimisers/NonAnticipativeRecursiveFunction.py:_replacement_of_investments_for_whole_tree", "pyensys/Optimisers/NonAnticipativeRecursiveFunction.py:_calculate_total_planning_cost"]}
{"id": "C18", "title": "Recorded paths are root-to-leaf paths of the control tree", "statement": "Every path stored in the incumbent, the partial tree and the complete plan starts at the root, follows edges of the control graph and ends at a node without successors.", "quantifier": "all graphs, pools, OPF behaviours, all moments of the search", "why_tests_cant": "invariant over all reachable search states", "anchors": ["pyensys/Optimisers/NonAnticipativeRecursiveFunction.py:NonAnticipativeRecursiveFunction.solve", "pyensys/Optimisers/NonAnticipativeRecursiveFunction.py:NonAnticipativeRecursiveFunction._append_candidate_in_incumbent_list"]}
{"id": "C19", "title": "Incumbent bookkeeping stays aligned", "statement": "The four incumbent containers (paths, interventions, investment costs, operation costs) always carry the same keys in the same order, and so do the four containers of the partial and complete plans.", "quantifier": "all executions", "why_tests_cant": "invariant over all reachable search states", "anchors": ["pyensys/Optimisers/NonAnticipativeRecursiveFunction.py:_renumber_keys_in_incumbent", "pyensys/Optimisers/NonAnticipativeRecursiveFunction.py:_delete_offsprings_from_incumbent", "pyensys/Optimisers/RecursiveFunction.py:InvestmentPlanData.is_empty"]}
{"id": "C20", "title": "Incumbent keys identify one solution each", "statement": "After renumbering, the keys of the incumbent are pairwise distinct and are '0',...,'n-1' for n stored solutions.", "quantifier": "all key lists that can be left after eliminating offspring", "why_tests_cant": "fails only for particular deletion patterns", "anchors": ["pyensys/Optimisers/NonAnticipativeRecursiveFunction.py:_renumber_keys_in_incumbent", "pyensys/Optimisers/NonAnticipativeRecursiveFunction.py:_determine_keys_to_be_renumbered"]}
{"id": "C21", "title": "Eliminating offspring removes exactly the solutions that extend the candidate", "statement": "Eliminating the offspring of the candidate removes from the incumbent exactly the stored solutions whose path begins with the candidate path and keeps every other stored solution (path, interventions, costs) unchanged.", "quantifier": "all incumbents and candidate paths", "why_tests_cant": "set characterisation over all incumbents", "anchors": ["pyensys/Optimisers/NonAnticipativeRecursiveFunction.py:_eliminate_offsprings_of_candidate_in_incumbent", "pyensys/Optimisers/NonAnticipativeRecursiveFunction.py:_find_keys_of_offsprings_in_incumbent"]}
{"id": "C22", "title": "Plans for scenarios that share a node agree on the decisions taken there", "statement": "In the recorded complete plan two scenario paths that share a tree node carry the same interventions at that node (non-anticipativity).", "quantifier": "all trees, pools, OPF behaviours", "why_tests_cant": "a relational property of the final result over all executions", "anchors": ["pyensys/Optimisers/NonAnticipativeRecursiveFunction.py:NonAnticipativeRecursiveFunction._interventions_handler", "pyensys/Optimisers/NonAnticipativeRecursiveFunction.py:NonAnticipativeRecursiveFunction._store_partial_tree"]}
{"id": "C23", "title": "The recorded plan is optimal among feasible plans", "statement": "When a feasible assignment of interventions to tree nodes exists, the recorded complete plan exists and has minimal total cost.", "quantifier": "all trees, pools, OPF behaviours that are functions of node and built interventions", "why_tests_cant": "optimality over the exponential plan space", "anchors": ["pyensys/Optimisers/NonAnticipativeRecursiveFunction.py:NonAnticipativeRecursiveFunction.solve"]}
{"id": "C24", "title": "The stored investment cost is the cost of the stored interventions", "statement": "For every stored solution the recorded investment cost equals the discounted cost of exactly the interventions recorded with it.", "quantifier": "all stored solutions in all reachable states", "why_tests_cant": "append and replace compute the cost from different sets; only visible with lead times", "anchors": ["pyensys/Optimisers/NonAnticipativeRecursiveFunction.py:NonAnticipativeRecursiveFunction._append_candidate_in_incumbent_list", "pyensys/Optimisers/NonAnticipativeRecursiveFunction.py:_get_already_build_interventions"]}
{"id": "C25", "title": "Every recorded intervention comes from the pool and is used at most once per path", "statement": "Each intervention in a stored solution is an entry of the pool, and along one stored path no pool entry appears twice.", "quantifier": "all executions", "why_tests_cant": "invariant over all reachable search states", "anchors": ["pyensys/Optimisers/NonAnticipativeRecursiveFunction.py:NonAnticipativeRecursiveFunction._interventions_handler", "pyensys/Optimisers/RecursiveFunction.py:RecursiveFunction._calculate_available_interventions"]}
{"id": "C26", "title": "A replaced incumbent solution is never more expensive", "statement": "When a solution already stored for the candidate's path is replaced, its new recorded total cost is strictly smaller than the previous one; otherwise the incumbent is unchanged.", "quantifier": "all states", "why_tests_cant": "monotonicity over all states", "anchors": ["pyensys/Optimisers/NonAnticipativeRecursiveFunction.py:NonAnticipativeRecursiveFunction._replace_incumbent_if_candidate_is_better"]}
{"id": "C27", "title": "Only interventions whose construction is finished reach the OPF and the stored plan", "statement": "The interventions activated in the OPF are exactly those of the candidate and of the current new interventions whose remaining construction time is <= 0, and the stored plan keeps exactly those of the candidate whose remaining time is <= 0.", "quantifier": "all candidate states", "why_tests_cant": "filtering characterisation over all states", "anchors": ["pyensys/Optimisers/NonAnticipativeRecursiveFunction.py:_get_interventions_ready_to_operate_in_opf", "pyensys/Optimisers/NonAnticipativeRecursiveFunction.py:_get_already_build_interventions"]}
{"id": "C28", "title": "Updating construction times shifts every time by the period and is undone by the opposite period", "statement": "update_remaining_construction_time(info, d) adds d to every remaining construction time (candidate and new) and changes nothing else, so calling it with d and then -d is the identity.", "quantifier": "all states with one entry per intervention, all periods", "why_tests_cant": "group action law over all states", "anchors": ["pyensys/Optimisers/NonAnticipativeRecursiveFunction.py:update_remaining_construction_time"]}
{"id": "C29", "title": "Discounted totals", "statement": "The investment and operation totals are sums over levels of the level's cost weighted by 1/(1-r/100)^(years since the first year), are additive in the costs, and with 0 <= r < 100 the weight of a later year is never smaller than that of an earlier one (i.e. costs are inflated, not discounted, with time).", "quantifier": "all return rates, year lists and cost sequences", "why_tests_cant": "arithmetic law over all rates and horizons", "anchors": ["pyensys/Optimisers/NonAnticipativeRecursiveFunction.py:NonAnticipativeRecursiveFunction._calculate_investment_cost", "pyensys/Optimisers/NonAnticipativeRecursiveFunction.py:NonAnticipativeRecursiveFunction._calculate_opteration_cost"]}
{"id": "C30", "title": "The anticipative search cannot deliver a result", "statement": "With non_anticipative = False the access function performs no search and returns None, and the base solver's solve raises as soon as it reaches a feasible leaf (and on any attempt to combine interventions), so it can never store a plan.", "quantifier": "all inputs", "why_tests_cant": "a statement about all executions of the base class", "anchors": ["pyensys/managers/GeneralManager.py:main_access_function", "pyensys/Optimisers/RecursiveFunction.py:RecursiveFunction._calculate_investment_cost", "pyensys/Optimisers/RecursiveFunction.py:RecursiveFunction._add_new_interventions_from_combinations"]}
{"id": "C31", "title": "The solution tables report each scenario's plan", "statement": "get_solution lists, for each path of the complete plan, each scenario of each node with the year of that node and each recorded line intervention, and one investment and one operation cost per scenario of the last node; rows for other element types never appear in the lines table.", "quantifier": "all complete plans", "why_tests_cant": "output must match the plan for every plan", "anchors": ["pyensys/Optimisers/NonAnticipativeRecursiveFunction.py:NonAnticipativeRecursiveFunction.get_solution"]}
{"id": "C32", "title": "Every scenario belongs to exactly one node per level", "statement": "For every profile the nodes created for one row partition the scenarios: each scenario index lies in exactly one node of the row, two scenarios share a node iff their clustered values are equal, node numbers are consecutive from 0 and levels are the row numbers.", "quantifier": "all profiles (any number of rows, scenarios, values)", "why_tests_cant": "partition property over all data frames", "anchors": ["pyensys/Optimisers/ControlGraphsCreator.py:GraphNodesCreator.determine_graph_nodes"]}
{"id": "C33", "title": "Edges join exactly the consecutive-level nodes that share a scenario", "statement": "There is an edge a -> b iff b is one level below a and some scenario belongs to both; hence each scenario traces a path through all levels.", "quantifier": "all profiles", "why_tests_cant": "characterisation over all inputs", "anchors": ["pyensys/Optimisers/ControlGraphsCreator.py:GraphEdgesCreator.determine_graph_edges"]}
{"id": "C34", "title": "Graph-to-tree conversion gives every node at most one predecessor and keeps the scenario histories", "statement": "After conversion each node has at most one predecessor and the label sequences of root-to-leaf paths are those of the original graph.", "quantifier": "all layered control graphs with a single root", "why_tests_cant": "structural theorem over all graphs", "anchors": ["pyensys/Optimisers/ControlGraphsCreator.py:GraphtoTreeConverter.convert"]}
{"id": "C35", "title": "Node data are averages over the node's scenarios and year", "statement": "For each node and bus the p_mw/q_mvar handed to the OPF is the mean over the rows of the input whose scenario is one of the node's scenarios, whose year is the node's year and whose bus is that bus; buses without rows are absent and each bus appears once.", "quantifier": "all input tables and nodes", "why_tests_cant": "aggregation law over all tables", "anchors": ["pyensys/Optimisers/ControlGraphsCreator.py:RecursiveFunctionGraphCreator._adapt_information_buses"]}
{"id": "C36", "title": "Centroids are the means of the members of the scenario's cluster", "statement": "When the cluster labels of a time step are 0..k-1 with every label used, each scenario's centroid is the arithmetic mean of the values of the scenarios with the same label; with gaps in the labels the call raises or mixes clusters.", "quantifier": "all label vectors and value vectors", "why_tests_cant": "sorting/grouping correctness for all inputs; failure only for particular label sets", "anchors": ["pyensys/data_processing/clustering.py:TimeSeriesClustering._calculate_single_time_step_centroids"]}
{"id": "C37", "title": "Clustering preserves the total of each time step", "statement": "Replacing each value by its cluster centroid preserves the sum (hence the mean) over scenarios and keeps every centroid between the smallest and largest value of its cluster.", "quantifier": "all contiguous label vectors and values", "why_tests_cant": "conservation law over all inputs", "anchors": ["pyensys/data_processing/clustering.py:TimeSeriesClustering._assign_centroids"]}
{"id": "C38", "title": "Network updates start from the original network", "statement": "update_multiple_parameters with initialise=True yields a network that depends only on the input data and the given list, not on any earlier update, so repeating a call gives the same network.", "quantifier": "all histories of earlier updates and all update lists", "why_tests_cant": "history independence over all call sequences", "anchors": ["pyensys/wrappers/PandaPowerManager.py:PandaPowerManager.update_multiple_parameters"]}
{"id": "C39", "title": "A line upgrade changes only that line and keeps impedance times capacity constant", "statement": "Applying a line investment puts the line in service, raises its current limit by cap/(V*sqrt 3), scales r and x so that r*max_i and x*max_i are unchanged, and leaves every other line and table untouched; a cluster investment does this for each listed line number minus one.", "quantifier": "all networks, lines and capacities", "why_tests_cant": "frame condition plus algebraic invariant over all networks", "anchors": ["pyensys/wrappers/PandaPowerManager.py:PandaPowerManager.update_multiple_parameters"]}
{"id": "C40", "title": "Order independence of line upgrades", "statement": "Applying several line upgrades in any order gives the same network, and upgrades of the same line add their capacities.", "quantifier": "all lists of upgrades and all permutations", "why_tests_cant": "commutation over all permutations", "anchors": ["pyensys/wrappers/PandaPowerManager.py:PandaPowerManager.update_multiple_parameters"]}
{"id": "C41", "title": "A load update changes exactly one load", "statement": "A load update sets the named parameter of the first load connected to the given bus, changes nothing else, and raises IndexError iff no load is connected to that bus.", "quantifier": "all networks, buses, values", "why_tests_cant": "frame condition over all networks", "anchors": ["pyensys/wrappers/PandaPowerManager.py:PandaPowerManager.update_multiple_parameters"]}
{"id": "C42", "title": "Profile aggregation conserves the mean and rejects mismatched lengths", "statement": "A profile longer than the number of OPF periods is replaced by block means when its length is a multiple of that number (the result has exactly that many rows and the same column means), is rejected with ValueError otherwise, a shorter one is rejected and an equal one is untouched.", "quantifier": "all profile lengths, widths and values", "why_tests_cant": "arithmetic for all lengths", "anchors": ["pyensys/readers/JSONReader.py:ReadJSON._adjust_pandapower_profiles_to_time_settings", "pyensys/readers/JSONReader.py:ReadJSON._recalculate_pandapower_profile_data"]}
{"id": "C43", "title": "Normalised demand equals one in the first year", "statement": "The demand multipliers read from tabular data are each scenario/year apparent power divided by that of the first year; the first-year multipliers are all 1, and inputs whose first-year totals differ between scenarios are rejected.", "quantifier": "all input tables", "why_tests_cant": "law over all tables", "anchors": ["pyensys/readers/JSONReader.py:_normalise_system_apparent_power", "pyensys/readers/JSONReader.py:ReadJSON._create_optimisation_profiles_based_on_attest_dataframes"]}
{"id": "C44", "title": "Numbers in MATPOWER files are read back exactly", "statement": "For every plain decimal or exponent numeral (optional leading '-' or other non-numeric characters, digits with at most one point, optional e+k / e-k exponent, or, without exponent, optional trailing punctuation) the reader returns its exact numeric value.", "quantifier": "all numeral strings of the grammar", "why_tests_cant": "parser correctness over an infinite language", "anchors": ["pyensys/readers/JSONReader.py:_get_digit_string"]}
{"id": "C45", "title": "Rows of the attest profile are partitioned by type", "statement": "Reading an attest profile yields one profile per distinct type value, in order of first appearance, and each input row goes to exactly the profile of its type, with element index shifted from 1-based to 0-based.", "quantifier": "all spreadsheets", "why_tests_cant": "partition property over all inputs", "anchors": ["pyensys/readers/JSONReader.py:_divide_data_per_type", "pyensys/readers/JSONReader.py:_store_indexes_and_element_type"]}
{"id": "C46", "title": "Missing sections fall back to uninitialised defaults", "statement": "For each optional section of the JSON input, the corresponding settings are marked initialised iff the section is present, and absent optional keys take the documented default.", "quantifier": "all JSON documents", "why_tests_cant": "over all subsets of present keys", "anchors": ["pyensys/readers/JSONReader.py:ReadJSON._read_data_from_dictionary"]}
{"id": "C47", "title": "Catalogue rounding returns the smallest sufficient size", "statement": "When investment sizes are rounded to the catalogue, each positive requirement becomes the smallest catalogue size that is at least as large, zero stays zero, and a requirement above the largest size is handled as specified.", "quantifier": "all catalogues and requirements", "why_tests_cant": "extremal characterisation over all inputs", "anchors": ["pyensys/cases.py:Screenning_clusters"]}
{"id": "C48", "title": "Screening keeps distinct, sorted, non-empty clusters within the limit", "statement": "The clusters returned by the screening are pairwise distinct rows of the rounded input and no more than Max_clusters of them are kept.", "quantifier": "all candidate sets and limits", "why_tests_cant": "over all inputs", "anchors": ["pyensys/cases.py:Screenning_clusters"]}
{"id": "C49", "title": "Scenario tree growth doubles the multipliers consistently", "statement": "The demand multipliers built for the ATTEST cases contain 2^y values in year y, each scenario's position in year y is a prefix-consistent ancestor of its position in year y+1, and active and passive growth scenarios bound the interpolated ones.", "quantifier": "any number of years and growth data", "why_tests_cant": "structural claim for every horizon", "anchors": ["pyensys/cases.py:attest_invest", "pyensys/cases.py:build_json"]}
{"id": "C50", "title": "Energy tree: node numbering is a partition and Before inverts After", "statement": "In the multi-scale energy balance, the nodes generated for every tree layout are numbered without gaps, every node except the root has exactly one parent and the parent's range of children contains it.", "quantifier": "all layouts (any depth and any branching per level)", "why_tests_cant": "bijection for all tree shapes", "anchors": ["pyensys/engines/pyeneE.py:EnergyClass._Connect", "pyensys/engines/pyeneE.py:EnergyClass._Measure"]}
{"id": "C51", "title": "Energy tree: scenario ranges cover all leaves once", "statement": "Every final node belongs to exactly one scenario and the number of scenarios is the product of the branching of the layout.", "quantifier": "all layouts", "why_tests_cant": "counting for all shapes", "anchors": ["pyensys/engines/pyeneE.py:EnergyClass._Connect"]}
{"id": "C52", "title": "N-1 bookkeeping excludes exactly the failed branch", "statement": "In each contingency scenario the set of branches with flow variables is all branches except the failed one, the base case has all, and flow positions of different (scenario, branch) pairs do not collide.", "quantifier": "all branch counts and contingency lists", "why_tests_cant": "index arithmetic over all networks", "anchors": ["pyensys/engines/pyeneD.py:ElectricityNetwork.initialise"]}
{"id": "C53", "title": "Wind power curve stays within its physical limits", "statement": "For every wind speed series the computed output is 0 below cut-in and above cut-out, at most rated power, and monotone between cut-in and rated speed.", "quantifier": "all speeds and curve parameters", "why_tests_cant": "over a continuum of inputs", "anchors": ["pyensys/engines/pyeneR.py:RESprofiles.buildWind"]}
{"id": "C54", "title": "Failure/repair simulation yields alternating up and down periods of the sampled lengths", "statement": "The 0/1 availability rows produced by the stochastic module are 1 exactly outside the sampled repair intervals, and the simulation loop terminates for positive sampled times.", "quantifier": "all sequences of sampled times and horizons", "why_tests_cant": "over all random draws", "anchors": ["pyensys/engines/pyene_Stochastic.py:calculatematrixfailureandrecover"]}
{"id": "C55", "title": "Piecewise cost curves reproduce the polynomial at the break points", "statement": "The linear pieces generated for a generation cost curve are consecutive, cover [Pmin, Pmax] and agree with the cost function at every break point.", "quantifier": "all cost functions and piece counts", "why_tests_cant": "over all coefficients", "anchors": ["pyensys/engines/pyeneD.py:GenClass"]}
{"id": "C56", "title": "Capacity verification returns the cheapest feasible cluster per node", "statement": "The cluster verification tries clusters in increasing cost and returns for each node the first one whose OPF converges on the upgraded network, where the upgraded network contains only that cluster's upgrades.", "quantifier": "all cluster lists, networks and OPF behaviours", "why_tests_cant": "over all OPF behaviours", "anchors": ["pyensys/Optimisers/clusters_verification_function.py:clusters_verification"]}
{"id": "C57", "title": "The search reports success exactly when it has recorded a plan", "statement": "The Boolean returned by the non-anticipative search is True if and only if a complete plan has been recorded when it ends.", "quantifier": "all trees, pools, OPF behaviours", "why_tests_cant": "over all OPF behaviours and trees", "anchors": ["pyensys/Optimisers/NonAnticipativeRecursiveFunction.py:NonAnticipativeRecursiveFunction.solve"]}
{"id": "C58", "title": "Rows of the lines table belong to the scenario's own plan", "statement": "Every row (scenario, year, line) of the lines table returned by get_solution is an intervention recorded in a solution in which that scenario ends.", "quantifier": "all trees, pools, OPF behaviours", "why_tests_cant": "depends on which plans the search can record, over all OPF behaviours", "anchors": ["pyensys/Optimisers/NonAnticipativeRecursiveFunction.py:NonAnticipativeRecursiveFunction.get_solution"]}
{"id": "C59", "title": "Every root-to-leaf path of the control tree is the history of a scenario", "statement": "For every path of the control tree from the root to a leaf there is a scenario that belongs to all nodes of the path, so that the search plans only for histories that occur in the input.", "quantifier": "all clustered tables with a common first year, all iteration orders of sets", "why_tests_cant": "depends on how nodes are shared and copied over arbitrarily many years", "anchors": ["pyensys/Optimisers/ControlGraphsCreator.py:GraphtoTreeConverter._create_duplicates_from_common_node"]}
{"id": "C60", "title": "No scenario is lost when the control tree is built", "statement": "For every scenario of the clustered table the control tree has a root-to-leaf path whose nodes all list that scenario.", "quantifier": "all rectangular clustered tables with at least two years", "why_tests_cant": "quantifies over all tables, including those whose scenarios differ from the first year on", "anchors": ["pyensys/Optimisers/ControlGraphsCreator.py:GraphtoTreeConverter.convert", "pyensys/wrappers/networkx_wrapper.py:DirectedGraph.get_first_node"]}
{"id": "C61", "title": "From the clustered table to a plan for every scenario", "statement": "For every rectangular table with a common first year the control tree is built, the non-anticipative search on it returns without exception, and a recorded plan contains for every scenario a row whose path has one node per year, each node listing the scenario.", "quantifier": "all tables, pools with distinct keys, return rates other than 100 %, OPF outcomes and set iteration orders", "why_tests_cant": "end-to-end composition over all inputs", "anchors": ["pyensys/Optimisers/ControlGraphsCreator.py:RecursiveFunctionGraphCreator.create_recursive_function_graph", "pyensys/Optimisers/NonAnticipativeRecursiveFunction.py"]}
{"id": "C62", "title": "Every OPF of the non-anticipative search runs in original network plus finished interventions plus node demands", "statement": "Whatever OPFs and updates came before, the network in which the OPF of a node is run has, for every line, its original data plus exactly the capacities of the finished interventions, and, for every load, the node's averaged demand for its bus (or the original one); nothing else differs from the original network.", "quantifier": "all networks, histories, lists of finished interventions (single lines and clusters) and node data", "why_tests_cant": "The network is a mutable object shared by thousands of OPFs in a search; a leak between two of them shows only for particular orders of calls.", "anchors": ["pyensys/Optimisers/RecursiveFunction.py:RecursiveFunction._operational_check", "pyensys/Optimisers/NonAnticipativeRecursiveFunction.py:NonAnticipativeRecursiveFunction._update_status_elements_opf", "pyensys/wrappers/PandaPowerManager.py:PandaPowerManager.update_multiple_parameters"]}
{"id": "C63", "title": "Flexible-unit data reach the network", "statement": "When the input has data for flexible units, the limits and costs of the static generators in the network of a node's OPF are the averages of the node's rows.", "quantifier": "all tables of flexible units and all nodes", "why_tests_cant": "It must hold for every unit, column and node; a test fixes one table.", "anchors": ["pyensys/Optimisers/RecursiveFunction.py:RecursiveFunction._parameters_for_flexible_units", "pyensys/wrappers/PandaPowerManager.py:PandaPowerManager.update_multiple_parameters"]}
{"id": "C64", "title": "An OPF that fails counts as infeasible", "statement": "When the OPF solver raises, the wrapper swallows the exception and the node is reported infeasible, whatever the result of earlier OPFs.", "quantifier": "all histories of OPF runs and all solver behaviours", "why_tests_cant": "The verdict is a flag left in a mutable network; whether it is stale depends on the order of updates and failures.", "anchors": ["pyensys/wrappers/PandaPowerWrapper.py:PandaPowerWrapper.run_ac_opf", "pyensys/wrappers/PandaPowerWrapper.py:PandaPowerWrapper.is_feasible"]}
{"id": "C65", "title": "Scenarios of one cluster share the node of that year", "statement": "In the control graph built from the clustered profile, two scenarios are in the same node of a year if and only if the means of their clusters of that year are equal; in particular scenarios put in the same cluster always share the node, whereas different clusters with equal means are merged.", "quantifier": "all profiles and all clusterings", "why_tests_cant": "It ties two modules together and must hold for every label vector the clustering library may return.", "anchors": ["pyensys/Optimisers/ControlGraphsCreator.py:create_profile_clusters", "pyensys/Optimisers/ControlGraphsCreator.py:GraphNodesCreator.determine_graph_nodes", "pyensys/data_processing/clustering.py:TimeSeriesClustering.calculate_clusters_centroids"]}
{"id": "C66", "title": "The year of a node's data is the year the search uses for it", "statement": "At each level, the year whose rows are averaged for the node is the year used for construction times and discounting.", "quantifier": "all orders of the years in the input table", "why_tests_cant": "Two separately stored year lists (one sorted, one not) must agree for every input order.", "anchors": ["pyensys/Optimisers/ControlGraphsCreator.py:RecursiveFunctionGraphCreator._create_map_node_to_data_power_system", "pyensys/Optimisers/NonAnticipativeRecursiveFunction.py:NonAnticipativeRecursiveFunction.solve"]}
{"id": "C67", "title": "Demands of the input table reach the OPF", "statement": "If every bus of the demand table has a load, the network in which the OPF of a node runs holds, for each load, the mean of the input rows of the node's scenarios, the node's year and the load's bus; a load without such rows keeps its original values.", "quantifier": "all networks, histories, demand tables, nodes and finished interventions", "why_tests_cant": "The path from table to network crosses four modules and a mutable network; tests exercise single buses.", "anchors": ["pyensys/Optimisers/ControlGraphsCreator.py:RecursiveFunctionGraphCreator._adapt_information_buses", "pyensys/Optimisers/RecursiveFunction.py:RecursiveFunction._update_parameters_in_opf", "pyensys/wrappers/PandaPowerManager.py:PandaPowerManager.update_multiple_parameters"]}
{"id": "C68", "title": "From the demand table to a plan for every scenario", "statement": "For a demand table with a common non-zero first-year demand and at least two years, reading, clustering (with any grouping), building the control tree and the non-anticipative search all finish without exception, and a recorded plan has for every scenario of the table one row with one node per year whose network data were averaged from that year's rows including the scenario's own.", "quantifier": "all demand tables, all groupings by the clustering, all pools and OPF behaviours", "why_tests_cant": "Composition of five components over all tables; a test fixes one table and one clustering.", "anchors": ["pyensys/readers/JSONReader.py:ReadJSON._create_optimisation_profiles_based_on_attest_dataframes", "pyensys/Optimisers/ControlGraphsCreator.py:RecursiveFunctionGraphCreator", "pyensys/Optimisers/NonAnticipativeRecursiveFunction.py:NonAnticipativeRecursiveFunction"]}
{"id": "C69", "title": "No token of a case file is silently misread as another number", "statement": "A token that contains a number in a notation the MATPOWER reader does not support (exponent without sign, capital E, sign after a bracket, several points, text after an exponent) is rejected with an exception and never stored as a different number.", "quantifier": "all tokens", "why_tests_cant": "Ranges over all strings; tests only use well-formed files.", "anchors": ["pyensys/readers/JSONReader.py:_get_digit_string"]}
{"id": "C70", "title": "A case file is read back completely", "statement": "For every file whose lines are comments, numbers or matrices laid out row by row (one row per line, name on its own line, closing line), the saved dictionary holds for each element exactly the numbers of the file; values on the line of the name are rejected, and so is a matrix that is not closed.", "quantifier": "all files of the layout, any number of matrices, rows and comments", "why_tests_cant": "Unbounded files and tokens.", "anchors": ["pyensys/readers/JSONReader.py:_build_mat_file"]}
{"id": "C71", "title": "No row of a matrix in a case file is lost", "statement": "Whenever a case file is read without exception, every row of numbers of a matrix is stored.", "quantifier": "all files", "why_tests_cant": "Unbounded files; the loss is silent.", "anchors": ["pyensys/readers/JSONReader.py:_build_mat_file"]}
{"id": "C72", "title": "Reading a document replaces everything read before", "statement": "After a successful reading with a reader object that was used before, all settings, profiles, binary variables and tables are exactly those a fresh reader would have obtained from the same document.", "quantifier": "all documents, all histories of earlier readings on the same object", "why_tests_cant": "Ranges over every earlier history of the object; tests read once.", "anchors": ["pyensys/readers/JSONReader.py:ReadJSON.read_parameters_power_system_optimisation_from_json_file", "pyensys/readers/JSONReader.py:ReadJSON._load_optimisation_binary_variables"]}
{"id": "C73", "title": "The demand table of the planning document is the case's demand times the growth factor", "statement": "For every case, growth tree and choice of scenarios, the table of the document has exactly one row for each chosen scenario, year and bus with non-zero active demand; its active and reactive demand are the case's values times the factor found on the scenario's path in that year, and scenarios are numbered from 1.", "quantifier": "all cases, any number of years, scenarios and buses", "why_tests_cant": "The position on the tree must be right for every horizon and scenario number.", "anchors": ["pyensys/cases.py:build_json"]}
{"id": "C74", "title": "The document built from growth rates can be read and planned", "statement": "For every case with some demand and every growth table for at least two increasing years (and a first-year factor other than zero), the document's demand table is accepted by the reader, the scenarios have equal first-year demand, and the tree building and the search end without exception with a plan in which every scenario has one node per year built from its own rows.", "quantifier": "all cases, growth tables, scenario choices, cluster labels", "why_tests_cant": "Composition of document builder, reader, clustering, tree conversion and search; unbounded sizes.", "anchors": ["pyensys/cases.py:attest_invest", "pyensys/cases.py:build_json", "pyensys/readers/JSONReader.py:ReadJSON._load_scenarios_data", "pyensys/Optimisers/ControlGraphsCreator.py:ClusteringOperator", "pyensys/Optimisers/RecursiveFunction.py:RecursiveFunction.operate"]}
{"id": "C75", "title": "Investment options carry exactly the sizes and costs of their clusters", "statement": "The document has one investment option per cluster, in order, listing exactly the branches with positive size (1-based, increasing), each with the capacity found oversize places further in the catalogue, at the sum over these branches of unit cost times length; this succeeds exactly when every positive size and its oversized entry exist.", "quantifier": "all catalogues, costs, lengths, clusters and oversize values", "why_tests_cant": "Unbounded clusters and catalogues; a lost or shifted entry is silent.", "anchors": ["pyensys/cases.py:build_json"]}
{"id": "C76", "title": "Applying an investment option upgrades exactly the branches of its cluster", "statement": "The intervention the solver makes of the k-th option has key k and the option's cost, and applying it to the network raises the limit of every branch with positive size by exactly its bought capacity and changes no other branch, load or voltage.", "quantifier": "all clusters, networks and catalogues", "why_tests_cant": "Composition across the document (1-based) and the wrapper (0-based) for every cluster.", "anchors": ["pyensys/cases.py:build_json", "pyensys/Optimisers/RecursiveFunction.py:RecursiveFunction._create_pool_interventions", "pyensys/wrappers/PandapowerManager.py:PandaPowerManager.update_multiple_parameters"]}
{"id": "C77", "title": "Lists given as text are read as the numbers written", "statement": "A list of numbers given as text for catalogue, costs, lengths or scenarios is read as those numbers.", "quantifier": "all texts", "why_tests_cant": "Ranges over all texts.", "anchors": ["pyensys/cases.py:kwargs2ListF"]}
{"id": "C78", "title": "The fixed country multipliers grow every economy from its own previous level", "statement": "In the table of multipliers by country, each year's first and last entries are the first and last entries of the previous year grown with the rates of the active and slow economies, and the entries between are evenly spaced.", "quantifier": "all growth rates", "why_tests_cant": "Must hold for every rate, tests fix the three countries.", "anchors": ["pyensys/Optimisers/scenarios_multipliers.py:get_mult"]}
{"id": "C79", "title": "Screening solves one programme per year and scenario, with the investments of earlier years in place", "statement": "A completed screening has solved exactly one investment programme per year and scenario, in order, each with that scenario's multipliers and with the accumulated investments found for the last scenario of every earlier year; it reports one rounded cluster per programme, and merging the findings afterwards never raises.", "quantifier": "all multiplier tables with non-empty years, all catalogues, all answers of the programmes", "why_tests_cant": "Ranges over every number of years, scenarios and every answer of the LP.", "anchors": ["pyensys/Optimisers/screening_model_CLI.py:main_screening", "pyensys/cases.py:Screenning_clusters"]}
{"id": "C80", "title": "Too many clusters are thinned by cost against evenly spaced ideal costs", "statement": "If screening finds more different clusters than allowed, exactly the allowed number is returned, each kept cluster being one that is nearest in cost to the corresponding evenly spaced ideal cost among those not yet passed.", "quantifier": "all screening results and limits", "why_tests_cant": "Depends on every cost constellation.", "anchors": ["pyensys/cases.py:Screenning_clusters"]}
{"id": "C81", "title": "Clusters are returned ordered from small to large and never empty", "statement": "The clusters returned by screening are non-empty and ordered so that no later cluster is contained in an earlier one; the reference for the ideal costs is the largest cluster.", "quantifier": "all screening results", "why_tests_cant": "Order of incomparable clusters for any number of branches.", "anchors": ["pyensys/cases.py:Screenning_clusters"]}
{"id": "C82", "title": "Screening succeeds whenever the requirements fit the catalogues", "statement": "If every programme is solvable and every requirement is covered by the catalogue of its kind of branch, screening returns clusters and does not raise.", "quantifier": "all networks, catalogues and limits", "why_tests_cant": "Absence of exceptions over all inputs.", "anchors": ["pyensys/cases.py:Screenning_clusters", "pyensys/Optimisers/screening_model_CLI.py:main_screening"]}
{"id": "C83", "title": "The screening programme describes a DC power flow plan", "statement": "For a case with different bus numbers, the feasible points of the investment programme are exactly the plans: generators that are off produce nothing and the others stay between PMIN and multiplier times PMAX, flows follow angles and reactances, branches that are out carry nothing, flows stay within rating plus investment (rating 0 is no limit), each bus receives its multiplied active and reactive demand and additional demand without curtailment, and at most its active demand is curtailed.", "quantifier": "all cases, multipliers, contingencies, previous investments and points", "why_tests_cant": "Equivalence over all points of a linear programme of any size.", "anchors": ["pyensys/Optimisers/screening_model_CLI.py:model_screening"]}
{"id": "C84", "title": "Power is balanced over every part of the network", "statement": "In every feasible plan, contingency and set of buses, what the buses take equals what their generators produce plus what flows in minus what flows out; over the whole network generation equals demand without curtailment.", "quantifier": "all cases, feasible plans, contingencies and sets of buses", "why_tests_cant": "Ranges over all subsets of all networks.", "anchors": ["pyensys/Optimisers/screening_model_CLI.py:model_screening"]}
{"id": "C85", "title": "An optimal screening plan invests exactly what its flows need", "statement": "In an optimal plan the investment in every branch is the least non-negative one with which its flows fit in all contingencies; nothing is invested in branches without limit or that are always out, and any positive investment is fully used in some contingency.", "quantifier": "all cases with positive investment cost and all optimal plans", "why_tests_cant": "Optimality over all points.", "anchors": ["pyensys/Optimisers/screening_model_CLI.py:model_screening"]}
{"id": "C86", "title": "The direction in which a branch is written down does not matter", "statement": "Writing a branch from its other end leaves plans, investments, costs and optima unchanged.", "quantifier": "all cases, branches and plans", "why_tests_cant": "Symmetry of all feasible sets.", "anchors": ["pyensys/Optimisers/screening_model_CLI.py:model_screening"]}
{"id": "C87", "title": "Generation costs in screening follow the cost curve of each generator", "statement": "In an optimal plan the cost of a generator with convex polynomial cost is never below its curve and exact at the breakpoints; for quadratic costs it exceeds the curve by at most a bound given by the curve.", "quantifier": "all cases, generators with polynomial cost, optimal plans", "why_tests_cant": "Ranges over all polynomials and outputs.", "anchors": ["pyensys/Optimisers/screening_model_CLI.py:model_screening"]}
{"id": "C88", "title": "Every complete case can be screened and has a plan", "statement": "For every complete case the programme can be built without an exception and has at least one feasible plan (demand can be curtailed).", "quantifier": "all complete cases", "why_tests_cant": "Absence of exceptions and of infeasibility over all networks.", "anchors": ["pyensys/Optimisers/screening_model_CLI.py:model_screening"]}
{"id": "C89", "title": "Buying a reported cluster is enough for its scenario", "statement": "With an exact solver, each cluster reported by screening, bought in full, allows the solver's plan of its year and scenario, given the investments assumed for earlier years.", "quantifier": "all cases, catalogues, multiplier tables and exact solvers", "why_tests_cant": "Composition of rounding, multi-year loop and programme for all runs.", "anchors": ["pyensys/Optimisers/screening_model_CLI.py:main_screening", "pyensys/Optimisers/screening_model_CLI.py:model_screening"]}
{"id": "C90", "title": "Verification upgrades exactly the branches of the cluster", "statement": "Applying a cluster with one entry per branch raises the current limit of each line by the bought MVA divided by the voltage and the size of each transformer by the bought MVA, where the n-th branch without a tap is the n-th line, and changes nothing else. For three-phase lines the power this adds should be the MVA bought (it is sqrt(3) times as much).", "quantifier": "all networks, tap vectors and clusters", "why_tests_cant": "Counters over mixed branch lists of any length; partial effects when an exception is swallowed.", "anchors": ["pyensys/Optimisers/clusters_verification_function.py:clust_verification_function"]}
{"id": "C91", "title": "Every tree node gets its own verified cluster", "statement": "For a binary tree, the cluster and cost of the node at position j of year y are stored under number 2^y-1+j, computed on the loads of that node (scaled by the first bus's multiplier, plus the additional loads of the year); failure is reported exactly if for some node no cluster works; trees with more nodes than a binary one raise.", "quantifier": "all multiplier trees, networks, clusters, OPF behaviours", "why_tests_cant": "All trees and all OPF behaviours.", "anchors": ["pyensys/Optimisers/clusters_verification_function.py:clust_verification_function"]}
{"id": "C92", "title": "The verification report describes one path per scenario and a consistent total", "statement": "For up to four years the two reported scenarios are the first and the last node of each year; the total of a scenario is the cost of its investments; if less load never makes the OPF diverge and multipliers do not fall, costs do not fall over the years.", "quantifier": "all results, year lists and OPF behaviours", "why_tests_cant": "Monotonicity over all OPF behaviours and cluster lists.", "anchors": ["pyensys/cases.py:save_in_jsonW_2", "pyensys/Optimisers/clusters_verification_function.py:clust_verification_function"]}
{"id": "C93", "title": "The planning command verifies the clusters it was given", "statement": "If the user passes clusters, these are verified; otherwise those of the screening with its multipliers; the output is an abort message exactly if there are none, a warning exactly if verification fails, else the report.", "quantifier": "all inputs and all histories of earlier runs (files left behind)", "why_tests_cant": "Depends on files left by any earlier run.", "anchors": ["pyensys/cases.py:attest_invest", "pyensys/Optimisers/clusters_verification_function.py:clust_verification_function"]}
{"id": "C94", "title": "Energy tree: states follow each other in the order of the data", "statement": "In the energy balance a period starts from the end of the period before it under the same parent; the first one, and every alternative of an uncertain node, starts from the start of the parent; the end of a period is computed from the end of its last sub-period, or its own start if it has none.", "quantifier": "all layouts with at least one name per period, all uncertainty flags", "why_tests_cant": "Recursive traversal over every tree shape.", "anchors": ["pyensys/engines/pyeneE.py:EnergyClass.Mapping", "pyensys/engines/pyeneE.py:EnergyClass._Connect"]}
{"id": "C95", "title": "Energy accounting", "statement": "In every solution of the balance, aggregation and stochastic constraints, the state of charge at the end of a period is the one it starts from plus its weight times (inputs minus outputs plus what its sub-periods add), whether sub-periods follow each other or are alternatives; the constraints have exactly one solution, and over the horizon the balance closes.", "quantifier": "all layouts, flags, weights, inputs and outputs, all feasible states", "why_tests_cant": "All real-valued solutions for all trees.", "anchors": ["pyensys/engines/pyeneE.py:EnergyClass.cSoCBalance_rule", "pyensys/engines/pyeneE.py:EnergyClass.cSoCAggregate_rule", "pyensys/engines/pyeneE.py:EnergyClass.cSoCStochastic_rule", "pyensys/engines/pyeneE.py:EnergyClass._Link"]}
{"id": "C96", "title": "Every uncertainty flag is accepted and constrains its nodes", "statement": "initialise accepts uncertainty in any period, and the state at the end of every uncertain node is determined by its alternatives.", "quantifier": "all layouts and flags", "why_tests_cant": "All flags on all trees.", "anchors": ["pyensys/engines/pyeneE.py:EnergyClass._Link", "pyensys/engines/pyeneE.py:EnergyClass.addCon"]}
{"id": "C97", "title": "Every node of the energy tree gets the data of its period and name", "statement": "The weight, inputs and outputs of a node are those given for its time period at the place of the node under its parent; the root gets none; with a fixed number of vectors inputs and outputs are all zero.", "quantifier": "all data sets, layouts and vectors", "why_tests_cant": "Index arithmetic over all trees.", "anchors": ["pyensys/engines/pyeneE.py:EnergyClass._Process", "pyensys/engines/pyeneE.py:EnergyClass._Parameters", "pyensys/engines/pyeneE.py:EnergyClass.initialise"]}
{"id": "C98", "title": "The cooling factor is a decreasing derating between 0 and 1 with the data of the chosen plant type", "statement": "For every list of water temperatures get_CF returns one factor per temperature: within [0,1], 1 up to the healthy temperature, 0 from the shutdown temperature on, never larger for warmer water, computed with the thresholds of the named plant type; an unknown type is refused with ValueError.", "quantifier": "all temperatures, plant types and cooling parameters", "why_tests_cant": "Continuous piecewise functions of unbounded real inputs.", "anchors": ["pyensys/engines/pyeneR.py:RESprofiles.get_CF"]}
{"id": "C99", "title": "Solar output is bounded by the light available and follows it step by step", "statement": "buildPV puts the output of day i and hour j at position i*hours+j and zeros after the last step; every output is non-negative, at most the light (direct, diffuse and reflected) divided by 1000, proportional to the light and larger for more direct or diffuse light; no arcsine or arccosine leaves its domain.", "quantifier": "all light series, days, hours, locations and collectors", "why_tests_cant": "Trigonometric identities over all real angles.", "anchors": ["pyensys/engines/pyeneR.py:RESprofiles.buildPV", "pyensys/engines/pyeneR.py:RESprofiles.getPVAngles", "pyensys/engines/pyeneR.py:RESprofiles.getPVGeneration"]}
{"id": "C100", "title": "Every Monte Carlo hour is the optimisation of that hour", "statement": "The results stored for iteration k and hour t are those of one optimisation with the demand of hour t and exactly the lines and generators that iteration k has up at t, whether they come from the shared intact run or from a new one.", "quantifier": "all sampled times, demands and numbers of iterations", "why_tests_cant": "The model is updated in place between optimisations; the result must not depend on the history.", "anchors": ["pyensys/engines/pyene_Stochastic.py"]}
{"id": "C101", "title": "Network data link every branch to its buses", "statement": "After the electricity network data are initialised, every branch knows the positions of its two end buses and its rating per unit, and asking for the flows that start (end) at a bus in a scenario returns exactly the flow positions of the in-service branches that start (end) there; a branch naming an unknown bus raises; the load type of every bus is a single number.", "quantifier": "all bus numberings, branch lists, ratings, contingency lists and load type settings", "why_tests_cant": "the linking depends on arbitrary bus numbers and contingency lists", "anchors": ["pyensys/engines/pyeneD.py:ElectricityNetwork.initialise", "pyensys/engines/pyeneD.py:ElectricityNetwork.findBusPosition", "pyensys/engines/pyeneN.py:ENetworkClass.get_FlowF"]}
{"id": "C102", "title": "The objective weighs every period once", "statement": "The objective of the network model is the sum over the periods of weight times (hourly generation cost plus penalty times curtailment minus value of pumping).", "quantifier": "all numbers of generators, periods and pumps, all weights and all values of the variables", "why_tests_cant": "the claim is an identity over all dispatches and weights", "anchors": ["pyensys/engines/pyeneN.py:ENetworkClass.OF_rule", "pyensys/engines/pyeneD.py:GenClass.cNEGenC_rule"]}
{"id": "C103", "title": "Balanced buses conserve energy", "statement": "When the balances of all buses hold for one period and security scenario, total generation plus curtailed demand equals total demand (times the loss factor) plus the consumption of all pumps plus the losses of all branches, each counted once.", "quantifier": "all networks, generator sets, pumps, loss settings, security scenarios and values of the variables", "why_tests_cant": "an identity over all dispatches of all networks", "anchors": ["pyensys/engines/pyeneN.py:ENetworkClass.cNEBalance_rule", "pyensys/engines/pyeneN.py:ENetworkClass.ProcessEDem"]}
{"id": "C104", "title": "Estimated losses never understate the quadratic losses", "statement": "The losses allowed for a branch are at least its fixed losses plus resistance times the squared flow, and the smallest allowed value exceeds them by at most resistance times the square of half the distance between the points used.", "quantifier": "all increasing lists of points, resistances, fixed losses and flows", "why_tests_cant": "a claim about every real flow and every choice of points", "anchors": ["pyensys/engines/pyeneN.py:ENetworkClass.ProcessENet", "pyensys/engines/pyeneD.py:ElectricityNetwork.cNDCLossA_rule", "pyensys/engines/pyeneD.py:ElectricityNetwork.cNDCLossB_rule"]}
{"id": "C105", "title": "Every generator has its own variables and its bus", "statement": "Conventional, hydropower and renewable generators get distinct output variables in that order, the per-unit limits of their data and the position of their bus; exactly the conventional and hydropower units with positive capacity and minimum output get a commitment variable, all different; the generators listed at a bus are exactly those connected to it; a generator at an unknown bus raises.", "quantifier": "all bus numberings and lists of generators", "why_tests_cant": "must hold for every mix of units and buses", "anchors": ["pyensys/engines/pyeneD.py:Generators.initialise", "pyensys/engines/pyeneD.py:Generators.get_GenInBus", "pyensys/engines/pyeneD.py:GenClass.set_Bin"]}
{"id": "C106", "title": "Demand follows the linked profile", "statement": "The demand of a bus in a period of a scenario is its peak demand (with fixed losses, per unit) times the value of that period in the profile linked to the bus and scenario; by default scenario k uses profile k; without profiles demand is constant; a link to a profile that does not exist is rejected.", "quantifier": "all numbers of buses, scenarios, periods and profiles, all links", "why_tests_cant": "index arithmetic over all sizes", "anchors": ["pyensys/engines/pyeneN.py:ENetworkClass.ProcessEDem", "pyensys/engines/pyeneN.py:ENetworkClass.cNEBalance_rule", "pyensys/engines/pyeneN.py:ENetworkClass.initialise"]}
{"id": "C107", "title": "Minimum down and up times are respected", "statement": "With unit commitment, a conventional unit that is switched off (on) in a period stays off (on) for its minimum down (up) time, periods following each other cyclically, and any schedule that respects these times is allowed.", "quantifier": "all lists of generators, horizons, minimum times and feasible values of the commitment variables", "why_tests_cant": "a claim about every feasible schedule of every set of units", "anchors": ["pyensys/engines/pyeneD.py:GenClass.cNEGMinDT1_rule", "pyensys/engines/pyeneD.py:GenClass.cNEGMinDT2_rule", "pyensys/engines/pyeneD.py:GenClass.cNEGMinUT1_rule", "pyensys/engines/pyeneD.py:GenClass.cNEGMinUT2_rule", "pyensys/engines/pyeneN.py:ENetworkClass.addCon"]}
{"id": "C108", "title": "Generators stay within their limits", "statement": "With unit commitment a conventional or hydropower unit with positive minimum and maximum output is either off with no output or produces between its limits, as its binary variable says; without unit commitment it always produces between its limits; with water cooling the maximum of conventional units is multiplied by their derating.", "quantifier": "all lists of generators, horizons, deratings and feasible values of the variables", "why_tests_cant": "a claim about every feasible dispatch", "anchors": ["pyensys/engines/pyeneD.py:Generators.cNEGMax_rule", "pyensys/engines/pyeneD.py:Generators.cNEGMaxUC_rule", "pyensys/engines/pyeneD.py:GenClass.cNEGMinUC_rule", "pyensys/engines/pyeneD.py:GenClass.cNEGMin_rule"]}
{"id": "C109", "title": "Ramps limit the change of output", "statement": "A unit with a ramp setting r strictly between 0 and 1 changes its output between consecutive periods by at most r times its capacity, in both directions, and other settings impose no limit; one setting applies to all conventional units, a list applies unit by unit, units beyond the list have no limit.", "quantifier": "all settings, capacities, outputs and horizons", "why_tests_cant": "a claim about every dispatch and every length of the settings", "anchors": ["pyensys/engines/pyeneD.py:GenClass.cNGenRampDown_rule", "pyensys/engines/pyeneD.py:GenClass.cNGenRampUp_rule", "pyensys/engines/pyeneD.py:GenClass.initialise", "pyensys/engines/pyeneD.py:ConventionalConfig.MPCconfigure"]}
{"id": "C110", "title": "Cooling uses the temperature and type linked to the unit", "statement": "Every conventional unit is derated with the temperature profile and the type of cooling the user linked to it (the first ones if nothing is linked).", "quantifier": "all numbers of units, links to temperatures and types", "why_tests_cant": "the search for repeated combinations must be right for every combination", "anchors": ["pyensys/engines/pyeneD.py:Generators.initialise", "pyensys/engines/pyeneD.py:Generators.cNEGMax_rule"]}
{"id": "C111", "title": "Baseload units produce a share of their average output", "statement": "A unit with a baseload share produces in every period at least that share of its average output over the horizon.", "quantifier": "all shares, weights of periods, horizons and outputs", "why_tests_cant": "a claim about every feasible dispatch and all weights", "anchors": ["pyensys/engines/pyeneD.py:GenClass.cNEBaseload_rule", "pyensys/engines/pyeneD.py:Generators.cNEBaseload_rule", "pyensys/engines/pyeneN.py:ENetworkClass.addCon"]}
{"id": "C112", "title": "Renewable units follow the linked profile", "statement": "The output of a renewable unit is limited in every period of a scenario to its capacity times the value of the profile linked to it in that scenario; by default scenario k uses profile k, and with a single profile all use it; a link to a profile that does not exist is rejected.", "quantifier": "all numbers of units, scenarios, periods and profiles, all links", "why_tests_cant": "index arithmetic over all sizes", "anchors": ["pyensys/engines/pyeneN.py:ENetworkClass.cNRESMax_rule", "pyensys/engines/pyeneN.py:ENetworkClass.ProcessEDem", "pyensys/engines/pyeneN.py:ENetworkClass.initialise"]}
{"id": "C113", "title": "Instances of the network model do not share variables", "statement": "In the coupled model every scenario has its own copy of the network model: the variables of an element of one instance exist and are distinct from those of every other element and instance, also for the binary variables of unit commitment.", "quantifier": "all sizes of the network, numbers of instances and elements", "why_tests_cant": "index arithmetic over all sizes", "anchors": ["pyensys/engines/main.py:pyeneClass.initialise", "pyensys/engines/pyeneN.py:ENetworkClass.addVars"]}
{"id": "C114", "title": "Instances count with the weight of their scenario", "statement": "There is one network instance for each scenario of the energy balance, linked to the final node of the scenario; the objective counts it with the product over the periods of the weights of the scenario's outcomes; if the weights of each period are probabilities so are those of the instances.", "quantifier": "all trees of periods and outcomes and all weights", "why_tests_cant": "a claim about all trees", "anchors": ["pyensys/engines/main.py:pyeneClass._Calculate_OFaux", "pyensys/engines/main.py:pyeneClass.initialise", "pyensys/engines/pyeneE.py:EnergyClass.initialise"]}
{"id": "C115", "title": "Hydropower does not use more water than given", "statement": "In every feasible solution of the coupled model the energy left at the end is what came in less what went out over all nodes counted with their weights, and the expected energy produced by a hydropower unit over the horizon is at most the energy given to it.", "quantifier": "all trees, weights, inputs, outputs and feasible solutions", "why_tests_cant": "a claim about every feasible solution over all trees", "anchors": ["pyensys/engines/main.py:pyeneClass.cAEMNM_rule", "pyensys/engines/pyeneE.py:EnergyClass.addCon", "pyensys/engines/main.py:pyeneClass.set_Hydro"]}
{"id": "C116", "title": "Reported results add up", "statement": "The functions that report generation, demand, curtailment, pumping and spilled renewables return the sum over the periods and scenarios asked for of the values of the solution counted with their weights; totals are sums of their parts (classes of generators, types of load); generation plus curtailment equals demand plus pumping plus losses.", "quantifier": "all solved models, times, scenarios, weights and snapshots", "why_tests_cant": "a conservation law over all solutions and arguments", "anchors": ["pyensys/engines/main.py:pyeneClass.get_AllGeneration", "pyensys/engines/main.py:pyeneClass.get_AllDemand", "pyensys/engines/main.py:pyeneClass.get_AllDemandCurtailment", "pyensys/engines/main.py:pyeneClass.get_AllPumps", "pyensys/engines/main.py:pyeneClass.get_RES", "pyensys/engines/main.py:pyeneClass.get_timeAndScenario"]}
{"id": "C117", "title": "Every announced report is available", "statement": "Losses, net demand and the demand of a bus can be asked for in every solved model and agree with the model: the losses of all branches, the net demand as sum of the parts asked for, the demand of the bus with the given number as in its balance.", "quantifier": "all solved models and arguments", "why_tests_cant": "a claim about all models, including those with losses", "anchors": ["pyensys/engines/main.py:pyeneClass.get_Loss", "pyensys/engines/main.py:pyeneClass.get_AllLoss", "pyensys/engines/main.py:pyeneClass.get_NetDemand", "pyensys/engines/main.py:pyeneClass.get_Demand"]}
{"id": "C118", "title": "The parts of the objective add up to it", "statement": "The parts of the objective reported to the user (generation, curtailment, pumping) sum to the objective that was minimised.", "quantifier": "all solutions, sizes and weights", "why_tests_cant": "an identity between two different loops over all sizes", "anchors": ["pyensys/engines/main.py:pyeneClass.get_OFparts", "pyensys/engines/main.py:pyeneClass.OF_rule"]}
{"id": "C119", "title": "Demand profiles are stored for their scenario", "statement": "Setting the demand profile of a scenario stores exactly this profile and changes no other scenario; profiles of other length are averaged or refused; unknown scenarios are rejected; profiles not given are 1.", "quantifier": "all numbers of scenarios and periods, all profiles and numbers", "why_tests_cant": "index arithmetic over all sizes", "anchors": ["pyensys/engines/main.py:pyeneClass.set_Demand", "pyensys/engines/main.py:pyeneClass.CheckProfile", "pyensys/engines/main.py:pyeneClass.initialise"]}
{"id": "C120", "title": "Renewable profiles are stored for their unit", "statement": "Setting the profile of a renewable unit stores it per unit for this unit only; an overwritten unit always gets the overwriting profile.", "quantifier": "all numbers of units and periods, all profiles", "why_tests_cant": "index arithmetic over all sizes", "anchors": ["pyensys/engines/main.py:pyeneClass.set_RES"]}
{"id": "C121", "title": "Capacities and status can be changed and restored", "statement": "Setting the capacity of a generator in MW stores it per unit, switching it off stores zero and switching it on makes its maximum capacity available; setting the status of an element changes exactly that element, for every element.", "quantifier": "all generators, capacities, bases and elements", "why_tests_cant": "a claim about all histories of calls", "anchors": ["pyensys/engines/main.py:pyeneClass.set_GenCoFlag", "pyensys/engines/main.py:pyeneClass.set_element_status"]}
{"id": "C122", "title": "Supernodes are the connected groups of buses below the voltage level", "statement": "The reduction of a network to a voltage level finds as supernodes exactly the connected groups of buses below the level: every such bus is in exactly one supernode, no bus at or above the level is in any; a supernode lists exactly the elements that touch its buses, and its coupling buses are exactly the other ends of these elements at or above the level, in the order of the elements.", "quantifier": "all consistent networks, voltage levels and three-winding settings", "why_tests_cant": "a claim about a recursive search over every network", "anchors": ["pyensys/engines/pyene_Analizer.py:network_reduction_voltage_no_characteristics", "pyensys/engines/pyene_Analizer.py:__voltage_track"]}
{"id": "C123", "title": "The reduction keeps the total demand", "statement": "The total active demand and the total reactive demand of the network before and after the reduction to a voltage level are equal.", "quantifier": "all consistent networks, voltage levels and initial numbers for which the reduction succeeds", "why_tests_cant": "an equality of sums over every network", "anchors": ["pyensys/engines/pyene_Analizer.py:network_reduction_voltage_no_characteristics", "pyensys/engines/pyene_Analizer.py:__add_supernodes"]}
{"id": "C124", "title": "The reduction keeps the total fixed losses", "statement": "The total of the fixed non-technical losses of buses and series elements is the same before and after the reduction.", "quantifier": "all consistent networks, voltage levels and initial numbers for which the reduction succeeds", "why_tests_cant": "an equality of sums over every network", "anchors": ["pyensys/engines/pyene_Analizer.py:network_reduction_voltage_no_characteristics"]}
{"id": "C125", "title": "Buses and lines of the reduced network have unique numbers", "statement": "Without numbers given by the user, the new buses and the artificial lines get numbers above every number in use and different from each other; the buses at or above the voltage level keep their numbers and come first.", "quantifier": "all consistent networks and voltage levels for which the reduction succeeds", "why_tests_cant": "a claim about all sets of numbers", "anchors": ["pyensys/engines/pyene_Analizer.py:network_reduction_voltage_no_characteristics"]}
{"id": "C126", "title": "Generators of removed buses move to their supernode", "statement": "In the reduced network every generator is at a bus of the network: a generator at a bus at or above the level stays there, a generator at a removed bus is at the bus of its supernode; no generator is lost.", "quantifier": "all consistent networks and generators", "why_tests_cant": "a claim about every generator of every network", "anchors": ["pyensys/engines/pyene_Analizer.py:__add_supernodes", "pyensys/engines/pyene_Analizer.py:network_reduction_voltage_no_characteristics"]}
{"id": "C127", "title": "Every valid network can be reduced", "statement": "The reduction succeeds for every consistent network and every voltage level that occurs in it.", "quantifier": "all consistent networks", "why_tests_cant": "a claim about every network", "anchors": ["pyensys/engines/pyene_Analizer.py:network_reduction_voltage_no_characteristics"]}
{"id": "C128", "title": "The elements of the reduced network join existing buses", "statement": "Every line and transformer of the reduced network has two different buses of the reduced network as its ends, by number and by position, and every bus lists the elements that end at it.", "quantifier": "all consistent networks, all elements of the result", "why_tests_cant": "a structural claim about every result", "anchors": ["pyensys/engines/pyene_Analizer.py:__add_supernodes", "pyensys/engines/pyene_Parameters.py:ElectricityNetwork.update_all_positions"]}
{"id": "C129", "title": "The tables of preserved and removed branches identify the original branches", "statement": "After the reduction every original branch is in exactly one of the tables of preserved and removed branches, with its original position and ends; a preserved branch also has its position and ends in the reduced network.", "quantifier": "all consistent networks and branches", "why_tests_cant": "a claim about every branch of every network", "anchors": ["pyensys/engines/pyene_Analizer.py:network_reduction_voltage_no_characteristics"]}
{"id": "C130", "title": "The analysis of islands accepts every consistent network", "statement": "The search for islands and isolated buses succeeds for every consistent network, also when no element is in service (then every bus is isolated).", "quantifier": "all consistent networks", "why_tests_cant": "a claim about every network and every combination of outages", "anchors": ["pyensys/engines/pyene_Analizer.py:islands_isolations", "pyensys/engines/pyene_Analizer.py:edges_graph"]}
{"id": "C131", "title": "Islands and isolated buses share out the network", "statement": "Every bus appears exactly once, as an isolated bus or in one island; a bus is isolated exactly when no element in service touches it; every element in service is in exactly one island and no other element is in any; every generator appears exactly once; two buses are in the same island exactly when a chain of elements in service joins them; positions in an island fit its own tables.", "quantifier": "all consistent networks with at least one element in service, any correct computation of connected components", "why_tests_cant": "a partition claim about every network", "anchors": ["pyensys/engines/pyene_Analizer.py:islands_isolations", "pyensys/engines/pyene_Analizer.py:find_islands", "pyensys/engines/pyene_Analizer.py:find_isolates"]}
{"id": "C132", "title": "Positions of the ends of an element follow the order of its buses", "statement": "The positions stored in a line or transformer name its buses in the same order as the bus numbers it stores (first the from bus, then the to bus), for every element.", "quantifier": "all networks and elements", "why_tests_cant": "a claim about every network", "anchors": ["pyensys/engines/pyene_Parameters.py:__update_relative_position_objects", "pyensys/engines/pyene_Parameters.py:ElectricityNetwork.update_all_positions"]}
{"id": "C133", "title": "Deleting generators leaves the other generators at their buses", "statement": "After deleting generators of a type, every other generator of the type is still listed by its bus and is found by the analysis of islands.", "quantifier": "all networks, types and positions", "why_tests_cant": "a claim about every network and every deletion", "anchors": ["pyensys/engines/pyene_Parameters.py:ElectricityNetwork.delete_objects"]}
{"id": "C134", "title": "Deleting series elements leaves the rest of the network intact", "statement": "Deleting lines or transformers removes exactly these; other elements, buses and generators keep their data, and every bus names exactly the remaining elements that end at it by their new positions.", "quantifier": "all consistent networks, types and lists of positions", "why_tests_cant": "a claim about every network and every deletion", "anchors": ["pyensys/engines/pyene_Parameters.py:ElectricityNetwork.delete_objects"]}
{"id": "C135", "title": "Dividing a river into parts keeps the river", "statement": "When the user asks for a number of parts for each river (none, one for all, or one per river), every river becomes a chain of that many parts that begins and ends where the river did, through new nodes used by no other river, with the river's limits and data; the first part keeps the share of flow of the river. Initialising the engine again does not change them.", "quantifier": "all lists of rivers and all numbers of parts", "why_tests_cant": "a claim about every river network and every requested division", "anchors": ["pyensys/engines/pyeneH.py:pyeneHConfig", "pyensys/engines/pyeneH.py:HydrologyClass._BuildParts"]}
{"id": "C136", "title": "Nodes of the river network know exactly the rivers that reach and leave them", "statement": "The connection tables that the hydrology engine builds name, for every node, exactly the rivers that leave it and exactly those that reach it.", "quantifier": "all river networks", "why_tests_cant": "a claim about every network shape", "anchors": ["pyensys/engines/pyeneH.py:HydrologyClass._BuildHNetwork"]}
{"id": "C137", "title": "Water is neither created nor lost", "statement": "In every solution of the hydrology model, for every scenario and period, the water that enters equals the water that leaves plus the change in the water held in rivers and storage; when the end of the day is linked to its beginning the water entering during the day equals the water leaving.", "quantifier": "all river networks, scenarios, periods and feasible solutions", "why_tests_cant": "a claim about every feasible solution of every model", "anchors": ["pyensys/engines/pyeneH.py:HydrologyClass.cHNodeBalance_rule", "pyensys/engines/pyeneH.py:HydrologyClass.cHRiverBalance_rule"]}
{"id": "C138", "title": "Rivers that leave a junction share its water as the user says", "statement": "In every solution the flows of the rivers leaving a node are in the proportions of their shares, so each river carries its share of the total; a share may be zero.", "quantifier": "all networks, nodes, shares and feasible solutions", "why_tests_cant": "a claim about every feasible solution of every model", "anchors": ["pyensys/engines/pyeneH.py:HydrologyClass.cHWeights_rule"]}
{"id": "C139", "title": "Flow at the end of a river is an average of its inflow and the flow of its depth", "statement": "Up to the feasibility slack the flow leaving a river is a fixed weighted average (weights in [0,1]) of the flow entering it and a linear increasing function of the water in it, which is the river's minimum flow at its minimum volume and its maximum flow when the river is full.", "quantifier": "all rivers with positive data and all feasible solutions", "why_tests_cant": "a claim about every river and every feasible solution", "anchors": ["pyensys/engines/pyeneH.py:HydrologyClass._Process", "pyensys/engines/pyeneH.py:HydrologyClass.cHQdownTime_rule"]}
{"id": "C140", "title": "Flow limits hold or are paid for", "statement": "In every solution flows at both ends of each river are within its limits except for a violation whose price is part of the penalty; without penalty the limits hold. When the feasibility option is off limits hold strictly.", "quantifier": "all rivers, periods, scenarios and feasible solutions", "why_tests_cant": "a claim about every feasible solution", "anchors": ["pyensys/engines/pyeneH.py:HydrologyClass.cHQmaxUp_rule", "pyensys/engines/pyeneH.py:HydrologyClass.cHQminUp_rule", "pyensys/engines/pyeneH.py:HydrologyClass.cHPenalty_rule"]}
{"id": "C141", "title": "Ramp limits of rivers are respected", "statement": "In every solution the change of the flow of a river between consecutive periods is at most the ramp that the user gave for it.", "quantifier": "all rivers, ramps, periods and feasible solutions", "why_tests_cant": "a claim about every feasible solution", "anchors": ["pyensys/engines/pyeneH.py:HydrologyClass.cHRampDown_rule", "pyensys/engines/pyeneH.py:HydrologyClass.cHRampUp_rule"]}
{"id": "C142", "title": "Water storage of hydropower units keeps its capacity and its daily cycle", "statement": "In every solution the water stored for a hydropower unit is between zero and the water equivalent of its storage energy, ends the day at the level of its beginning, and can be used in every period; every unit with storage has its own.", "quantifier": "all units, capacities, periods and feasible solutions", "why_tests_cant": "a claim about every feasible solution", "anchors": ["pyensys/engines/pyeneH.py:HydrologyClass.cHStorMax_rule", "pyensys/engines/pyeneH.py:HydrologyClass.cHStorLink_rule"]}
{"id": "C143", "title": "Links between scenarios carry the water of the rivers over", "statement": "Each link the user states makes the water in every river equal at the ends it names (beginning or end of two scenarios); without links the scenarios are independent; inputs that the user controls take the given series in the given scenario.", "quantifier": "all lists of links, scenarios and feasible solutions", "why_tests_cant": "a claim about every configuration and every feasible solution", "anchors": ["pyensys/engines/pyeneH.py:HydrologyClass.cHSoCLink_rule", "pyensys/engines/pyeneH.py:HydrologyClass.cHFixedInputV_rule"]}
{"id": "C144", "title": "Outputs of the river network keep a minimum flow", "statement": "Any node may be an output; at an output that is the end of rivers the outflow is at least the minimum flow of a river that ends there, up to the feasibility slack.", "quantifier": "all networks, outputs and feasible solutions", "why_tests_cant": "a claim about every network and every feasible solution", "anchors": ["pyensys/engines/pyeneH.py:HydrologyClass.cHQminOut_rule"]}
{"id": "C145", "title": "Hydropower cannot produce more than its water allows", "statement": "In the coupled model every hydropower unit produces, in every instance and period, at most what the water leaving its node gives at its head and efficiency: the flow of the rivers that leave the node, or the outflow of the network at the node less the water of the pump there.", "quantifier": "all river networks, units, instances, periods and solutions", "why_tests_cant": "a claim about every network layout and every feasible solution", "anchors": ["pyensys/engines/main.py:pyeneClass.cAHMOut1_rule", "pyensys/engines/main.py:pyeneClass.cAHMOut2_rule", "pyensys/engines/main.py:pyeneClass.initialise"]}
{"id": "C146", "title": "Pumps move the water that their power lifts", "statement": "In the coupled model the water that a pump takes leaves the network at its first node and the same water enters at its second one, as much as its power lifts at its head with its efficiency (a less efficient pump lifts less), and it does not count as water given by the energy balance.", "quantifier": "all river networks, pumps, instances, periods and solutions", "why_tests_cant": "a claim about every network layout and every feasible solution", "anchors": ["pyensys/engines/main.py:pyeneClass.cAHMIn1_rule", "pyensys/engines/main.py:pyeneClass.cAHMIn2_rule", "pyensys/engines/main.py:pyeneClass.addPar"]}
{"id": "C147", "title": "Coupling the engines respects the hydrology settings", "statement": "The coupled model makes every instance a cycle of the water network, keeps the flows that the user fixed, and initialising it twice from the same settings gives the same model.", "quantifier": "all settings, numbers of instances and weights", "why_tests_cant": "a claim about every configuration and about repeated use", "anchors": ["pyensys/engines/main.py:pyeneClass.initialise", "pyensys/engines/pyeneH.py:HydrologyClass._BuildLLScenario"]}
{"id": "C148", "title": "The two implementations of the energy balance agree", "statement": "The energy balance that is written for GLPK has exactly the plans of the one written for Pyomo: for the same data the call succeeds, and what is read back for the storage at the start and the end of every node is a solution of the balances of the tree with the inputs and outputs of the data.", "quantifier": "all trees, weights, inputs, outputs and numbers of vectors", "why_tests_cant": "equivalence of two linear programs for every input; a test compares two optima on one input", "anchors": ["pyensys/engines/pyene_Models.py:Energymodel.optimisationEM", "pyensys/engines/pyene_Models.py:Energymodel.Energybalance", "pyensys/engines/pyene_Models.py:Energymodel.Aggregation", "pyensys/engines/_glpk.pyx:GLPKSolver"]}
{"id": "C149", "title": "Every plan of the GLPK power flow balances the network", "statement": "In what the optimal power flow with GLPK returns, every bus is balanced in every instance, period and contingency: generation at the bus plus what flows in, less what flows out, less half of the losses of its branches, plus curtailed demand, equals its demand and the power of the pumps at the bus; no power appears or disappears in the system.", "quantifier": "all networks, profiles, instances, periods, contingencies and returned solutions", "why_tests_cant": "a conservation law over every network and every feasible point", "anchors": ["pyensys/engines/pyene_Models.py:Networkmodel.activepowerbalancepernode", "pyensys/engines/pyene_Models.py:Networkmodel.optimisationNM"]}
{"id": "C150", "title": "Flows of the GLPK power flow follow the angles and the ratings", "statement": "In what the optimal power flow with GLPK returns, the flow of every branch in service is the difference of the angles of its ends over its reactance and within its rating (no rating means no limit), and a branch out of service or lost in a contingency carries nothing, in every instance, period and contingency.", "quantifier": "all networks, instances, periods, contingencies and returned solutions", "why_tests_cant": "a law for every branch of every network and every solution", "anchors": ["pyensys/engines/pyene_Models.py:Networkmodel.activepowerflowconstraints", "pyensys/engines/pyene_Models.py:Networkmodel.variablesOPF"]}
{"id": "C151", "title": "The GLPK power flow returns the cheapest plan", "statement": "The plan that the optimal power flow with GLPK returns costs no more than any other plan that obeys the limits of the network: the cost is the one of the units' output in every period, weighted once with the hours of the period, minus the value of pumping, plus a penalty for curtailment.", "quantifier": "all networks, prices, hours and all other plans", "why_tests_cant": "optimality against all plans, infinitely many of them", "anchors": ["pyensys/engines/pyene_Models.py:Networkmodel.Objective_functionOPF", "pyensys/engines/pyene_Models.py:Networkmodel.piecewiselinearisationcost"]}
{"id": "C152", "title": "The economic dispatch with GLPK can be solved", "statement": "With the flag for the economic dispatch the network model with GLPK is solved for every network with units and demand.", "quantifier": "all networks and settings with the flag off", "why_tests_cant": "success for every input of a mode", "anchors": ["pyensys/engines/pyene_Models.py:Networkmodel.EconomicDispatchModel", "pyensys/engines/pyene_Models.py:Networkmodel.optimisationNM"]}
{"id": "C153", "title": "The coupled GLPK model ties water to hydropower", "statement": "The coupled model with GLPK is solved for every tree and network, its plans are exactly those in which the trees balance, the network obeys its rules and ramps, and each hydropower unit produces in each scenario what leaves its tree there; over the scenarios, weighted, it produces no more than the energy given to it, and the objective counts each scenario with its weight.", "quantifier": "all energy trees, weights, networks, numbers of hydropower units and instances, and all plans", "why_tests_cant": "a claim about all plans of a linear program of any size", "anchors": ["pyensys/engines/pyene_Models.py:EnergyandNetwork.optimisationENM", "pyensys/engines/pyene_Models.py:EnergyandNetwork.EnergyandNetworkRelation", "pyensys/engines/pyene_Models.py:EnergyandNetwork.Objective_functionENM"]}
{"id": "C154", "title": "The GLPK power flow runs on every network", "statement": "The optimal power flow with GLPK is built and solved without an error for every network with buses, branches and units: no name is used twice, no coefficient is written twice or outside the matrix, and GLPK accepts all bounds, whatever the demand, the profiles and the contingencies.", "quantifier": "all networks, profiles, demands and contingencies", "why_tests_cant": "success for every input", "anchors": ["pyensys/engines/pyene_Models.py:Networkmodel.optimisationNM", "pyensys/engines/pyene_Models.py:Networkmodel.__init__", "pyensys/engines/_glpk.pyx:GLPKSolver"]}
{"id": "C155", "title": "With curtailment allowed the GLPK power flow always has a plan", "statement": "With the setting that relaxes the balances (curtailment of demand and of generation) the optimal power flow with GLPK always has a plan, so what is returned obeys the rules of the network; without a plan nothing is returned as if it were one.", "quantifier": "all networks, limits, demands, losses and contingencies", "why_tests_cant": "feasibility for every input", "anchors": ["pyensys/engines/pyene_Models.py:Networkmodel.variablesOPF", "pyensys/engines/pyene_Models.py:Networkmodel.activepowerbalancepernode"]}
{"id": "C156", "title": "Every numeral of a case file is converted with its value and nothing else is taken for a number", "statement": "The MATPOWER-to-JSON converter that get_mpc uses gives for a cell of a matrix the exact decimal value that is written there, with any sign, fraction and exponent; a text that is not a decimal numeral is refused with ValueError instead of being read as some number.", "quantifier": "every text of a cell, every numeral of any length, with every sign, fraction and exponent", "why_tests_cant": "There are unboundedly many numerals and texts; tests try a few case files.", "anchors": ["pyensys/tests/matpower/conversion_model_mat2json.py:any2json.matpower2json", "pyensys/Optimisers/conversion_model_mat2json.py:any2json.matpower2json", "pyensys/engines/pyeneI.py:any2json.matpower2json"]}
{"id": "C157", "title": "A case file of the usual layout is converted to the network it describes", "statement": "Converting a case file with a base, bus, generator, branch and cost matrices laid out row by row gives the network of the file: each column holds the numbers of the rows in their order, NoBus, NoBranch and NoGen count the rows, the slack bus is the bus of type 3 and the costs of every generator are those of its row; blank and unrelated lines between the matrices change nothing.", "quantifier": "every file of that layout with any number of matrices, rows, extra columns, comments and semicolons, in all three copies of the converter", "why_tests_cant": "Files have unboundedly many rows and layouts; tests use a handful of fixed files.", "anchors": ["pyensys/tests/matpower/conversion_model_mat2json.py:any2json.matpower2json", "pyensys/cases.py:get_mpc"]}
{"id": "C158", "title": "The two MATPOWER readers of the package agree", "statement": "A case file read by the text reader of the network parameters and by the JSON converter gives the same base, the same numbers of buses, generators and branches, the same columns and the same costs.", "quantifier": "every case file that both readers accept without an exception", "why_tests_cant": "It compares two parsers over all files; tests exercise each on its own files.", "anchors": ["pyensys/tests/matpower/conversion_model_mat2json.py:any2json.matpower2json", "pyensys/readers/JSONReader.py:_build_mat_file", "pyensys/cases.py:get_mpc"]}
{"id": "C159", "title": "What the converter does not understand is refused, not dropped", "statement": "When a case file has content that the converter cannot represent - a name glued to its sign of equality, a number on the line that opens a matrix, a fraction in a whole-number column, the second half of a piecewise linear cost, a line that is not a row - conversion fails with an exception instead of returning a network without it.", "quantifier": "every file with such content", "why_tests_cant": "It ranges over all malformed or unusual files.", "anchors": ["pyensys/tests/matpower/conversion_model_mat2json.py:any2json.matpower2json"]}
{"id": "C160", "title": "The case file that is converted is the one the user names", "statement": "For every path given as the test case, get_mpc reads the file at that path and takes its folder and name from it.", "quantifier": "every path with any folder (absolute, relative, nested, none) and any file name", "why_tests_cant": "Paths are unbounded; tests use the paths of the repository.", "anchors": ["pyensys/cases.py:get_mpc"]}
{"id": "C161", "title": "A network written as a MATPOWER file and converted again is the same network", "statement": "The MATPOWER file that the engine writes for a network is accepted by the converter and gives back its base, buses, demands, generators with their limits and costs, lines and transformers.", "quantifier": "every network with any numbers of buses, generators, lines and transformers and any data", "why_tests_cant": "Round trips must hold for all networks; tests do not cover the writer.", "anchors": ["pyensys/engines/pyeneI.py:pyene2any.pyene2matpower", "pyensys/engines/pyeneI.py:any2json.matpower2json"]}
{"id": "C162", "title": "The report of the planning tool shows the plan", "statement": "When the planning tool (attest_invest_path) finishes, the file it writes shows, for the first and the last scenario and for every year, the capacity that the optimal plan adds to every line.", "quantifier": "every problem, tree of scenarios, plan, cluster of lines, number of lines and numbering of scenarios", "why_tests_cant": "The report must be right for every plan; tests run the tool on one case and do not read the file.", "anchors": ["pyensys/cases.py:attest_invest_path", "pyensys/cases.py:save_in_jsonW", "pyensys/managers/GeneralManager.py:main_access_function"]}
{"id": "C163", "title": "The report of the planning tool states the costs of its scenarios", "statement": "The total investment costs in the file that the planning tool writes are those of the first and of the last scenario of the solution, in millions.", "quantifier": "every solution with any scenarios, costs and interventions", "why_tests_cant": "It ranges over all solutions; no test reads the reported costs.", "anchors": ["pyensys/cases.py:save_in_jsonW"]}
{"id": "C164", "title": "The report is named after the input file", "statement": "The country and case name in the report are the name of the input file without folder and extension, for every path of the input file.", "quantifier": "every path: any folder or none, any name, any extension or none", "why_tests_cant": "Paths are unbounded; tests use the paths of the repository.", "anchors": ["pyensys/cases.py:attest_invest_path", "pyensys/cases.py:attest_invest"]}
{"id": "C165", "title": "Peak loads come from the right row and hour", "statement": "get_peak_data returns one load per bus, in the order of the buses: the active load of the first row of the sheet with the number of the bus at the peak hour, and zero for a bus that is not in the sheet; it raises exactly if a bus number is missing or the row of a bus does not reach the hour.", "quantifier": "every sheet, every list of bus numbers, every peak hour", "why_tests_cant": "Sheets and orders of buses are unbounded; tests use one sheet.", "anchors": ["pyensys/Optimisers/input_output_function.py:get_peak_data"]}
{"id": "C166", "title": "Time series of a bus are those of the bus", "statement": "get_time_series_data returns for every bus, in the order of the buses, the hourly active and reactive loads and upward and downward flexibility of that bus, and their values at the peak hour; buses that are not in the sheets have zeros.", "quantifier": "every set of four sheets, every list of buses, every peak hour", "why_tests_cant": "The sheets may name the buses in any order; a test with one order, or with equal active and reactive loads, passes by chance.", "anchors": ["pyensys/Optimisers/input_output_function.py:get_time_series_data"]}
{"id": "C167", "title": "Discounting and capital recovery", "statement": "get_factors returns, for every year, the discount factor 1/(1+d)^y and the capital recovery factor: the yearly payment that pays back one unit of capital over the years at rate d; it does so for every rate, including zero.", "quantifier": "every rate and every number of years", "why_tests_cant": "The identity with the sum of discounted payments is over all rates and numbers of years.", "anchors": ["pyensys/Optimisers/process_data.py:get_factors"]}
{"id": "C168", "title": "Removing and restoring the costs of generation loses nothing", "statement": "After recordValues, replaceGenCost with action 0 changes only the first cost of every generator, to 0.1, and replaceGenCost with any other action and the recorded costs gives back exactly the original table; the recorded capacities are those of the branches.", "quantifier": "every table of costs with rows of any lengths, every list of capacities, every action", "why_tests_cant": "Round trips over tables of any shape; tests use one network.", "anchors": ["pyensys/Optimisers/process_data.py:recordValues", "pyensys/Optimisers/process_data.py:replaceGenCost"]}
{"id": "C169", "title": "Every intervention has the cost of its size", "statement": "Whatever the intervention file contains, the catalogues that are used have as many costs as sizes; read_screenModel_output gives every size of every branch the cost that the catalogue of its kind (line or transformer) has for it.", "quantifier": "every intervention file or none, every result of the screening or none, every network", "why_tests_cant": "Catalogues, results and networks are arbitrary and come from different files.", "anchors": ["pyensys/Optimisers/input_output_function.py:read_input_data", "pyensys/Optimisers/input_output_function.py:read_screenModel_output"]}
{"id": "C170", "title": "The investment file reports the paths", "statement": "output_data2Json writes one entry for each path, or for the first and the last: costs of branches and flexibility and their sum, operation cost of the path, and for every year the capacities, flexibility (below 0.0001 as zero) and operation cost of the node of the path in that year.", "quantifier": "every number of paths and years, every path, every cost and capacity, both modes", "why_tests_cant": "The function changes its argument while it reads from it, so entries of one path may disturb another: that no order or sharing of nodes matters is a statement over all trees.", "anchors": ["pyensys/Optimisers/input_output_function.py:output_data2Json"]}
{"id": "C171", "title": "Recorded results are where they are looked for", "statement": "record_bra/bus/invest_from_pyo_result (yearly peaks) and initial_value return a list with an entry for each year, in it one for each of the NoSce^y scenarios of year y, in it the value of each element in its place; the investment of a branch is the sum of its sizes times the chosen numbers.", "quantifier": "every number of years, scenarios and elements, every value", "why_tests_cant": "Shapes grow with the numbers of years and scenarios.", "anchors": ["pyensys/Optimisers/process_data.py:record_bra_from_pyo_result", "pyensys/Optimisers/process_data.py:record_bus_from_pyo_result", "pyensys/Optimisers/process_data.py:record_invest_from_pyo_result", "pyensys/Optimisers/process_data.py:initial_value"]}
{"id": "C172", "title": "A parameter that is set is the one that is read", "statement": "After set_element(name, val) of a device or network, get_element(name) returns val and every other parameter of every device is what it was; a list cannot be replaced by a single value or a single value by a list; names that are not parameters of the class are reported.", "quantifier": "every device, every parameter and value, every sequence of calls", "why_tests_cant": "Sequences of calls on any number of devices have no bound; interference between devices shows only for particular histories.", "anchors": ["pyensys/engines/pyene_Parameters.py:_CommonMethods.get_element", "pyensys/engines/pyene_Parameters.py:_CommonMethods.set_element"]}
{"id": "C173", "title": "Positions of list parameters", "statement": "get_element(name, pos) of a list parameter returns the element at the position, the list of elements at the positions, or a copy of all; of a single value it returns the value; get_no_elements is the length.", "quantifier": "every list parameter, every position or list of positions", "why_tests_cant": "Lists and positions are arbitrary; a returned list that is shared with the device shows only when the caller changes it.", "anchors": ["pyensys/engines/pyene_Parameters.py:_CommonMethods.get_element", "pyensys/engines/pyene_Parameters.py:_CommonMethods.get_no_elements"]}
{"id": "C174", "title": "A network takes over the data of another", "statement": "After set_electricity_network_data(ob) the network has the buses, generators, branches and parameters of ob, and from then on the two are independent; it works for networks with any numbers of devices.", "quantifier": "every pair of networks, every later sequence of changes", "why_tests_cant": "Independence is a statement over all later histories.", "anchors": ["pyensys/engines/pyene_Parameters.py:ElectricityNetwork.set_electricity_network_data", "pyensys/engines/pyene_Parameters.py:ElectricityNetwork.set_objects", "pyensys/engines/pyene_Parameters.py:ElectricityNetwork.get_object_elements", "pyensys/engines/pyene_Parameters.py:ElectricityNetwork.set_object_elements"]}
{"id": "C175", "title": "Reported tables of the network are a solution", "statement": "After the optimal power flow has been solved with GLPK the functions GetThermalGeneration, GetRESGeneration, GetHydroGeneration, GetPumpOperation, the three cost functions, GetVoltageAngle, GetLoadCurtailmentNodes, GetGenerationCurtailmentNodes, GetActivePowerFlow and GetActivePowerLosses return tables with one entry for each instance, period, state of the network and element (None for what the network does not have) that together, in MW, obey the limits, the balances, the flow law and the losses, if any plan does; none that obeys them is cheaper, and GetObjectiveFunctionNM is its cost.", "quantifier": "every network, numbers of instances, periods, contingencies and elements, every base power", "why_tests_cant": "The tables are read by name and offset from one long vector; a shift shows only for particular numbers of elements.", "anchors": ["pyensys/engines/pyene_Models.py:Networkmodel.GetThermalGeneration", "pyensys/engines/pyene_Models.py:Networkmodel.GetActivePowerFlow", "pyensys/engines/pyene_Models.py:Networkmodel.GetLoadCurtailmentNodes", "pyensys/engines/pyene_Models.py:Networkmodel.GetObjectiveFunctionNM"]}
{"id": "C176", "title": "Reported tables of the energy balance", "statement": "After the energy balance has been solved with GLPK GetPartialStorage, GetTotalStorage, GetInputsTree and GetOutputsTree return, for each vector and node, the states before and after repetition that the data determine (if none is negative), the inputs and the outputs; GetEnergybalanceDual returns the dual value of the balance of the node, 0 for the root.", "quantifier": "every tree of periods without uncertainty, numbers of vectors and nodes", "why_tests_cant": "The tables are read by name and offset from one long vector, for trees of any size.", "anchors": ["pyensys/engines/pyene_Models.py:Energymodel.GetPartialStorage", "pyensys/engines/pyene_Models.py:Energymodel.GetTotalStorage", "pyensys/engines/pyene_Models.py:Energymodel.GetEnergybalanceDual"]}
{"id": "C177", "title": "Output tables show the values", "statement": "save_results writes for every requested output a table with the values of its name (and, for a network, of the position of the run): each value stands once, in the row of its time and place and in the column of its element, and nothing else is in the table; this holds for networks and trees, in Excel and in HDF5 files, whether or not a position is given, and for outputs that are asked for more than once.", "quantifier": "every list of outputs, every list of values, names, positions and hours", "why_tests_cant": "Rows are found by repeated passes over the values; which ones are lost depends on their order, type of file and kind of model.", "anchors": ["pyensys/engines/pyeneO.py:pyene2excel.save_results", "pyensys/engines/pyeneO.py:pyeneHDF5Settings.save_results"]}
{"id": "C178", "title": "Saving results comes to an end", "statement": "save_results ends for every list of values, and close_output_files closes what was opened whatever files were asked for.", "quantifier": "every list of outputs and values", "why_tests_cant": "Termination of a loop over all inputs.", "anchors": ["pyensys/engines/pyeneO.py:pyene2excel.save_results", "pyensys/engines/pyeneO.py:pyeneSave.close_output_files"]}
{"id": "C179", "title": "Transformers of PSS/E files", "statement": "Reading a PSS/E raw file gives one branch for each transformer with two windings, with its resistance and reactance on the base of the system, and for each transformer with three windings a star of three branches to a bus of its own such that between each two windings there is the impedance of the file; and nothing else.", "quantifier": "every file, every number and order of transformers, all units of the impedances", "why_tests_cant": "Files have any length and any mixture of transformers; the place of a section and the first element are special cases in the code.", "anchors": ["pyensys/engines/pyeneI.py:PSSErawInterface.parsetrafodata", "pyensys/engines/pyeneI.py:PSSErawInterface.readpsserawfile"]}
{"id": "C180", "title": "Buses of PSS/E files", "statement": "Reading a PSS/E raw file of a supported version gives the number and the nominal voltage of every bus, in the order of the file; files of other versions are rejected.", "quantifier": "every file, every number of buses", "why_tests_cant": "The loop must be right for every number of buses, one included.", "anchors": ["pyensys/engines/pyeneI.py:PSSErawInterface.parsenodedata", "pyensys/engines/pyeneI.py:PSSErawInterface.detectpsseversion"]}
{"id": "C181", "title": "The PyPSA network is the network", "statement": "pyene2pypsa returns a PyPSA network with the buses (number, nominal voltage, limits, place, set point of the generator that controls the voltage), generators (bus, control, capacity in MW, power, cost of a MWh; hydropower included), the active and reactive demand of each bus in each period, and the lines and transformers with the impedances, charging and capacities of the pyene network.", "quantifier": "every network, any numbering of buses, any base power, any numbers of devices and periods", "why_tests_cant": "Positions and numbers coincide in the usual test networks; units are only right for particular bases and sizes.", "anchors": ["pyensys/engines/pyeneI.py:EInterfaceClass.pyene2pypsa"]}
{"id": "C182", "title": "Tables of the AC power flow", "statement": "After an AC power flow the print class holds active and reactive power of each generator, voltage and angle of each bus, flows and losses of each branch as PyPSA found them; the costs are those of the active power of each generator and the objective is their weighted sum over all networks and periods.", "quantifier": "every network, every result of the power flow, any numbers of generators of all kinds", "why_tests_cant": "Columns are found by constructed names, for networks with any numbering and mixture of generators.", "anchors": ["pyensys/engines/pyeneP.py:PrintClass.initializeNM"]}
{"id": "C183", "title": "Elements of a workbook", "statement": "excel2pyene stores, for every row of a sheet of buses, branches or generators up to the first empty ID, one entry for each non-empty cell below the title of a parameter, with its value, its name and all the characteristics (ID, type, group, zone, subtypes...) of the row; titles are recognised in any case; a sheet without a column of IDs is rejected with a ValueError.", "quantifier": "every sheet: any number of rows and columns, any titles and cells", "why_tests_cant": "Sheets vary without limit: repeated, unknown and missing columns, empty cells, characteristics after parameters.", "anchors": ["pyensys/engines/pyeneI.py:excel2pyene._extract_parameters_names", "pyensys/engines/pyeneI.py:excel2pyene._read_info_network"]}
{"id": "C184", "title": "Time trees of a workbook", "statement": "excel2pyene reads from a tree sheet every level of every part with its nodes in order, and the model gets one entry for each value of the inputs, outputs and weights with its level, its position and the name of its node.", "quantifier": "every sheet with any parts, levels and numbers of nodes", "why_tests_cant": "The reader is a hand-written scanner over rows, whose state depends on everything that came before.", "anchors": ["pyensys/engines/pyeneI.py:excel2pyene._read_tree", "pyensys/engines/pyeneI.py:excel2pyene._load_tree"]}
{"id": "C185", "title": "Profiles of a workbook", "statement": "excel2pyene reads from a sheet of profiles every value of every block with the ID of its row, the hour of its column, and the type, subtype, name, position in the tree, group and zone of its block.", "quantifier": "every sheet with any number of blocks, elements and hours", "why_tests_cant": "The reader is a hand-written scanner with state that is reset between blocks and a limit of rows tried in vain.", "anchors": ["pyensys/engines/pyeneI.py:excel2pyene._read_profile"]}
{"id": "C186", "title": "Profiles multiply the elements they are for", "statement": "With the option 'representative periods' every element with profiles is replaced with one entry for each hour of these profiles: same characteristics, the position in the tree and hour of the profile, and the product of the values. Elements without a profile stay, and a profile for an unknown ID is an error.", "quantifier": "every model and every list of profiles, in any order", "why_tests_cant": "Elements are taken out and put in while the profiles are worked through in groups, so the result of one profile depends on those before it.", "anchors": ["pyensys/engines/pyeneI.py:excel2pyene._correlate_information", "pyensys/engines/pyeneI.py:excel2pyene._extract_parameters_correlation", "pyensys/engines/pyeneI.py:excel2pyene._extract_profiles_correlation", "pyensys/engines/pyeneI.py:excel2pyene._check_profile_existance"]}
{"id": "C187", "title": "Options of a workbook", "statement": "A sheet 'model' sets every problem it names to the state and engine of its last row and every characteristic to its last value; other options stay. Columns that are missing or of different length are an error.", "quantifier": "every sheet, every list of options before it", "why_tests_cant": "Options are matched by name, in the order of rows; names may repeat, be unknown or be in the model already.", "anchors": ["pyensys/engines/pyeneI.py:excel2pyene._read_model_options", "pyensys/engines/pyeneI.py:excel2pyene._read_bool_excel", "pyensys/engines/pyeneI.py:excel2pyene._read_elements_excel"]}
{"id": "C188", "title": "Connections of a workbook", "statement": "Every block of a sheet 'connections energy' gives one connection with the characteristics of its rows, and every connection reaches the model: one for all the elements of a type becomes one connection for each ID it is for, in the order of the elements, without repetition.", "quantifier": "every sheet made of blocks, remarks and gaps; every set of elements", "why_tests_cant": "Blocks are of any length and number, with remarks between them, and the expansion depends on all the elements.", "anchors": ["pyensys/engines/pyeneI.py:excel2pyene._read_energy_connections"]}
{"id": "C189", "title": "Outputs of a workbook", "statement": "Every block of a sheet 'outputs' gives one output that asks for the listed names and values, as they are written in the workbook.", "quantifier": "every sheet made of blocks, remarks and gaps", "why_tests_cant": "Blocks are of any length and number; each row may have any number of values.", "anchors": ["pyensys/engines/pyeneI.py:excel2pyene._read_output_requirements", "pyensys/engines/pyeneI.py:excel2pyene._check_data_type"]}
{"id": "C190", "title": "Functions of a workbook", "statement": "Every row of every table of a sheet 'functions' gives one function with the values of its columns and its coefficients, and the function gets the characteristics of its element.", "quantifier": "every sheet made of tables and gaps; any number of columns, rows and coefficients", "why_tests_cant": "Tables have any number of columns and rows of any length; the element is searched among all the types.", "anchors": ["pyensys/engines/pyeneI.py:excel2pyene._read_functions", "pyensys/engines/pyeneI.py:excel2pyene._correlate_information"]}
{"id": "C191", "title": "Reading a whole workbook", "statement": "A workbook is read sheet by sheet, by the text in the first cell; the order of the sheets does not matter, and the model has the options, data, tree, connections, functions and outputs of all of them.", "quantifier": "every workbook: any number of sheets of any kinds in any order", "why_tests_cant": "The number of orders of sheets grows with the factorial of their number, and later sheets see what the earlier ones left.", "anchors": ["pyensys/engines/pyeneI.py:excel2pyene.read_excel", "pyensys/engines/pyeneI.py:excel2pyene._correlate_information"]}
{"id": "C192", "title": "Saved results of the GLPK solver are the totals of the plan", "statement": "After a run of the network or the coupled model with the GLPK solver, the saved table has one row for every scenario and period, and its columns are the base power times the totals of the plan: generation of thermal, hydro and renewable units, demand, pumps, losses, curtailed demand and curtailed generation, and the interpolated cost blocks; saved profiles hold the profile of each scenario.", "quantifier": "every network, number of scenarios, periods and contingencies, every solution", "why_tests_cant": "The number of columns of the solution grows with units x scenarios x periods x contingencies, and each option changes which totals are present.", "anchors": ["pyensys/engines/pyeneO.py:pyeneOConfig.saveResultsGLPK", "pyensys/engines/pyeneO.py:pyeneOConfig.SaveDetailedResultsGLPK"]}
{"id": "C193", "title": "Saved rows balance", "statement": "In every saved row generation plus curtailed demand is demand plus pumps, losses and curtailed generation.", "quantifier": "every network and every feasible plan of the network model or the economic dispatch", "why_tests_cant": "The balance is a consequence of all the nodal balances together and must hold for every feasible plan.", "anchors": ["pyensys/engines/pyeneO.py:pyeneOConfig.saveResultsGLPK"]}
{"id": "C194", "title": "Printed totals are the totals of the saved rows", "statement": "The totals printed after a run (of the day and of each period) are the sums of the columns of the saved table of the same run.", "quantifier": "every network, scenario and number of periods, every solution", "why_tests_cant": "Printing and saving are separate loops over the same solution and must agree for all sizes and options.", "anchors": ["pyensys/engines/pyeneO.py:pyeneOConfig.printallNetworkResult"]}
{"id": "C195", "title": "Saved rows of a Pyomo run are the totals of the plan and add up to the reported totals", "statement": "After a run with Pyomo, the saved table of a scenario has one row for every period, each entry being base power times the total of the plan in that scenario and period (conventional, hydro and renewable generation, unused renewable potential, demand, pumps, losses, curtailment); with the weights of scenarios and periods the columns add up to the totals reported for the whole run.", "quantifier": "every network, number of scenarios and periods, every weights, every solution", "why_tests_cant": "Rows and totals are computed by separate calls with different period and scenario selections and must agree for all sizes and weights.", "anchors": ["pyensys/engines/pyeneO.py:pyeneOConfig.saveResultspyomo", "pyensys/engines/main.py:pyeneClass.get_AllRES"]}
{"id": "C196", "title": "Results accumulated over a history of runs are the sums over the runs", "statement": "After any sequence of runs the summary holds for each part of the objective (conventional, renewable, hydro, pumps, curtailment), for curtailment and for spill the sum over the runs, the total equals the sum of the parts, and each run's parts add up to the objective that was minimised; saving tables does not change the summary and the summary does not change the tables; the summary is saved whenever a result folder is given.", "quantifier": "every history of runs, every choice of folders", "why_tests_cant": "Accumulated state over all histories of runs; tests run one or two.", "anchors": ["pyensys/engines/pyeneO.py:pyeneOConfig.Accumulate", "pyensys/engines/pyeneO.py:pyeneOConfig.saveSummary", "pyensys/engines/main.py:pyeneClass.get_OFparts"]}
{"id": "C197", "title": "The reported marginal value of water is the negative dual", "statement": "The marginal value of water that is reported for an input is minus the dual value of its allowance, and 0 if the solver has no dual.", "quantifier": "every dual value", "why_tests_cant": "Must hold for all values of the dual, small fractions included.", "anchors": ["pyensys/engines/main.py:pyeneClass.get_HydroMarginal"]}
{"id": "C198", "title": "Printed losses of the branches add up to what is lost", "statement": "The losses printed for the branches in a period and scenario add up to generation minus demand plus curtailment in that period and scenario.", "quantifier": "every network, flows in any direction, every demand and curtailment", "why_tests_cant": "The allocation divides by a sum of flows; agreement must hold for every sign pattern of flows and every set of buses without demand.", "anchors": ["pyensys/engines/pyeneN.py:ENetworkConfig.printLosses"]}
{"id": "C199", "title": "The compiled engine keeps every parameter it is given, under its element", "statement": "Every parameter loaded into the compiled engine belongs to the element with its ID; asking an element for a parameter in a period gives the value given last for that parameter (for that period, or for all periods if it does not depend on the period).", "quantifier": "every list of loaded parameters, every element, name, representative period and hour", "why_tests_cant": "Elements and values are found by comparing sets of characteristics along the whole history of loads; overwriting depends on the order of all loads.", "anchors": ["pyensys/engines/energy_models2.cpp:models::load_parameter", "pyensys/engines/energy_models2.cpp:models::create_nodes_network", "pyensys/engines/energy_models2.h:information", "pyensys/engines/cpp_energy_wrapper.pyx:models_cpp"]}
{"id": "C200", "title": "Powers are converted to per unit, nothing else is", "statement": "After the conversion every power parameter of every element is the given one divided by the base power, in every period, and every other parameter is what was given.", "quantifier": "every set of loaded elements, every base power, every period", "why_tests_cant": "The conversion visits every entry for all periods through lookups by name; one entry missed or divided twice changes the answer for some network only.", "anchors": ["pyensys/engines/energy_models2.cpp:models::convert2per_unit"]}
{"id": "C201", "title": "Piecewise linear costs of the compiled engine approximate the given cost from above", "statement": "For a convex cost function the rows written for a generator admit, for every output within its limits, exactly the costs from the broken line through the cost at equidistant outputs on; for a quadratic cost this is never below the given cost and at most a*D^2/4 above it.", "quantifier": "every convex polynomial or list of points, every number of pieces, limits, base power and output", "why_tests_cant": "The property concerns all real outputs between the break points and all admissible coefficients.", "anchors": ["pyensys/engines/energy_models2.cpp:models::breakpoints_piecewise_linearisation", "pyensys/engines/energy_models2.cpp:models::piecewise_linearisation", "pyensys/engines/energy_models2.cpp:models::declare_dc_opf_constraints"]}
{"id": "C202", "title": "The linear program of the compiled engine is the DC optimal power flow of each period", "statement": "A point is feasible for the program of a period exactly if it satisfies the balance at every bus, the angle limits of the branches in service, the limits of the generators and the cost rows of that period; its objective is the cost of that period.", "quantifier": "every network, set of periods and point", "why_tests_cant": "Equivalence between the sparse matrix assembled with running positions and the physical rules has to hold for all networks and all values of the variables.", "anchors": ["pyensys/engines/energy_models2.cpp:models::declare_dc_opf_variables", "pyensys/engines/energy_models2.cpp:models::declare_dc_opf_constraints", "pyensys/engines/energy_models2.cpp:models::create_dc_opf_matrix"]}
{"id": "C203", "title": "The compiled engine solves, in megawatts and currency, the problem that was loaded", "statement": "For every representative period and hour of the data there is one program; in its solutions the balance in megawatts holds with the given demand, outputs and flows respect the given limits, and the objective is the given cost of the output in megawatts.", "quantifier": "every set of loaded parameters, base power, choice of periods, and every solution", "why_tests_cant": "The property relates loading, conversion, piecewise costs and program over all data and all solutions.", "anchors": ["pyensys/engines/energy_models2.cpp:models::create_dc_opf_model", "pyensys/engines/energy_models2.cpp:models::convert2per_unit", "pyensys/engines/energy_models2.cpp:models::declare_dc_opf_variables"]}
{"id": "C204", "title": "The results of the compiled engine for a period are those of its last evaluation", "statement": "Evaluating a representative period and hour succeeds, gives the variables of the buses and of the generators in service in that period the values the solver found, and changes the results of no other period; after any sequence of evaluations each period has the results of its last one.", "quantifier": "every network, set of periods, history of evaluations and solutions of the solver", "why_tests_cant": "Histories of evaluations are unbounded, and results are stored by position in one vector for all periods.", "anchors": ["pyensys/engines/energy_models2.cpp:models::evaluate", "pyensys/engines/energy_models2.cpp:models::store_solution", "pyensys/engines/energy_models2.h:clp_model"]}
{"id": "C205", "title": "An update of a parameter changes that parameter in the program of that period, and nothing else", "statement": "A new maximum power of a generator for a representative period and hour makes the program of that period the optimal power flow with that limit divided by the base power; other generators, other periods, the objective and the results stay; after any history of evaluations and updates the limits are those given last. A new status of a branch takes it in or out of service.", "quantifier": "every network, history of evaluations and updates, order of the characteristics of an update", "why_tests_cant": "The program after an arbitrary history has to be equivalent to a physical problem for all points.", "anchors": ["pyensys/engines/energy_models2.cpp:models::update_parameter", "pyensys/engines/energy_models2.cpp:models::get_position_in_graph", "pyensys/engines/energy_models2.h:graph_data"]}
{"id": "C206", "title": "The outputs of the compiled engine are the values that were asked for", "statement": "An output of a variable is the list of its values in the period evaluated last, one for each element of the type (and with the IDs) asked for, in the order of the network, or their sum; an output of a parameter its values in that period; several outputs are returned one after the other.", "quantifier": "every engine state, output and order of its characteristics", "why_tests_cant": "Filters over all elements, parameters and characteristics, after any evaluation.", "anchors": ["pyensys/engines/energy_models2.cpp:models::return_outputs", "pyensys/engines/energy_models2.cpp:models::accumulate_unique_characteristics_outputs"]}
{"id": "C207", "title": "The options of a command are the configuration that is run", "statement": "A command that is not refused hands the engine exactly what its options ask for: so many plants and pumps at the buses 1, 2, ..., the losses, the linear losses instead of them if they are positive, the feasibility generators, the time steps, the files and the solver.", "quantifier": "every command and every combination of options", "why_tests_cant": "Twelve options with defaults that differ between five commands, overwritten one after the other.", "anchors": ["pyensys/cli.py:cli", "pyensys/cli.py:_update_config_pyeneE", "pyensys/cli.py:_update_config_pyeneN", "pyensys/cases.py:hydro_example_tobeerased", "pyensys/cases.py:test_pyeneAC", "pyensys/cases.py:test_pyeneRES"]}
{"id": "C208", "title": "Contingencies are modelled for branches that exist", "statement": "The tables of security are built exactly when every contingency is the number of a branch; they then list all branches for the normal operation and, for each contingency, all branches but the one that fails, at the buses of that contingency.", "quantifier": "every network size and every list of contingencies", "why_tests_cant": "All numbers of branches and contingencies, in every order and with repetitions.", "anchors": ["pyensys/engines/pyeneN.py:ENetworkClass.ProcessENet"]}
{"id": "C209", "title": "What the command line accepts can be started", "statement": "If a command accepts its options and there is a time step, the engine starts with the plants, renewable units and contingencies that were asked for.", "quantifier": "every command, option and network size", "why_tests_cant": "The options are only used long after they were accepted; all combinations count.", "anchors": ["pyensys/cli.py:_update_config_pyeneN", "pyensys/engines/pyeneD.py:HydropowerConfig.MPCconfigure", "pyensys/engines/pyeneD.py:RESConfig.MPCconfigure", "pyensys/engines/pyeneN.py:ENetworkClass.ProcessENet"]}
{"id": "C210", "title": "The profiles of a file of time series can be found again", "statement": "The tables of types and of periods that are returned with the profiles of a file point to the values that the file has for each source, period, link and hour, and to nothing else.", "quantifier": "every file, number of sources, periods, links and hours", "why_tests_cant": "Three tables of positions over arbitrary many sources of different sizes.", "anchors": ["pyensys/engines/main.py:pyeneClass.ReadTimeS"]}
{"id": "C211", "title": "The plants of a file of time series keep their bus and link", "statement": "The buses and links that are returned are those of the plants of the file, source after source, the links numbered after those of the sources before.", "quantifier": "every file and every plant", "why_tests_cant": "Positions accumulate over arbitrary many sources.", "anchors": ["pyensys/engines/main.py:pyeneClass.ReadTimeS"]}
{"id": "C212", "title": "A file of time series that is complete is read", "statement": "A file whose sources have periods, links, a bus for each plant and values of the right shape is read, whatever the number of its plants and periods; a file without renewable sources gives the demand.", "quantifier": "every file", "why_tests_cant": "All combinations of numbers of plants, periods and links, and all shapes of values.", "anchors": ["pyensys/engines/main.py:pyeneClass.ReadTimeS", "pyensys/cases.py:test_pyene"]}
{"id": "C213", "title": "run runs what was initialised", "statement": "After any history of calls that raised nothing, running with pyomo gives the solved model if the engine was initialised with a configuration, and running without a solver evaluates the compiled model if it was initialised with a workbook; the commands of the package end with results.", "quantifier": "every history of initialise and run", "why_tests_cant": "Attributes that only some calls create; the histories are unbounded.", "anchors": ["pyensys/engines/main.py:pyeneClass.run", "pyensys/engines/main.py:pyeneClass.initialise", "pyensys/cases.py:test_pyene", "pyensys/cases.py:hydro_case"]}
{"id": "C214", "title": "The water set for a plant is what it can use", "statement": "After any sequence of set_Hydro the input of each plant is the value given to it last, no other input has changed, and in every solution the plant produces no more than this (with the weights of the tree).", "quantifier": "every number of plants, sequence of calls, tree of periods and solution", "why_tests_cant": "Sequences, trees and solutions are unbounded.", "anchors": ["pyensys/engines/main.py:pyeneClass.set_Hydro", "pyensys/engines/pyeneE.py:EnergyClass"]}
{"id": "C215", "title": "Marginal values and water left are reported as they are", "statement": "The flag of a plant says whether the marginal value of its water exceeds the penalty; the mean marginal value is the mean of the duals up to less than one; the water left is the sum over the plants.", "quantifier": "every number of plants, duals, penalty and base", "why_tests_cant": "Rounding of arbitrary numbers.", "anchors": ["pyensys/engines/main.py:pyeneClass.get_HydroFlag", "pyensys/engines/main.py:pyeneClass.get_MeanHydroMarginal", "pyensys/engines/main.py:pyeneClass.get_Hydro", "pyensys/engines/main.py:pyeneClass.get_AllHydro", "pyensys/cases.py:test_pyene"]}
{"id": "C216", "title": "Line parameters set by the user", "statement": "Setting a parameter of some lines changes this parameter of these lines and nothing else; after a capacity was set for all lines, the flows that are admitted are those of at most this power.", "quantifier": "every network, list of lines, value and base", "why_tests_cant": "All networks and lists of lines.", "anchors": ["pyensys/engines/main.py:pyeneClass.set_LineCapacity", "pyensys/engines/main.py:pyeneClass.set_LineCapacityAll", "pyensys/engines/pyeneD.py:Branch"]}
{"id": "C217", "title": "The services asked for are provided", "statement": "In every solution, in every period and instance, the ancillary services that the settings ask for are provided by units that may provide them; every dispatch that leaves enough for them is admitted.", "quantifier": "every network, number of instances, setting and dispatch", "why_tests_cant": "A statement about the set of all solutions of a linear program of arbitrary size.", "anchors": ["pyensys/engines/pyeneN.py:ENetworkClass.cNServices_rule", "pyensys/engines/pyeneN.py:ENetworkClass.cNServicesA_rule", "pyensys/engines/pyeneN.py:ENetworkClass.cNAncillary_rule", "pyensys/engines/pyeneN.py:ENetworkClass.initialise"]}
{"id": "C218", "title": "Uncertain renewables are limited or supported", "statement": "Renewable units whose output is uncertain produce at most the certain part of what is available, unless units that may support them do so.", "quantifier": "every network, number of instances, uncertainty and dispatch", "why_tests_cant": "A statement about the set of all solutions of a linear program of arbitrary size.", "anchors": ["pyensys/engines/pyeneN.py:ENetworkClass.cNUncRES_rule", "pyensys/engines/pyeneN.py:ENetworkClass.cNUncRES0_rule", "pyensys/engines/pyeneN.py:ENetworkClass.cNServicesR_rule"]}
{"id": "C219", "title": "An instance is relieved by its own curtailment", "statement": "The curtailment that balances an instance without network, and that relieves its services, is curtailment of this instance and is charged with its weight.", "quantifier": "every number of instances and of buses with demand", "why_tests_cant": "Positions of variables over arbitrary many instances and buses.", "anchors": ["pyensys/engines/pyeneN.py:ENetworkClass.cNEBalance0_rule", "pyensys/engines/pyeneN.py:ENetworkClass.cNAncillary_rule", "pyensys/engines/main.py:pyeneClass.OF_rule"]}
{"id": "C220", "title": "The profiles of a node are the original ones times its factors", "statement": "After any history of visits of nodes of the control graph, the power flow of a node uses, for every profile of the input, the original values times the factor that the node gives for this type of element and variable, independent of the nodes visited before.", "quantifier": "every list of profiles, every history of visits with any modifiers, with and without initialising the network", "why_tests_cant": "Histories of visits of arbitrary length with arbitrary profiles and factors.", "anchors": ["pyensys/Optimisers/RecursiveFunction.py:_update_pandapower_controllers", "pyensys/wrappers/PandaPowerWrapper.py:update_network_controller", "pyensys/wrappers/PandaPowerManager.py:initialise_pandapower_network"]}
{"id": "C221", "title": "The power flow minimises the costs of the file", "statement": "Before an AC optimal power flow the external grid is exchanged for a generator; the cost that is minimised is, for every dispatch, the cost that the costs of the network file give.", "quantifier": "every network: external grids, generators, costs; every dispatch", "why_tests_cant": "Every network and dispatch.", "anchors": ["pyensys/wrappers/PandaPowerWrapper.py:run_ac_opf"]}
{"id": "C222", "title": "Verdict and cost of a node cover all its time steps", "statement": "A node is feasible only if the power flow converged in all its time steps, and the operation cost of the node is that of all its time steps.", "quantifier": "every number of time steps, every outcome of the power flows, both settings of continue_on_divergence", "why_tests_cant": "Sequences of outcomes of arbitrary length.", "anchors": ["pyensys/wrappers/PandaPowerWrapper.py:run_time_step_simulation", "pyensys/wrappers/PandaPowerManager.py:run_time_step_opf_pandapower", "pyensys/wrappers/PandaPowerWrapper.py:get_total_cost"]}
{"id": "C223", "title": "The engine builds a program for an energy balance tree", "statement": "When the balance tree ('BT') is switched on and every node of the tree is given a weight, an input and an output, initialising the compiled engine gives a program that balances input, output and flows of every node.", "quantifier": "every list of tree parameters, every list of connections, with and without the DC OPF", "why_tests_cant": "Trees of every depth and width with every combination of parameters.", "anchors": ["pyensys/engines/energy_models2.cpp:create_nodes_tree", "pyensys/engines/energy_models2.cpp:create_balance_tree_model", "pyensys/engines/energy_models2.h:insert2component", "pyensys/engines/pyene_Models.py:_load_tree_information_cpp"]}
{"id": "C224", "title": "The expansion variables are the candidate branches", "statement": "After initialising the engine with transmission expansion on, get_moea_variables returns exactly the branches that are marked as candidates, in the order of the network, each with bounds 0 and 1, and get_moea_objectives returns the expansion cost.", "quantifier": "every network and every list of model options", "why_tests_cant": "Networks of every size with complete and incomplete data.", "anchors": ["pyensys/engines/energy_models2.cpp:declare_moea_variables", "pyensys/engines/energy_models2.cpp:get_MOEA_variables", "pyensys/engines/main.py:get_moea_variables"]}
{"id": "C225", "title": "Failure and repair times are exponential with the given means", "statement": "In a Monte Carlo simulation the hours to failure and to recovery of an element are drawn from the exponential distribution with its mean times: a time is at least k hours with probability exp(-k/mean), its mean is the mean given, and an element with positive times fails.", "quantifier": "every mean time, every number of hours, every number drawn", "why_tests_cant": "Statement about a distribution over all numbers that can be drawn.", "anchors": ["pyensys/engines/pyene_Stochastic.py:calculaterandomfailureandrecover", "pyensys/engines/pyene_Stochastic.py:calculatematrixfailureandrecover"]}
{"id": "C226", "title": "The report of run-en gives the energies of the solution", "statement": "The figures that run-en prints for pumps, spilled renewables and curtailment are the energies of the solution over the horizon (weighted by hours and instances), the same for both solvers.", "quantifier": "every solution, all weights, every number of instances, periods, pumps, renewable units, buses and contingencies", "why_tests_cant": "Sums over arbitrary dimensions and weights.", "anchors": ["pyensys/cases.py:test_pyene", "pyensys/engines/main.py:get_Pump", "pyensys/engines/main.py:get_RES", "pyensys/engines/main.py:get_AllDemandCurtailment"]}
{"id": "C227", "title": "The tables of the network report show the solution", "statement": "Printing a solved case shows, for every instance that is asked for, the tables that are asked for: one row per generator, branch, bus, pump or service and one column per period, with the values of the solution in MW (angles and states as they are).", "quantifier": "every solution, every number of elements, periods and instances, every choice of tables, with and without unit commitment and network", "why_tests_cant": "Tables of arbitrary dimensions; offsets of instances must be right for all sizes.", "anchors": ["pyensys/engines/pyeneN.py:print", "pyensys/engines/main.py:Print_ENSim", "pyensys/engines/pyeneN.py:cNEngine"]}
{"id": "C228", "title": "The losses shown on the screen are the losses", "statement": "The losses printed for the branches are those of the model; if a loss factor is used, the losses shown of an instance and period add up to generation minus demand served and pumping.", "quantifier": "every solution, every loss factor, flows in both directions, with and without pumps and curtailment", "why_tests_cant": "Sums over arbitrary numbers of branches, buses and units.", "anchors": ["pyensys/engines/pyeneN.py:print"]}
{"id": "C229", "title": "The tables of the water report balance", "statement": "Printing a solved case with hydrology shows inputs, outputs, flows, volumes and violations such that at every node of the river network and in every period the water shown as entering equals the water shown as leaving, every input and output is shown at the node the user gave, the flows of a river differ by the change of its volume, and no flow exceeds the limit of its river by more than the violation shown.", "quantifier": "every river network, every feasible solution, every scenario and period, every choice of tables", "why_tests_cant": "Balance of all nodes for all networks and solutions.", "anchors": ["pyensys/engines/pyeneH.py:print", "pyensys/engines/pyeneH.py:initialise"]}
{"id": "C230", "title": "Profiles in the original format drive the elements they name", "statement": "A profile given in the input document in the original format (a table of numbers with column names, or a sheet of a workbook; element type, variable, labels of elements, active columns) sets, in every time step of a simulation with n periods, the variable of the j-th listed element to the mean of the rows of the j-th active column that belong to the time step; elements that no profile names keep their values, and a document whose profiles are complete is read and simulated without error.", "quantifier": "every list of profiles, every table, workbook, number of periods, time step, order of columns and labels, every network", "why_tests_cant": "The profile has to be right for every number of rows and periods, order of columns and number of profiles; a test checks one table.", "anchors": ["pyensys/readers/JSONReader.py: _read_profile_data_with_original_format, _read_dataframe_data, _read_active_columns_names, _adjust_pandapower_profiles_to_time_steps", "pyensys/wrappers/PandaPowerManager.py: add_controllers_to_network", "pyensys/wrappers/PandaPowerWrapper.py: add_controller_to_network"]}
{"id": "C231", "title": "Flexible units are new generators with their own limits and costs", "statement": "For each distinct bus of the table of flexible units the planning tool creates one new static generator at the bus with one new cost, whatever the case already contains, and the limits and costs of a row of the table at a node are written to the generator and the cost created for the bus of the row, for each power flow of the run.", "quantifier": "every case (buses, static generators, costs), every table of flexible units, every node and row, every sequence of power flows", "why_tests_cant": "The lookup by bus goes wrong only for cases with generators at the same bus and in the second power flow; tests use a case without static generators.", "anchors": ["pyensys/wrappers/PandaPowerManager.py: create_static_generators_for_flexibility", "pyensys/wrappers/PandaPowerWrapper.py: create_static_generator, create_poly_cost, run_timestep_opf_pandapower", "pyensys/Optimisers/RecursiveFunction.py: _parameters_for_flexible_units"]}
{"id": "C232", "title": "The network of the optimisation is that of the case file", "statement": "Reading a case file gives a network with exactly the buses and branches of the file: number, type, voltages, name, coordinates, load type, fixed losses, demands and peaks of every bus and ends, impedances, rating, ratio, status and failure times of every branch are those the file gives (defaults where a column is missing); in the optimisation every branch in service joins the buses the file names with the rating of the file per unit, branches out of service carry nothing, and every file with the required columns is read.", "quantifier": "every case file, every number of buses and branches, every bus numbering, every set of optional columns", "why_tests_cant": "It quantifies over all files, orders of numbers and optional columns; tests read a few cases.", "anchors": ["pyensys/engines/pyeneN.py: ENetworkClass.Read", "pyensys/engines/pyeneD.py: BusConfig.MPCconfigure, BranchConfig.MPCconfigure, ElectricityNetwork.MPCconfigure, Bus, Branch"]}
{"id": "C233", "title": "The generators of the optimisation are those of the case file and the settings", "statement": "Reading a case file gives the generators of the file, at the buses and with the limits, costs and status of the file, and the hydropower and renewable units of the settings; settings given once apply to all units and lists apply unit by unit; limits are used per unit of the base, units out of service do not produce, and cost curves of any number of coefficients and additional rows for reactive power are accepted.", "quantifier": "every case file, every settings of conventional, hydropower and renewable units, every unit", "why_tests_cant": "All files, numbers of units and shapes of settings; tests use one case and default settings.", "anchors": ["pyensys/engines/pyeneN.py: ENetworkClass.Read", "pyensys/engines/pyeneD.py: ConventionalConfig.MPCconfigure, HydropowerConfig.MPCconfigure, RESConfig.MPCconfigure, Generators.MPCconfigure, Generators.initialise"]}
{"id": "C234", "title": "The screening reads the values of the case", "statement": "For every case that the screening stage accepts, the parameter that its constraints read for an element and a column (such as Gen3_PMAX) and the value found for it in the graph of parameters are the entry of the case for that element and that column, and no other parameter exists.", "quantifier": "every case, every element and every column that is read", "why_tests_cant": "All sizes of networks (names with any number of digits) and all values of the tables.", "anchors": ["pyensys/Optimisers/screening_model_CLI.py:model_screening.readVarPara", "pyensys/Optimisers/screening_model_CLI.py:model_screening.NetworkModel", "pyensys/Optimisers/screening_model_CLI.py:model_screening.addPara"]}
{"id": "C235", "title": "Which cases the screening accepts", "statement": "The screening stage reads a case without an exception exactly when it has at least one generator, one bus and one branch and every column that is read has an entry for every element.", "quantifier": "every case, with any number of elements and any columns", "why_tests_cant": "All combinations of counts and of missing or short columns.", "anchors": ["pyensys/Optimisers/screening_model_CLI.py:model_screening.readVarPara"]}
{"id": "C236", "title": "The graph of the screening joins elements to their buses", "statement": "For every accepted case whose buses have different numbers, the graph of parameters has exactly one edge between each generator and its bus, and between each branch and each of the different buses at its ends, and no other edge.", "quantifier": "every case with distinct bus numbers, including elements at buses that do not exist and branches from a bus to itself", "why_tests_cant": "All networks and all orders of the buses in the table.", "anchors": ["pyensys/Optimisers/screening_model_CLI.py:model_screening.NetworkModel._create_nodes_graph", "pyensys/Optimisers/screening_model_CLI.py:model_screening.NetworkModel._create_edges_graph"]}
{"id": "C237", "title": "A power flow uses the solver, the options and the time steps of the input file", "statement": "If the input file names an OPF type and a solver that exist, every power flow of the planning calls exactly that solver, with the options (progress bar, continue on divergence) given in the file or their defaults; with inter_temporal it covers every period of the date range in order. A type or solver that does not exist is reported. A missing section or key stands for its default.", "quantifier": "for every input document, every environment that resolves dates and files, and whatever the planning object was prepared with before", "why_tests_cant": "the settings pass through four classes and two levels of defaults; tests use a few complete files, and a run that calls no solver looks like an infeasible network", "anchors": ["pyensys/wrappers/PandaPowerManager.py:define_simulation_settings", "pyensys/wrappers/PandaPowerWrapper.py:run_time_step_simulation", "pyensys/wrappers/PandaPowerWrapper.py:run_ac_opf", "pyensys/Optimisers/RecursiveFunction.py:_run_opf", "pyensys/readers/JSONReader.py:_load_pandapower_optimisation_settings"]}
{"id": "C238", "title": "The output writer records exactly the requested variables in every period", "statement": "If the input file has output settings, the network of every power flow has a writer in the given directory and format that logs exactly the variables of the file, in their order, for every period; an empty list of indices stands for all elements.", "quantifier": "for every input document, every environment, every earlier state of the object and every preparation between power flows", "why_tests_cant": "the writer is recreated whenever the network is reset during the search; tests look at one network after one preparation", "anchors": ["pyensys/wrappers/PandaPowerManager.py:add_output_writer_to_network", "pyensys/wrappers/PandaPowerWrapper.py:add_output_writer_to_network", "pyensys/wrappers/PandaPowerWrapper.py:log_variable_in_output_writer", "pyensys/readers/JSONReader.py:_load_output_settings"]}
{"id": "C239", "title": "Preparing a network with another input file forgets the one before", "statement": "After an object is prepared with an input file, the loaded case, the controllers, the added generators, the writer and the settings of the runs are those of that file only, whatever the object was prepared with before.", "quantifier": "for every input document, every list of buses with flexible units and every earlier state of the object", "why_tests_cant": "state left over depends on the history of files given to one object, of which tests try none", "anchors": ["pyensys/wrappers/PandaPowerManager.py:initialise_pandapower_network", "pyensys/wrappers/PandaPowerManager.py:_initialise", "pyensys/wrappers/PandaPowerManager.py:update_multiple_parameters"]}
{"id": "C240", "title": "The plan that the access function returns can be saved", "statement": "What main_access_function returns can be given to save_in_json: the file then holds, under the groups lines, investment_costs and operation_costs, exactly the rows of the tables of the plan.", "quantifier": "for every problem, every plan with any number of rows and every earlier content of the file", "why_tests_cant": "the two functions are composed by users on plans of any size; a plan takes a complete search to obtain", "anchors": ["pyensys/managers/GeneralManager.py:main_access_function", "pyensys/managers/GeneralManager.py:save_in_json", "pyensys/Optimisers/NonAnticipativeRecursiveFunction.py:get_solution"]}
{"id": "C241", "title": "Saving a plan changes neither the plan nor anything but the file", "statement": "save_in_json leaves the tables it is given as they were, so that they can be used or saved again; if it raises, the file is as before.", "quantifier": "for every list of tables, every other value and every sequence of two saves", "why_tests_cant": "the effect on the argument shows only when it is used again", "anchors": ["pyensys/managers/GeneralManager.py:save_in_json"]}
{"id": "C242", "title": "An input file is read or rejected", "statement": "read_parameters returns the parameters of the document in the file, or raises; it never returns parameters that are not those of the file.", "quantifier": "for every path, every content of the file and every environment", "why_tests_cant": "all names and directories of files, with and without extensions, dots and capitals", "anchors": ["pyensys/readers/ReaderManager.py:read_parameters", "pyensys/readers/JSONReader.py:ReadJSON.read_json_data"]}
{"id": "C243", "title": "Looking ahead asks every successor and changes nothing", "statement": "The look-ahead of the non-anticipative solver tries the successors of the current node in turn, each with the interventions of the plan that will be finished a year later and the options that can be built at once and are not yet taken; it answers whether all of them can be operated, stops at the first that cannot, and leaves the plan, the remaining construction times, the node and the level as they were.", "quantifier": "all pools with distinct keys, trees, plans under construction and networks (OPF answers may depend on the history)", "why_tests_cant": "the state is changed and restored in place for every successor, whatever the containers hold; a test sees a few plans", "anchors": ["pyensys/Optimisers/NonAnticipativeRecursiveFunction.py: NonAnticipativeRecursiveFunction._verify_feasibility_of_solution_in_successor_nodes, _verify_feasibility_of_successor_with_all_available_interventions_for_current_year"]}
{"id": "C244", "title": "Values of the optimisation model can be asked for", "statement": "get_values_network and get_value_network return, element by element and hour by hour in the order asked, the value that the model holds for the name at the element, the hour and the position in the tree, and None if it holds none; 'all' stands for all elements or all hours.", "quantifier": "for every model, every list of elements and hours, every name, position and kind of data", "why_tests_cant": "the request loops over a graph of any size with any lists of parameters and variables, and the first hour is a special value of the test for missing hours", "anchors": ["pyensys/engines/pyene_Models.py: get_value_network, get_values_network, _get_all_hours, _get_all_IDs, _get_initial_tree_node, _calculate_value_tree, _create_graph"]}
{"id": "C245", "title": "Values that are set in the optimisation model are read back", "statement": "After set_value_network or set_value_tree, asking for the same value gives what was set; a value that did not exist is created.", "quantifier": "for every model, element, name, position, hour, kind and value", "why_tests_cant": "it must hold for every graph and every earlier history of the model, and the failure does not depend on the values tried", "anchors": ["pyensys/engines/pyene_Models.py: set_value_network, set_value_tree, get_value_tree"]}
{"id": "C246", "title": "What was read from a workbook reaches the compiled engine", "statement": "After initialise the engine holds exactly what was read: the functions, buses, generators and branches as its network, the connections, the outputs, the tree and the options, entry by entry in their order, each with its characteristics and its value.", "quantifier": "for every set of sheets, options and trees, with any number of entries and characteristics of any of the eight types", "why_tests_cant": "one candidate is reused for every entry, so that what an entry becomes may depend on every entry loaded before", "anchors": ["pyensys/engines/pyene_Models.py: models._load_information_cpp, _load2cpp, _load_tree_information_cpp, _load_model_information_cpp", "pyensys/engines/cpp_energy_wrapper.pyx: load_value"]}
