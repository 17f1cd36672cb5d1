# Formal model of jnmelchorg/pyensys in Lean 4 - design

This file is generated by `tools/mkdesign.py` from `tools/design_head.md` (prose), the headers of the model files, `properties.jsonl` and `MANIFEST.json`.

## Trusted base

* Lean 4.33.0's kernel. No axioms of our own; every property theorem depends at most on Lean's standard axioms `propext`, `Classical.choice` and `Quot.sound`
  (listed per theorem in the last section; obtained with `#print axioms`). No `native_decide`, no `bv_decide`; `decide +kernel` is used for concrete witnesses only and is
  evaluated by the kernel.
* The reading of the Python source: each model definition cites file and lines in /repo. That the definitions say what the code does is not machine checked; it was tested by
  seeding bugs into the definitions (seeded/LOG.jsonl), which the theorems must notice.
* Numbers: Python floats are modelled by exact rationals `Rat` (Python ints by `Int`/`Nat`; elements of an ordered field in Model/Network, reals in Model/Renewables). Rounding,
  overflow, NaN and infinities are therefore outside the model. `3**0.5` and `math.sqrt` enter as parameters with the sign properties stated as hypotheses.
* External libraries (pandapower, pandas, networkx, scikit-learn, scipy, Pyomo, GLPK) are modelled only through the operations the code uses: the OPF is an arbitrary oracle (a
  function of the OPF calls made so far and of the request, so it may behave differently at every call), a DataFrame is a list of rows, a DiGraph is its insertion ordered node
  and edge lists, Birch is an arbitrary labelling, connected components are a parameter with their defining property, an optimisation model is the list of its constraints and its
  objective - what the solver does with it is not modelled: theorems speak of all feasible or all optimal points.
* `print` calls, timing, file-system access and the JSON/Excel decoders are not modelled.

## Conventions

* `PyErr` enumerates Python exceptions; functions that may raise return `Except PyErr`. `runtime` also stands for a program that GLPK aborts.
* In the search every container key is `str(n)` for an integer n. `str` is injective on integers, so the model uses the integer itself as key (and `none` for the sentinel "not
  found").
* Python recursion is bounded with a fuel argument; running out of fuel is the error `recursion`. Termination theorems show that fuel above the height of the graph is enough and
  that the result does not depend on it.
* Deep copies are values; places where Python shares objects and it matters are modelled with explicit state (the container's own iterator).
* Names: `Cnn_...` are the theorems of property nn. A theorem with the suffix `_partial` proves part of a property; one with `_violated` proves, for the model of the code as it
  is, that (part of) the property is false and exactly when; one with `_witness` shows that the hypotheses of its neighbours are met by a concrete, non-trivial case (many
  witnesses are anonymous `example`s next to the theorem).
* A property is `proved` if the theorems establish its English statement for everything it quantifies over; it is `partial` if something is missing - in almost every case because
  the code itself does not have the property, which is then proved too (the note in MANIFEST.json names the theorems).

## How the properties are stated and proved

| properties | what is modelled | how it is stated and proved |
|---|---|---|
| C01-C09 | the data container in dictionary and list mode, with its own iterator as state | refinement to a finite map / a log of entries by induction over arbitrary sequences of operations; the iterator as a state machine |
| C10-C12, C26-C29 | pool, combinations and local steps of the search | list characterisations (combinations = sublists of a length, counting), case analysis |
| C13-C25, C57 | the whole recursive search with exceptions | Hoare-style invariants by induction on the recursion, total correctness from the height of the graph; the false ones by kernel-evaluated runs on well-formed problems; C22, C23 and C57 for problems of two stages: invariant of the incumbent over leaves and combinations, dominance over all feasible decisions |
| C30 | the anticipative base class | every run that reaches a feasible leaf raises |
| C31, C58 | `get_solution` | folds over recorded paths, permutation and membership of rows |
| C32-C34, C59-C61 | creation of the control graph from a clustered profile and its conversion to a tree | induction over rows and layers; scenarios and histories as independent specification |
| C35, C66-C67 | averaged node data | folds; averages and sums over the scenarios of a node |
| C36-C37, C65 | centroids of clusters | grouping lemmas for an arbitrary labelling |
| C38-C41, C62-C64 | updates of the pandapower network | frame conditions and field arithmetic |
| C42, C45-C46, C72 | profiles and settings of the JSON document | partition of the document into its sections, defaults, equality of what is read with what is written |
| C43, C68 | demand multipliers of attest tables | sums per scenario and year |
| C44, C69-C71 | text reader of MATPOWER files | grammar of numerals and blocks as independent specification; parsing by induction over characters and lines |
| C47-C49, C73-C82 | preparation of the planning problem, options, screening of clusters | extremal characterisations, counting, folds; oracle for the programme |
| C83-C89 | the linear programme of the screening | feasible points and objective from the list of constraints; sums over branches and buses; optimality |
| C56, C90-C93 | verification of clusters | loop over clusters with an oracle for convergence |
| C50-C51, C94-C97 | multi-scale energy balance | trees, index arithmetic, conservation by induction over the tree |
| C53, C98-C99 | renewable profiles | real arithmetic on piecewise definitions |
| C54, C100 | Monte Carlo simulation | loop invariants over failure and repair times |
| C52, C55, C101-C112 | devices, costs, dispatch, unit commitment of the network engine | every constraint as a proposition on values; physical statements (balances, capacity, convexity, ramps) for all feasible points |
| C113-C121 | coupled energy/network model and user interface | block structure of the instances, weights, conservation of water and energy |
| C122-C134 | network objects, islands, reduction to a voltage level | invariants of deletion and renumbering, conservation of demand, losses and generators |
| C135-C147 | hydrology engine and its coupling | conservation of water for all feasible points, index arithmetic of divided rivers |
| C148-C155 | the linear programs written for GLPK | an encoding between names and columns; a program is exactly the set of the physical rules; optimal plans by exchange arguments |
| C156-C161 | converters from and to MATPOWER files | grammar of numerals and files; reader after writer is the identity |
| C162-C164 | report of the planning tool | exact content of the file as a function of the solution |
| C165-C171 | data and results of the investment tool (load sheets, factors, catalogues, result file, records) | loops as maps, exact conditions for success, annuity by induction, invariant for the changed argument |
| C172-C174 | parameters of devices and networks | heap of lists and objects; frame conditions for set, induction over histories of calls, sharing of addresses |
| C175-C176 | result functions of the GLPK models | tables as nested maps, reading by name and offset, transported to the rules of C149 and C148 |
| C177-C178 | tables of the outputs (Excel, HDF5) | passes over the values as a fold with an invariant on the rows found; step budget for termination |
| C179-C180 | reader of PSS/E files | grammar of lines and fields; loop invariant on the counters; star equivalents by algebra |
| C181-C182 | conversion to PyPSA, tables of the AC power flow | loops as maps with distinct names; demand as a sum over loads; lookups by constructed names |
| C183-C186 | Excel workbooks: elements, trees, profiles, correlation | scanners as recursions over rows with state, specified by the shape of the sheet; correlation by an invariant over the profiles done (permutation) |
| C187-C191 | Excel workbooks: options, connections, outputs, functions, the whole workbook | a generic scanner of blocks with its loop lemma; tables by induction over columns, rows and tables; the workbook by a decomposition into kinds of sheets that is closed under concatenation |
| C192-C194 | saved and printed results of the GLPK solver | totals by induction over units, buses and states; balance from the plan characterisation C149 / C153 summed over the buses; printing and saving compared through a common specification |
| C195-C198 | saved rows and accumulated results of Pyomo runs, marginal values, printed losses | rows and totals through the same specification `spCell`; induction over the history of runs; algebra of the loss allocation |
| C199-C203 | compiled (C++) engine: loaded parameters, per unit, piecewise costs, DC optimal power flow | stores of parameters as folds with an invariant on the entries kept; the sparse matrix as a sum over its triples; equivalence with the specification `CDcOpf`; chords of convex functions |
| C204-C206 | runs, updates and outputs of the compiled engine | histories of evaluations and updates by induction with the invariant `CLive`; the program after a history equivalent to the optimal power flow `CDcOpfMax` with the limits given last; outputs as filters, for every order of the characteristics |
| C207-C209 | command line: options, configuration, contingencies, start | configuration as a function of the options; the table of security by induction over its rows and a count of the rows written; equivalences for what is accepted |
| C210-C212 | reader of time series `ReadTimeS` | the three loops as folds with explicit results, indexed through splits `pre ++ p :: post`; the exact condition of acceptance |
| C213-C216 | controls of the engine: initialise/run, water, marginal values, line parameters | histories of calls by induction; the last value given to each plant by induction from the end, then the water balance C115; truncation bounds; folds of updates |
| C217-C219 | services, uncertain renewables, curtailment of instances | projection of the services out of the linear program (exact description of the dispatches that are admitted); positions by division with remainder |
| C220-C222 | profiles, costs and time steps of the power flows of the planning tool | state invariant (controllers = originals times the last factors) over histories by induction; sums over costs; induction over steps |
| C223-C224 | balance tree and expansion variables of the compiled engine | invariant (vertices of the tree keep no constraints) through all loops; first failing vertex of a loop; induction over vertices |
| C225-C226 | failure and repair times; report of run-en | measure of the set of numbers, geometric series; sums over instances and periods, indicator operations for the exact condition |
| C227-C229 | reports of network and water on the screen | readers as tables over ranges (row and column counts are part of the statement), sums over branches; node balance from the constraints of the hydrology model, entries of the tables of inputs by induction over the nodes |
| C230-C231 | profiles in the original format, flexible units | last controller that names the element, frames as lists; labels by position in the list of distinct buses, induction over the creation |
| C232-C233 | case file to network and generators | settings of an object as finite maps, last assignment of a name; per-element specification of the document, composed with the initialisation (C101, C105); totality for complete files |
| C234-C236 | graph of parameters of the screening stage | nodes as the blocks of parameters, unique splitting of the keys at the first underscore; edges as a permutation of the specified ones |
| C237-C239 | settings of the runs, output writer, preparing an object again (Model/RunSettings) | composition with the reader of C46: from the document to the call that reaches pandapower and to the writer; case analysis on the sections that are present; the state before is universally quantified |
| C240-C242 | saving a plan, reading an input file by its path (Model/SaveJson) | induction over the tables, columns and rows: each cell of the frame is found in the dictionary and no other; text lemmas on the last component and the last dot of a path |
| C243 | look-ahead of the plan search | spec of the requests asked, induction over the successors, shifting times there and back |
| C244-C245 | asking the optimisation model for values (Model/EngineQuery) | independent spec of what the model holds; the loop answers like the one element with the identifier; rows by Forall₂; failures for all graphs by cases |
| C246 | data of a workbook in the compiled engine (Model/EngineLoad) | relation "the same value" between cells and values of the engine; induction over characteristics, lists and entries, with the candidate universally quantified |

## Modules (lean/Verif)

Each model file begins with the source it models and its simplifications; they are repeated here. Helper lemmas are in `Lemmas/`, property theorems in `Props/`, independent specifications in `Spec/` or at the head of the property file.

### Model/Attest.lean

Source: pyensys/cases.py (CA below): `attest_invest` 961-997, `build_json` 640-727, `kwargs2ListF`
730-741; pyensys/Optimisers/process_data.py:152-175 (PD), scenarios_multipliers.py (SM).

Simplifications: floats are rationals; years are integers (Python keeps them as decimal strings and
converts with `int`); `Option_Growth` is the constant 1 (CA:945), its other branch is dead code;
scenario numbers, which come from digits (CA:735-737), are natural numbers; prints and the copies
written to files are left out.

### Model/BaseSearch.lean

Source: pyensys/Optimisers/RecursiveFunction.py (RF), pyensys/managers/GeneralManager.py.
The same state `Info` and constant data `Cfg` as for the non-anticipative search are used; the
methods below are those that `NonAnticipativeRecursiveFunction` overrides.

### Model/CaseRead.lean

Sources: pyensys/engines/pyeneN.py (NW), pyensys/engines/pyeneD.py (DV).

Modelled: `ENetworkClass.Read` (NW:1099-1138, without the profiles, which are in Model/Dispatch), the configuration classes of buses, branches and generators (DV:19-229), the network and the
generators that are made of them (DV:526-548, 700-713, 1193-1222, 1544-1555), the constructors of the devices (DV:234-256, 393-424, 1006-1041, 1045-1072, 1097-1121), and the first
steps of `initialise` (DV:617-659, Model/Devices and Model/Dispatch).

Simplifications: the file is the parsed document: sections are lists of columns with their names, values are numbers, texts or lists of numbers; floats are rationals; texts are never
numerals; numbers of buses are whole.  An object is the function from names to values, Python's None is `none`.

### Model/Cli.lean

Source: pyensys/cli.py (CI below): the group `cli` CI:19-46, `_update_config_pyeneE`, `_update_config_pyeneN` CI:50-131, the commands run-n, run-en, run-example-hydro, run-ac, run-res CI:146-300; pyensys/cases.py (CA below): what the commands change before the engine starts, CA:38-45, 80-93, 107-112, 289-316, 389-417; pyensys/engines/pyeneN.py (NW below): the default configuration NW:18-117, the tables of security NW:1027-1057, the time steps NW:690-693; pyensys/engines/pyeneD.py (DV below): the units of hydropower and renewables DV:175-226, 1536-1547.

Simplifications: floats are rationals. The texts of the command line are converted by click (integers, numbers, booleans); `--sec` has the type `list`, so that its text becomes the list of its characters. A text compared with a number is never equal to it (NW:1051): a contingency is a character or a number. `NoTime` is an integer. Folders: `dir` is the folder of cli.py. The commands run-example-hydro and run-ac are defined twice with the same options; the second definition, which does the same, is the one that is used. What the model of the network does afterwards is in the other files.

### Model/Clustering.lean

Source: pyensys/data_processing/clustering.py (CL below), used at
pyensys/Optimisers/ControlGraphsCreator.py:202-209 (CG).

Simplifications: floating point numbers are rationals (`statistics.mean` computes exactly before
rounding).  The labels chosen by scikit-learn's Birch are an arbitrary list of natural numbers, one
per scenario (`fit_predict` returns non-negative integers).

### Model/Commitment.lean

Source: pyensys/engines/pyeneD.py (DV below) and pyensys/engines/pyeneN.py (NW below).

Modelled: the previous period and the table of following periods (NW:228-235, 690-693), the limits of generators with and
without unit commitment (DV:750-816, 1246-1284), minimum down and up times (DV:783-834), ramps (DV:836-850, 896-904,
124-138), baseload (DV:718-725, 1223-1227), the derating table of water cooled generators (DV:1412-1464), the limits of RES
units (NW:1011-1018, 560-566) and the selection of the settings of a generator (DV:124-158).

Simplifications: floats are rationals; the constraints are propositions about the values of the variables (functions of
position and period); a slice selects from the list of periods as Python does; the cooling model `get_CF` is a parameter
(modelled in Renewables).

### Model/Container.lean

Source: pyensys/DataContainersInterface/AbstractDataContainer.py and
pyensys/DataContainersInterface/OperationsAbstractDataContainer.py.

`K` is the key type (Python `str`), `V` the value type.  `==` on values is the `BEq V` instance
(Python `__eq__`, which user classes override).  A Python `dict` is an association list in insertion
order; the list-mode container is the list of its `[key, value]` items.

### Model/Controllers.lean

Sources: pyensys/wrappers/PandaPowerWrapper.py (PW below), pyensys/wrappers/PandaPowerManager.py (PM), pyensys/Optimisers/RecursiveFunction.py (RF).

Modelled: the controllers of the network and their updates (PM:41-50, 101-109, PW:48-58, 77-90, RF:237-258, 295-316), the exchange of the external grid by a generator before a power flow with pypower (PW:113-123), the time steps of a run (PM:98-99, PW:70-75) with the verdict and the cost that are read afterwards (PW:92-93, 102-103).

Simplifications: floats are rationals, a profile is the table of its values. The power flow of a step is an oracle. pandapower itself (create_gen takes the next free index, run_timeseries stops at the first failure unless told to continue, runopp clears the flag before it starts and stores the cost if it converges) is assumed.

### Model/Controls.lean

Source: pyensys/engines/main.py (MN below): `initialise` MN:700-888 (as far as it decides what `run` finds), `run` MN:1039-1060, `set_Hydro` MN:1127-1132, `_set_LineCapacityAux`, `set_LineCapacity`, `set_LineCapacityAll` MN:1139-1162, `get_Hydro`, `get_AllHydro`, `get_HydroFlag`, `get_MeanHydroMarginal` MN:364-370, 461-481, 525-529; pyensys/engines/pyeneD.py (DV below): the limits of the flows DV:283-297, the numbers of branches DV:319-321; pyensys/cases.py (CA below): the calls of `run` CA:151-154, 440-441 and the flag of the GLPK results CA:213-223.

Simplifications: floats are rationals. Of an engine only the attributes that `initialise` creates are kept: those of a configuration (`EM`, `NM`, ...) and the compiled model of a workbook (`mod_cython_cpp`); that a file can be read and a model be solved is assumed here. The argument of `run` is a text or another object.

### Model/CostCurve.lean

Source: pyensys/engines/pyeneD.py (DV below) and pyensys/engines/pyeneN.py (NW below).

Modelled: `GenClass.set_CostCurve` (DV:936-985), the rule `cNEGenC_rule` and its auxiliary (DV:727-748), the default costs
of hydropower and RES units (DV:196-199 and 223-226) and the objective `ENetworkClass.OF_rule` (NW:771-784).

Simplifications: floats are rationals (in particular `Max/(Max/3)` is exactly 3, where the float quotient may fall just
below it); a division by zero of two numpy numbers, which gives `inf` or `nan` and a warning, is `none`; a division of
the capacity by a zero step raises `ZeroDivisionError` (Python floats; numpy floats would raise `OverflowError` at
`int(inf)`).

### Model/Coupled.lean

Source: pyensys/engines/main.py (MA below), pyensys/engines/pyeneN.py (NW below).

Modelled: the number and the places of the instances of the network model (MA:721-722, 747-790, NW:344-378), the weights of
the instances in the objective (MA:97-110), the link between hydropower and the energy balance (MA:780-784, 225-229,
NW:654-658), the objective (MA:912-930), the user functions that set data (MA:272-284, 724-740, 1094-1125, 1169-1194,
1220-1233) and those that report results (MA:310-660).

Simplifications: floats are rationals; the values of the variables of a solved model are functions of position and period;
positions that are used are checked against the ranges declared, a position outside is a `KeyError` of Pyomo.

### Model/Devices.lean

Source: pyensys/engines/pyeneD.py (DV below) and pyensys/engines/pyeneN.py (NW below).

Modelled: `ElectricityNetwork.findBusPosition` (DV:574-584), `get_FlowF`, `get_FlowT` (DV:590-607), `initialise` (DV:617-698),
the security tables of `ENetworkClass.ProcessENet` (NW:1021-1055) and the numbers of flow and voltage variables
(NW:678-680), and the rules of flows and capacities (`Branch`, DV:272-297).

Simplifications: floats are rationals; ratings are numbers (`None`, from a case without RATE_A, raises a TypeError in
Python); dictionaries of an object are fields; a table of positions is the list `pyomo['N-1']` with `None` for a branch
that is out.

### Model/Dispatch.lean

Source: pyensys/engines/pyeneD.py (DV below) and pyensys/engines/pyeneN.py (NW below).

Modelled: the numbering of generators in `Generators.initialise` (DV:1476-1534) with `set_Bin`, `set_MDT`, `set_MUT`
(DV:904-934, 1175-1185), `get_GenInBus` (DV:1318-1324), the piece-wise losses (NW:1058-1078, DV:257-269), the positions of
pumps and curtailment (NW:1080-1099), demand profiles (NW:990-1007 and 1140-1148), the balance of a bus (NW:404-454) and
the balance without network (NW:456-470).

Simplifications: floats are rationals; the values of the variables of one period and one case are given as functions of
the position within the case (the offsets `connections[…][xh]` are added by the caller, see C107); storage is left out:
with storage units `addCon` raises an AttributeError (NW:283-286 use `m.sNSto`, which is never defined), and without them
the storage term of the balance is multiplied by zero (NW:409-410).  Cost curves are modelled in CostCurve, cooling
profiles are left out.

### Model/Elements.lean

Source: pyensys/engines/pyene_Parameters.py (PA below): `_CommonMethods` 13-96, `ElectricityNetwork` 170-257 (constructor), 310-470 (access to objects), classes of devices 98-168 and 576-621.

Python lists and objects are shared, so the model has a heap: lists of parameters, objects (class and dictionary) and lists of objects have addresses; a value is an atom or the address of a
list.  An `assert` of a non-empty text (PA:50-54, 68-72, 92-96, ...) never fails: it is left out.  Lists within lists of parameters are not modelled.

### Model/Energy.lean

Source: pyensys/engines/pyeneE.py (EN below).

Modelled: `_Measure` (EN:250-301), `_Process` (EN:324-358), `_Connect` (EN:93-203), `Mapping` (EN:477-505),
`_Parameters` (EN:303-322), `_Link` (EN:205-248), the sets (EN:390-398) and the constraint rules (EN:360-440).

Simplifications: integer arrays hold unbounded integers, floats are rationals (the divisions of EN:118-122 and
139-141 are exact for trees with fewer than 2^53 scenarios); `LL_TimeNodeBefore` (EN:143-150) is computed and never
used, it is left out; the recursion of `Mapping` has a fuel argument, and running out of fuel is a `RecursionError`
(shown not to happen).  Arrays of the numpy library are lists; writing outside is an `IndexError`.

### Model/EngineCost.lean

Source: pyensys/engines/energy_models2.cpp (EC below): `breakpoints_piecewise_linearisation`, `piecewise_linearisation` (EC:591-665) and the rows and coefficients made of them (EC:874-900, 1283-1325).

Simplifications: doubles are rationals.

### Model/EngineData.lean

Source: pyensys/engines/energy_models2.h (EH below) and pyensys/engines/energy_models2.cpp (EC below): `characteristic`, `information`, `graph_data` (EH:35-142, 366-763), `load_parameter`, `set_parameter`, `create_nodes_network`, `create_edges_network`, `get_information`, `convert2per_unit` (EC:15-55, 186-268, 411-441, 761-835).

Simplifications: doubles are rationals; printed warnings are left out; a result of `boost::get` with the wrong type (an exception that nobody catches) is `badGet`; codes of failure that end `initialise` are `code`.

### Model/EngineLoad.lean

Source: pyensys/engines/pyene_Models.py (PM below): `_load_tree_information_cpp`, `_load_model_information_cpp`, `_load2cpp`, `_load_information_cpp` PM:553-608, the names of the options PM:309-355; pyensys/engines/cpp_energy_wrapper.pyx: `create_parameter`, `load_value`, `set_parameter` 171-213 (CW below); pyensys/engines/energy_models2.cpp:20-55 (EC below); pyensys/engines/energy_models2.h:295-307 (`parameters::push_back`, EH below).

Simplifications: every characteristic and every value has one of the eight data types (another one is printed and not loaded); an `int` has 32 bits, and `PyErr.value` stands for the OverflowError of a larger one; what Cython makes of a float where an integer is declared depends on its version and is the parameter `asInt`; `str` of an option is the parameter `str`; texts are ASCII. Booleans count as numbers.

### Model/EngineNet.lean

Source: pyensys/engines/energy_models2.cpp (EC below) and energy_models2.h (EH below): `create_edges_network` (EC:228-268), `create_problem_element` (EC:299-341), `declare_dc_opf_variables` (EC:667-759), `declare_dc_opf_constraints` (EC:837-949), `create_dc_opf_matrix` (EC:1054-1419), `create_dc_opf_model` (EC:1454-1601), `matrix_representation` (EH:765-940), `load_model` and `solve` of `clp_model` (EH:1192-1262).

Simplifications: doubles are rationals, and `COIN_DBL_MAX` is no bound. A column or row is named by its vertex and its key (EC:329-339); the engine uses the position that is stored with the key, and as keys are different (`C202_columns_partial`) this is the same. Which failure comes first is not kept. `declare_dc_opf_constraints` ends without `return`; the model takes the code for success. Equal places of the matrix add up. The simplex method is not modelled: what is modelled is the program it is given.

### Model/EngineQuery.lean

Source: pyensys/engines/pyene_Models.py (PM below): the records `tree_parameters`, `nodes_info_tree`, `network_variable`, `network_parameter`, `nodes_info_network` PM:80-133; of `Energymodel`: `_create_nodes_graph`, `_create_edges_graph`, `_create_graph` PM:692-767, `get_value_tree`, `set_value_tree` PM:1216-1232, 1269-1286; of `Networkmodel`: `_create_nodes_graph`, `_create_edges_graph`, `_create_graph` PM:1718-1783, `set_value_network` PM:3313-3375, `_get_initial_tree_node`, `_calculate_value_tree`, `get_value_network`, `_get_all_hours`, `_get_all_IDs`, `get_values_network` PM:3820-4052.

A graph that does not exist yet (before `_create_graph`) is `none`; reading it is an AttributeError. `nodes(data=True)` of networkx gives pairs of a number and a dictionary: `node['obj']` is then a TypeError and `node.ID` an AttributeError. `PyErr.runtime` stands for the NetworkXError of a node that is not in the graph.

Simplifications: values are rationals or None; hours are integers or None; names and identifiers are texts. Parameters have the fields of their record. The nodes of a tree are their levels and names. `_recursive_get_tree` and `_recursive_set_tree` (PM:1184-1214, 1234-1267) are left out: they are never reached.

### Model/EngineState.lean

Source: pyensys/engines/energy_models2.cpp (EC below) and energy_models2.h (EH below): `initialise` (EC:2038-2067), `store_solution`, `evaluate` (EC:2069-2169), `accumulate_unique_characteristics_outputs`, `return_outputs` (EC:2171-2677), `convert2pu`, `update_parameter`, `get_position_in_graph` (EC:2679-2838), `find`, `update_information_value`, `update_information_characteristic`, `get_information_characteristic` of `graph_data` (EH:623-655), `clp_model` (EH:1192-1262); pyensys/engines/pyene_Models.py:610-634 (the calls from Python: a dictionary becomes a list of characteristics).

Simplifications: doubles are rationals. The balance tree is not used ('BT' is off), so that a parameter of the problem 'BT' cannot be updated (the tree has no vertices: undefined). The simplex method is not modelled: an evaluation is given the point that it finds, one value for every column. Codes of failure of `initialise` end the run (the engine is left without a program). The characteristics 'min', 'max' and 'cost' of variables are not kept: they are removed before results are returned (EC:2332-2338). Printed texts are left out; so are the texts of the characteristics that are returned with the values.

### Model/EngineTree.lean

Source: pyensys/engines/energy_models2.cpp (EC below) and energy_models2.h (EH below): `create_nodes_tree`, `levels_tree`, `names_levels_tree` (EC:57-92, 133-184), `connections_energy_tree_model`, `create_problem_element`, `declare_balance_tree_variables`, `declare_balance_tree_constraints`, `create_balance_tree_matrix` up to its first row, `update_parameters_references_tree`, `create_balance_tree_model` (EC:270-589), `initialise` (EC:2038-2046, 2061-2067), `declare_moea_variables`, `declare_moea_objectives`, `create_moea_problem`, `get_MOEA_variables`, `get_moea_objectives` (EC:2840-2928), `insert2component` (EH:1081-1084); pyensys/engines/pyene_Models.py:553-560, 636-645.

Simplifications: doubles are rationals, printed texts are left out. The edges of the tree (EC:94-131) are left out: they are used after the first row of the matrix only. The 'column' of an input (EC:369-373) is left out: nothing reads it. Parameters of the tree have the characteristics that pyene_Models.py:553-560 gives them. A model option has a name, perhaps an engine, and a value.

### Model/FlexUnits.lean

Sources: pyensys/wrappers/PandaPowerManager.py (PM), pyensys/wrappers/PandaPowerWrapper.py (PW), pyensys/Optimisers/RecursiveFunction.py (RF).

Modelled: the static generators and costs that are created for the buses of the table "flexible units" (PM:27-34, PW:95-101), the search of static generators and costs by bus and element
(PM:243-253, RF:470-474) and the parameters that are made of the rows of a node (RF:140-146, 423-467).  What `update_multiple_parameters` does with the parameters is in Model/Network.

Simplifications: floats are rationals; a table of the network is the list of its rows with their labels and the columns used here; pandapower is assumed to take the next free label, to refuse
a bus that the network does not have and a second cost for an element (UserWarning, here RuntimeError).

### Model/Glpk.lean

Source: pyensys/engines/pyene_Models.py (PM below) and pyensys/engines/_glpk.pyx (GW below), the second implementation of the
energy balance, the optimal power flow and the model that couples them.

Modelled: the wrapper (`add_cols`, `add_rows`, `load_matrix`, `set_row_bnds`, `set_col_bnds`, `set_obj_coef`, `simplex`,
`get_col_prim`, GW:70-183); `Energymodel` with GLPK (PM:661-690, 758-990, 1070-1076); `Networkmodel.__init__` (PM:1364-1702),
`optimisationNM` with GLPK (PM:1783-1800), its variables, constraints and objective (PM:1822-3066);
`EnergyandNetwork` with GLPK (PM:4356-4572).

Simplifications: floats are rationals; a branch with reactance 0 (numpy divides by zero to an infinite coefficient, which
has no meaning for GLPK) is refused; there are no storage units (`NumberStorageDevices = 0`); lists of the same
objects have the same length (one entry of `pumps['Max']` and `pumps['Value']` for each pump).  A name such as
'ThermalGen'+str(i)+','+str(j) is a tag with the list of its numbers: the numbers are separated by commas, so two names are equal
only if tags and numbers are; the one name without commas ('CEED', PM:4438) is a tag with the list of its digits.  GLPK counts rows
and columns from 1, the model counts from 0.

GLPK itself is not modelled but for what it checks: `glp_add_rows`, `glp_add_cols` of no rows or columns, a row or column number
outside the problem and a coefficient given twice end the program (`runtime`); `glp_simplex` returns an error code, and the
caller's `assert` fails, if a row or column with two bounds has its lower bound not below the upper one (GLP_EBOUND); otherwise it
returns 0, also if there is no feasible point.

### Model/GlpkResults.lean

Source: pyensys/engines/pyene_Models.py (PM below): 1290-1355 (energy trees), 4056-4344 (networks), with GLPK as solver; pyensys/engines/_glpk.pyx (GW below): `get_col_prim`, `get_row_dual` GW:166-183.

A table is a list of lists, in the order of the indices of the array; `None` is `none`.  Values of the columns are a function `x`, as in Model/Glpk; dual values of the rows a function `y`.

### Model/Graph.lean

Sources: pyensys/Optimisers/ControlGraphsCreator.py (CG below), pyensys/wrappers/networkx_wrapper.py
(NX below).

Simplifications: a profile is the list of its rows (years), each the list of the clustered values of
the scenarios (columns); row labels are assumed distinct, so that `data.loc[row]` (CG:39) is the row.
A DiGraph is the list of its edges in insertion order (every node of the graphs built here is the end
of an edge).  Python sets are modelled through an arbitrary order of iteration.

### Model/HydroLink.lean

The links between the hydrology engine and the electricity network, `pyensys/engines/main.py` (MA): the settings that `initialise` gives to the hydrology engine (MA:713-714,
793-808), the lists that connect pumps and hydropower units with the water network (MA:815-871), the conversion factors (MA:166-182) and the constraints (MA:134-158, 219-270),
with `In_From_HM` of pyeneN.py (NW:660-663).  Efficiencies and heads are positive in the theorems (the program divides by them).  Modelled with exact rationals.

### Model/HydroPrint.lean

Source: pyensys/engines/pyeneH.py (HY below): `print` HY:855-943.

Simplifications: a table is the list of the rows of numbers before they are rounded by the format `%8.4f`; the variables of a solved model have values.

### Model/Hydrology.lean

Source: pyensys/engines/pyeneH.py (HY below).

Modelled: the division of rivers into parts (HY:292-377), the additional input and output nodes of pumps and the positions of scenarios (HY:226-291), the linear
functions of flows (HY:404-459), the lists of the rivers of every node and the shares (HY:134-224), links between scenarios, storage and output nodes
(HY:738-846), the variables and all constraints (HY:478-736), the objective (HY:848-853).

Simplifications: floats are rationals; the parallel lists of the rivers are one list of records; the maximum and minimum flows and speeds of a river, which are powers with
fractional exponents (HY:395-400), are given; the calculation of distances (HY:401) is not used by the code and left out; `networkx` is used only to count distinct edges
and nodes (HY:136-152); reading of files, printing and `np.shape` of links (a single link may be given without the outer list) are left out.

### Model/LookAhead.lean

Source: pyensys/Optimisers/NonAnticipativeRecursiveFunction.py (NA).

Modelled: `_verify_feasibility_of_solution_in_successor_nodes` (NA:336-352) and `_verify_feasibility_of_successor_with_all_available_interventions_for_current_year`
(NA:362-377), with the containers and the oracle of Model/Search. `solve` does not call them (no other code does).

Simplifications: those of Model/Search; the two containers of new interventions are emptied of the added ones one after the other, not key by key in turn.

### Model/MatFile.lean

Source: pyensys/readers/JSONReader.py:15-149 (JR below).

Simplifications: floats are rationals; a file is the list of its lines, a line the list of its
whitespace-separated tokens (`contents[xline].split()`), a token a list of characters; digits are the
ASCII digits (Python's `isdigit` also accepts other scripts); `int` of a string with underscores, which
Python accepts, raises ValueError here; the final `savemat` (JR:108-112) is left out.

### Model/MatJson.lean

Sources: pyensys/tests/matpower/conversion_model_mat2json.py:18-283 (MJ below; the version that pyensys/cases.py:17 and
Optimisers/input_output_function.py:27 import), pyensys/Optimisers/conversion_model_mat2json.py:17-292 (a copy that reads whole numbers with `int`) and
pyensys/engines/pyeneI.py:550-755 (PI below; an older version), and `get_mpc`, pyensys/cases.py:457-473 (CA below).

Simplifications: as in Model/MatFile (a file is the list of its lines, a line the list of its tokens, digits are ASCII, floats are exact rationals);
`float('inf')`, `float('nan')` and underscores, which Python accepts, raise ValueError here; the step through the JSON file on the disk (MJ:278-280, CA:467-470)
is left out (its keys `demandP`, `demandQ` become strings); metadata and version are left out.

### Model/MatWrite.lean

Source: `pyene2matpower`, pyensys/engines/pyeneI.py:759-893 (PI below).

Simplifications: the attributes are numbers (an attribute that is still None raises TypeError where it is multiplied by the base and is written as `None` elsewhere; not
modelled); `fmt` stands for Python's way of writing a number (`'{0}'.format(x)`); the file is the list of its lines, each the list of its tokens; the name of the case
in the first line is left out.

### Model/MonteCarlo.lean

Source: pyensys/engines/pyene_Stochastic.py (MC below).

Modelled: the sampled times (MC:36-58), `calculatematrixfailureandrecover` (MC:60-123) and `runmontecarlo`
(MC:125-263), with the network optimisation as an arbitrary function of the demand multiplier and the active elements.

Simplifications: floats are exact; the arrays of times have one entry for each element (which is how they are made,
MC:41-56); a `while` loop has a fuel argument and running out of it stands for a loop that does not end.  Printing
and timing are left out.

### Model/Multipliers.lean

Source: pyensys/readers/JSONReader.py:291-323, 497-530 (JR below).

Simplifications: floats are rationals; the apparent power `sqrt(p**2 + q**2)` (JR:310) is an arbitrary
function `mag` of the two powers; scenarios and years are integers and no cell is missing, so that the
branch JR:311-313 is not taken (a missing number is NaN, not None, in a numeric column); the labels
"scenario s" and "year" are kept as the integers from which they are printed and to which they are
parsed back (JR:517-522, CG:284-294).  pandas divides by zero without raising: a multiplier that is
infinite or NaN is `none`.

### Model/NetPrint.lean

Source: pyensys/engines/pyeneP.py (PP below): `PrintClass.initializeNM` for Pyomo models, PP:54-161, and the `get_` functions PP:238-282; pyensys/engines/pyeneN.py (NW
below): `print` NW:790-934, `printLosses` NW:936-987; pyensys/engines/main.py (MN below): `Print_ENSim` MN:931-939 as far as the network is concerned.

Simplifications: floats are rationals; a table is the list of the rows of numbers before they are rounded by the formats `%8.4f`, `%2.0f`; the demand of a bus (NW:962-964) is one
number in MW (its parts are the subject of `demandAt`); tables that were printed before an error are not modelled, an error is the result of the whole report; the storage of
the network and the tables of PyPSA networks (`prnt.type == 2`) are not modelled here.  The offsets `connections[...]` are those of the coupled model (`instOffset`).

### Model/Network.lean

Sources: pyensys/wrappers/PandaPowerManager.py (PM), pyensys/wrappers/PandaPowerWrapper.py (PW),
pyensys/Optimisers/RecursiveFunction.py (RF), NonAnticipativeRecursiveFunction.py (NA).

Simplifications: floating point numbers are elements of an arbitrary ordered field `K`; `3**0.5` is a
parameter `s3`.  Of the network only the tables read or written by the modelled code are kept; the
line table is a function from labels to rows, the load table keeps its order.  Exceptions discard the
network (partial effects of a raising call are represented by an arbitrary network where they matter).

### Model/NodeData.lean

Source: pyensys/Optimisers/ControlGraphsCreator.py:256-318 (CG below).

Simplifications: floats are rationals and no cell is NaN; the column and row labels of the clustered
profile are already parsed (`int(scenario.split(" ")[1])`, `int(year)`, CG:284-294); a data frame is
the list of its rows.

### Model/PlanData.lean

Sources: pyensys/Optimisers/input_output_function.py (IO below) and pyensys/Optimisers/process_data.py (PD below).

Modelled: `get_time_series_data` (IO:287-370), `get_peak_data` (IO:377-411), the check of the catalogues in `read_input_data` (IO:57-105), `read_screenModel_output` (IO:112-162),
`output_data2Json` (IO:166-278), `record_*`, `initial_value`, `recordValues`, `replaceGenCost`, `get_factors` (PD:16-193).

Simplifications: floats are exact rationals; a sheet is the list of its rows, a row its first cell (the column "Bus \ Hour", which is the first one) and the others; files are the values
read from or written to them; `model.Set['Year']`, `['Sea']`, `['Day']`, `['Tim']` are ranges; prints are left out.

### Model/ProfileDict.lean

Sources: pyensys/readers/JSONReader.py (JR), pyensys/wrappers/PandaPowerManager.py (PM), pyensys/wrappers/PandaPowerWrapper.py (PW).

Modelled: reading of a profile with `"format_data": "original"` (JR:116-118, 152-182, 257-265), its adaptation to the number of periods (JR:474-495, `adjustProfile` of Model/Profiles),
the controllers made from the profiles (PM:42-50, PW:48-58) and what they do in a time step.

Simplifications: floats are rationals and no number is missing, so that rows of a wrong length raise ValueError (pandas fills short rows with NaN if one row has the right length).  A workbook is the
function from the names of its sheets to their tables; a path is its extension.  pandapower is assumed to set in a time step `net[element].loc[element_index, variable]` to the values of the columns
`profile_name` in the row of the time step, controller after controller in the order of their creation; unknown labels raise KeyError, a wrong number of values ValueError.

### Model/Profiles.lean

Source: pyensys/readers/JSONReader.py:184-254, 474-495 (JR below).

Simplifications: floats are rationals and no cell is missing; a data frame is its number of columns and
the list of its rows.  The spreadsheet is already read (`read_excel`, JR:166): its first column holds
integers, its second column the type, the others numbers.

### Model/Psse.lean

Source: `PSSErawInterface`, pyensys/engines/pyeneI.py:300-546 (PI below).

Simplifications: the file is the list of its lines, a line the list of its characters; floats are exact rationals, `math.sqrt` is a parameter; `float` and `int` as in Model/MatJson, with blanks around
the text dropped; `np.empty(1)` is a list with one arbitrary entry (parameter `junk`); the last lines of the output have nine decimals, which is not modelled.  A line that is too short or missing raises IndexError.

### Model/Pypsa.lean

Source: `EInterfaceClass.pyene2pypsa`, pyensys/engines/pyeneI.py:31-276 (PI below); `PrintClass.initializeNM` for PyPSA networks, pyensys/engines/pyeneP.py:54-98 and 163-236 (PP below).

Simplifications: floats are rationals; the PyPSA network is the list of the `add` calls for each kind of component; a name 'Bus7', 'Gen3', 'Line2' is its number.  Assumptions on PyPSA: `add` raises if the name is
taken, it copies the time series it is given, it takes a bus that does not exist (with a warning), and the results of a power flow have one column for each component.  (A list as `p_nom_max`, PI:157, is kept as it
is.)  The positions of the results (`connections`) are taken to be blocks, one for each PyPSA network: the tables of one network are modelled, and the total over all of them.

### Model/Reduce.lean

Source: pyensys/engines/pyene_Analizer.py (AN below), pyensys/engines/pyene_Parameters.py (PA below).

Modelled: the voltage levels (AN:660-676), the equivalent demand and losses of the supernodes, the deletion of their buses and elements (AN:685-739), the
artificial buses and lines, the generators of the supernodes and the lists of branches (AN:368-577).

Simplifications: names, zones and voltage limits of the artificial buses are left out; the reduction is the first one of the object, so that the lists of branches start empty; a list with one
blank object is the empty list (see Topology); peak demands and losses of buses are numbers.

### Model/Renewables.lean

Source: pyensys/engines/pyeneR.py (RN below).

Modelled: `buildWind` (RN:101-126), `get_CF` (RN:128-178), `getPVAngles` (RN:180-205), `getPVGeneration` (RN:207-227),
`buildPV` (RN:81-99).

Simplifications: floats are real numbers, so nothing is said about rounding (`math.asin` is only left by rounding for
arguments beyond one, see C99).  A division by exactly zero is a `ZeroDivisionError`.  A negative base of the height
correction (RN:109-110) gives a complex number in Python, whose comparison raises; it is a `TypeError` here.

### Model/Report.lean

Source: pyensys/cases.py (CA): `save_in_jsonW` 744-854, `attest_invest_path` 1129-1159.  The command line calls `attest_invest_path` (cli.py `attest_invest_path`); `save_in_jsonW` is
called there with the default `yrs=[]`, `scen=[]`.  The file is the value that `json.dump` is given; prints and times are dropped.

### Model/RunReport.lean

Source: pyensys/cases.py (CA below): the end of `test_pyene` (CA:147-292), for both solvers.

Modelled: the figures of pumps, spilled renewables and curtailment that are printed. Simplifications: floats are rationals, the figures are the result; the lines of hydropower and the objective are left out. The arrays of the GLPK model are functions of instance, period, case and position (C174 relates them to the solution); they are in MW.

### Model/RunSettings.lean

Source: pyensys/wrappers/PandaPowerManager.py (PM), pyensys/wrappers/PandaPowerWrapper.py (PW), pyensys/wrappers/PandapowerDataClasses.py (PD) and
pyensys/Optimisers/RecursiveFunction.py (RF).

Modelled: the choice of the power flow (RF:260-265), the settings of the runs (PM:74-97, PW:71-76, 105-149), the output writer (PM:52-72, PW:24-36, 60-69) and the order in which
an object is prepared (PM:16-35).  pandapower itself is outside: a run is represented by the call that reaches it.  The tables that `run_ac_opf` changes before the call (PW:113-123)
are in Model/Controllers; that they are there (an external grid 0) is assumed here.

### Model/SaveJson.lean

Source: pyensys/managers/GeneralManager.py (GM) and pyensys/readers/ReaderManager.py (RM).

Modelled: `read_parameters` (RM:6-15) with `os.path.splitext` of POSIX, what `main_access_function` returns (GM:10-34; the tables are those of Model/Solution) and `save_in_json` (GM:45-49).

Simplifications: a DataFrame is the list of the names of its columns and of its rows, with the index 0, 1, ... that `sort_values(ignore_index=True)` leaves; `json.dump` writes every
cell (that a cell can be written is assumed); a path is the list of its characters; prints are dropped.

### Model/SavedPyomo.lean

Source: pyensys/engines/pyeneO.py (PO below): `Accumulate` PO:535-547, `saveSummary` PO:599-611, `saveResultspyomo` PO:619-699; pyensys/engines/main.py (MA below): `get_AllRES` MA:389-395, `get_OFparts` MA:561-600, `get_HydroMarginal` MA:482-492; pyensys/engines/pyeneN.py (NW below): `printLosses` NW:937-988.

Not modelled: names and types of the columns of the HDF5 tables (single precision), the array `Hydro_Allowance`.  The profiles `Demand_profiles` and `RES_profiles` are those of `srProfiles` (Model/SavedResults.lean).  The number of scenarios is that of the instances (C114_weights).

### Model/SavedResults.lean

Source: pyensys/engines/pyeneO.py (PO below): `saveResultsGLPK` PO:701-959, `SaveDetailedResultsGLPK` PO:961-1180, `printallNetworkResult` PO:1226-1500; pyensys/engines/pyene_Models.py (PM below): `GetLoadCurtailmentSystemED` PM:4308-4321.

Not modelled: names and types of the columns of the HDF5 tables (single precision), the arrays `Hydro_Allowance` and `Hydro_Marginal`, the text that is printed (only the totals are), options of `PrintinScreenOptions` other than their default True.  Numbers are rational.  What `np.empty` leaves in a table is a function `junk`.

### Model/Screening.lean

Source: pyensys/cases.py:474-637 (`Screenning_clusters`, CA below) and
pyensys/Optimisers/screening_model_CLI.py:729-804 (`main_screening`, SC below).

The linear programme of `model_screening` (SC:78-727) is an oracle `solve` here: it maps the number of the year, the previous
investments and the bus multipliers of one scenario to the investment of every branch (with `NoTime = 1`,
SC:733, the two vectors returned at SC:727 are equal).  The programme itself is modelled in
`Verif.Model.ScreeningLP`.

Simplifications: floats are rationals; the optional EV load (SC:747-765) is part of the oracle; prints and
files are left out.  All clusters have one entry per branch, so the column loops (CA:566-570, 622-625) are
written as recursions over the two rows.

### Model/ScreeningGraph.lean

Source: pyensys/Optimisers/screening_model_CLI.py:52-307 (SC below; screening_model.py:50-305 is the same
text): `readVarPara`, the class `NetworkModel` (nodes and edges of the graph, `get_value_network`) and
`addPara`, from which the constraints of the programme (`Verif.Model.ScreeningLP`) read the case.

Simplifications: numbers are rationals; a table of the case maps the name of a column to the list of its
entries; `str(n)` is the decimal text of `n`; the networkx graph is the list of its nodes (in the order of
their numbers) and the list of its edges.

### Model/ScreeningLP.lean

Source: pyensys/Optimisers/screening_model_CLI.py:79-726 (`model_screening`, SC below).

The Pyomo model is represented by the list of its constraints, each a predicate on points (values of the
variables), and its objective, a function of points.  What the solver (glpk) does with it is not modelled: the
theorems speak of feasible and of optimal points.

Simplifications: floats are rationals, the reactance, rating and cost columns of the case are rows; `NoTime` is
1 as in every call (SC:733, 769-772); `peak_Pd` and `peak_Qd` are empty as in every call of the command line
(cases.py:497-499); a constraint `x <= float('inf')` (SC:418, 438) is no constraint, as in Pyomo; the graph of
parameters (SC:82-307) is modelled in `Verif.Model.ScreeningGraph`; C234 justifies that `m.para["Gen3_PMAX"]` is
here the value of the fourth generator.

### Model/Search.lean

Sources: pyensys/Optimisers/NonAnticipativeRecursiveFunction.py (NA below),
pyensys/Optimisers/RecursiveFunction.py (RF below), pyensys/managers/GeneralManager.py.

Simplifications (see DESIGN.md):
* all containers of the search are list-mode containers, represented by their item lists, with the
  list-mode operations of `Verif.Model.Container`;
* the key `str(n)` is represented by `n`, the sentinel "not found" by `none`;
* the partial tree's containers start uninitialised; an uninitialised container and an empty
  list-mode container answer alike to every operation performed on them here (`len`, `get`);
* the OPF (pandapower) is an oracle that may depend on all earlier OPF requests;
* `_number_opf_per_node` / `_successful_opf_per_node` (statistics never read) are replaced by the
  log of OPF requests, `print`s are dropped.

### Model/Services.lean

Source: pyensys/engines/pyeneN.py (NW below): the units that provide services in `initialise` NW:699-770, the constraints of services NW:298-315 with their rules NW:384-390, 568-585, 601-620, the variables NW:359-360, 368-370; the curtailment of the balance without network NW:456-470; the offsets of the instances pyensys/engines/main.py:757-774.

Simplifications: floats are rationals; the variables of one period are functions of the position, `noh` instances share them (the period is the same in all rules). `np.zeros(None)` is a zero-dimensional array: storing in it or joining it raises. The available renewable power of an instance (C112) is given as a number.

### Model/Settings.lean

Source: pyensys/readers/JSONReader.py:326-482 (JR below) and pyensys/readers/ReaderDataClasses.py (RD).

The document is already parsed (`json.load`).  What the sections refer to is behind the parameters of
`ReadEnv`: the number of periods of a date range (pandas), the conversion of a `*.m` file
(Model/MatFile), the loading of one profile (Model/Profiles) and of the demand tables
(Model/Multipliers).  A profile of the optimisation is a value of a type `P`, a table of a type `T`.

### Model/Solution.lean

Source: pyensys/Optimisers/NonAnticipativeRecursiveFunction.py:479-517 (NA).
A DataFrame is the list of its rows.  `print`s are dropped.

### Model/Tables.lean

Source: pyensys/engines/pyeneO.py (PO below): `pyeneSave` 43-65, `pyene2excel.save_results` 72-270, `pyeneHDF5Settings.save_results` 343-533; the call in pyensys/engines/main.py:1062-1063 and the position
of the run, `run(subscripts=...)`, main.py:1039-1060, pyene_Models.py:621-632.

Simplifications: texts are lists of characters; a characteristic has at least one value (`return_outputs` of the C++ engine gives name, type and values); floats are exact (the file has 32 bits) and texts whole
(the HDF5 columns hold 64 characters); the columns of a sheet are found by their names instead of their numbers; HDF5 refuses two tables of the same name, which is not modelled, nor is the order of the columns.

### Model/TimeSeries.lean

Source: `ReadTimeS`, pyensys/engines/main.py (MN below) MN:957-1037, which the commands run-en, run-ac and the examples of pyensys/cases.py use.

Simplifications: floats are rationals; the file is a dictionary from titles to profiles, whose `Period`, `Links`, `Bus` and `Values` are present; `Links` and `Bus` are natural numbers; `Values` is a list of numbers or a list of lists of numbers (an empty list counts as a list of numbers). `LLRESType` and `LLRESPeriod`, arrays of the right size whose rows are written from the first to the last, are lists that grow. Profiles of the demand are handed over as they are.

### Model/Topology.lean

Source: pyensys/engines/pyene_Parameters.py (PA below), pyensys/engines/pyene_Analizer.py (AN below).

Modelled: the lists of objects of an electricity network with their numbers and positions, their deletion and the update of positions
(PA:263-307, 470-577); islands and isolated nodes (AN:34-215); the reduction of the network to a voltage level (AN:261-360, 368-483, 485-577,
589-660, 685-813).

Simplifications: a list with one blank object (what the program stores for an empty list, PA:285-286) is the empty list; the position of an object is its place in its
list (PA:558-577); only the data that the functions modelled read or write are kept; numbers are rationals; logging is left out; the connected components computed by
networkx are a parameter; the recursion limit of Python counts nested buses.

### Model/Types.lean

# Data classes shared by several models

### Model/Verification.lean

Source: pyensys/Optimisers/clusters_verification_function.py:19-250 (CV below), pyensys/cases.py:858-907
(`save_in_jsonW_2`) and 999-1091 (end of `attest_invest`, CA below), pyensys/Optimisers/process_data.py:152-175
(`mult_for_bus`, PD below).

The network read by `from_mpc` (CV:89) is a value `VNet` with what the function changes: loads, line currents and
transformer sizes, and the voltages it reads.  `runopp` (CV:229) is an oracle on networks: whether it converges.
It is a function, i.e. its outcome depends on the network only.

Simplifications: floats are rationals; tables are indexed 0, 1, 2, … as `from_mpc` makes them; the replacement of the
external grid by a generator (CV:140-191) is part of the oracle, being the same for all clusters; a nominal voltage
of 0, which makes numpy return infinity at CV:211, is not considered (division by zero is 0 here); prints are left out.
`np.argsort` (CV:57) is a parameter: any function that returns positions.

### Model/Workbook.lean

Source: `excel2pyene`, pyensys/engines/pyeneI.py:895-2482 (PI below); `information`, `parameters`, pyensys/engines/pyene_Models.py:36-71 (PM below).

Simplifications: a sheet is the list of its rows from row 1 (a row is the list of its cells from column 1; everything beyond is empty), so that no loop over a sheet can be endless; the cells are texts, integers,
floats (rationals) and booleans; the texts are ASCII (`lower`), the blank U+00A0 is replaced by a space as in the code; `str` is a parameter of the model; messages are not modelled; the product of two cells is
that of two numbers (a text raises a TypeError: Python would repeat a text multiplied by an integer).

### Model/WorkbookMore.lean

Source: `excel2pyene`, pyensys/engines/pyeneI.py (PI below): 1467-1629 (options), 1943-2025 (connections), 2027-2130 (functions), 2132-2228 (outputs), 2389-2402, 2423-2482 (workbook).

Simplifications: as in `Verif.Model.Workbook`; a loop that would run through the empty rows below a sheet for ever is `none`; a path given in the sheet of options is a list that `load_workbook` cannot open
(TypeError); a workbook is the list of its sheets; what was stored before an exception is not modelled.  Functions: titles are texts (a number among them is a TypeError here), and a table with a single title always
raises (in the code one with an unknown title, after another table, can get through).

### Model/WorkbookTime.lean

Source: `excel2pyene`, pyensys/engines/pyeneI.py:895-2482 (PI below).

Simplifications: those of Model/Workbook.lean.  A loop `while tries < 20` over the rows of a sheet ends with the sheet: the rows beyond it are empty and are not read.

## What is not modelled

* pyensys/engines/pyeneO.py except the output tables (C177-C178) and the saved results (C192-C196), the C++ engine except the loading of parameters, the DC optimal power flow (C199-C203), its evaluations, updates and outputs (C204-C206), the balance tree up to its failure and the expansion variables (C223-C224): the edges and links of the balance tree, the texts returned with outputs and the simplex method
  of energy_models2.cpp, cpp_energy_wrapper.*, the class `models` of pyene_Models.py; storage units of the network engine (the code raises, see Model/Dispatch).
* pyensys/Optimisers/screening_model.py (an older copy of the command line version that nothing imports), clusters_verification.py (idem), the parts of input_output_function.py
  and process_data.py that only the old scripts use.
* pyensys/cli.py except the options of run-n, run-en, run-example-hydro, run-ac, run-res (C207-C209), pyensys/tests, pyensys/fixtures.py.
* Inside the modelled functions: what the header of each model file lists as left out.

## Findings

The theorems with suffix `_violated` are exact statements about the code as it is. In short (property in parentheses):

* Search: deleting a key removes entries of the partial tree regardless of the path, stale incumbents mix root decisions (C14, C20-C24, C57); the lines table repeats the root's
  rows per path and attributes decisions of a node to all its scenarios (C31, C58); control trees keep full scenario lists, giving phantom histories (C59); profiles with several
  roots lose scenarios (C60); flexible units always raise (C63); the base class loses candidates and every successful anticipative run raises (C30).
* Clustering and node data: clusters with equal means merge (C65); gaps in labels raise IndexError (C36).
* MATPOWER reader: `5e15` is read as 5e-5, `1E5` as 15, `[-5` as 5 (C69); a blank or short line ends a matrix, the first row on the opening line is dropped (C71).
* Settings and options: reading twice accumulates variables (C72); texts are read digit by digit (C77); the slow 2050 multiplier grows from the second 2040 scenario (C78).
* Screening: only the last scenario of a year counts as previous investment, sorting is no sort (C81-C82); previous investments are ignored for reverse flow (C86); piecewise or
  missing costs raise (C88).
* Verification: upgrades accumulate over failed clusters (C56), a factor of sqrt(3) (C90), more than 4 years raise and the total is the last year's cost (C92), stale files are
  used (C93).
* Energy balance: uncertainty in the first period always raises, a single uncertain node drops its constraint (C96); misaligned weights shift silently (C97).
* Renewables and Monte Carlo: equator raises, no diffuse light on flat collectors (C99); a mean time to failure of 0 means always up (C54); infeasible hours count as no
  curtailment (C100).
* Network engine: contingencies are numbered from 0 (C52); cost curves are wrong out of range, for free, zero-capacity and concave units (C55); the objective squares the weights
  (C102); pumps are placed at bus number - 1 and the first of two at a bus is lost (C103); losses are underestimated beyond 3 pu (C104); fewer profiles than scenarios raise (C106);
  minimum up and down times act on the wrong unit (C107); minimum output is not derated (C108); baseload of conventional units is ignored (C111).
* Coupled model and interface: binary variables of later instances raise KeyError (C113); `get_Loss` ends the program, `get_NetDemand` raises (C117); objective parts ignore
  weights (C118); a generator flagged off cannot be undone (C121).
* Reduction: long low-voltage chains raise RecursionError (C122), losses are counted twice (C124), generators move (C126), original positions are wrong (C129).
* Hydrology: duplicate input nodes lose the first, node 0's balance is not enforced (C137); ramps compare a flow with itself (C141); storage is unusable in the first period (C142);
  double counting clears the wrong unit (C145), worse pumps lift more water (C146), seconds are multiplied on every initialisation (C147).
* GLPK models: an isolated bus is a free source (C149); a contingency that matches no branch aborts or loses the flow law (C150); hours are counted twice in unit costs (C151);
  economic dispatch raises AttributeError (C152); names clash with more than 11 trees (C153); infeasible models are returned silently (C148, C155).
* Converters: readers disagree on `1E2` (C158); glued names give an empty network (C159); bare paths raise (C160); hydropower, renewables and shunts are not written (C161).
* Report of the planning tool: a plan with any intervention is never written; every file that is written shows zeros (C162).
* Output tables: HDF5 tables of networks are always empty, Excel sheets of trees raise (C177), a value without identifier runs forever (C178). PSS/E: phantom transformers, fixed line
  14554, wrong base for losses in watts (C179), a single bus raises (C180).
* PyPSA: demand is attached by position, transformers are on the wrong base, generator voltages are ignored (C181); AC tables fail with renewables, costs are those of reactive power in the
  last period (C182).
* Workbooks: elements with characteristics only leave no trace (C183); a block of profiles with an unknown name can end the reading silently (C185); a profile with an ID after one for all
  loses an hour, subtypes in capitals never match, groups that are numbers raise (C186).
* Workbooks: 'Losses' is not an option (C187); connections for one element are dropped, subtype OR group OR zone is enough (C188); IDs of outputs are written in lower case (C189); a function may
  take the characteristics of a bus with the same ID (C190); sheets of connections must come last and only once, a path to another workbook raises (C191).
* Saved results: 'gen_cur' keeps the renewable total without feasibility and in the dispatch, 'spill' is always 0, percentage losses raise NameError, detailed results raise AttributeError (C192);
  'loss' and 'curtailment' are added over all contingency states (C193); printed totals have 24 places and need feasibility (C194).
* Results of Pyomo runs: with losses the report ends the program (C195); a summary without the second folder raises TypeError (C196); marginal values of water lose their fraction (C197);
  printed losses use signed flows and count the first curtailment for buses without demand (C198).
* Compiled engine: elements with the same ID are merged, a value for one period replaces that for all periods (C199); the last break point of a cost is min + max, more pieces than lines read beyond
  the vectors (C201); a negative reactance leaves no solution, couplers carry nothing, branch states cannot depend on the period (C202); linear costs count 1/base of the cost, the cost lines of the
  first hour are used in all hours, the hours are those of one element only (C203).
* Compiled engine, runs: without both representative periods and hours no evaluation gives results (C204); the status of a branch cannot be changed, and trying leaves the network in per unit squared and the engine without a program; updates for all periods or unknown elements write outside the data (C205); IDs of outputs are ignored, one generator without a cost function makes the output of costs end the program, parameters of all representative periods are returned (C206).
* Command line: run-example-hydro overwrites --hydro, --loss, --feas and --time, run-ac --hydro, run-res uses an undefined name (C207); --res replaces arrays by numbers, so that no run with renewable units starts, --sec is split into characters that are never a branch number (C209).
* Time series: the arrays for the plants have one entry less than there are periods, so that a file with one period per source and a plant each is never read; a file with only a demand returns nothing (C212).
* Controls: run-en with pyomo and run-example-hydro hand a model to `run` and raise AttributeError, `run('CLP')` imports a missing module (C213); plant 0 is the last plant (C214); the flag of a plant drops the fraction of the marginal value (C215); a single line number is refused, lines count from zero unlike buses and plants (C216).
* Services: a requirement of ancillary services up to the whole production excludes nothing, since all units count as providers (C217); uncertainty of renewables excludes nothing if a unit may support them, only the first uncertainty counts (C218); the curtailment that relieves an instance is that of another one (C219).
* Power flows of the planning tool: of two profiles for the same type and variable only the first follows the scenario, a modifier without profile scales the last profile (C220); the external grid's cost moves to generator 0, costs of static generators to generators, and the network cannot be used for a second AC power flow (C221); the cost of a node is that of its last time step, and so is the verdict if runs continue on divergence (C222).
* Balance tree of the engine: it never gives a program (C223); a branch without vTEP hides the expansion candidates after it (C224).
* Failure times are rounded down: their mean is too small, and a repair of less than an hour means that the element never fails (C225). Report of run-en: it raises with renewables and Pyomo, is unweighted with GLPK and counts contingencies (C226).
* Report on the screen: pumps are shifted by one row (the last is never shown), services show the last period in all columns, unit commitment with several must-run units raises KeyError, a network model cannot be printed alone (C227); losses with a factor double, vanish or include pumping (C228).
* Planning tool, profiles and flexible units: `all_indexes` of a profile is never used; flexible units at a bus with a static generator of the case change that generator; costs of flexible units are not found after the first pypower power flow (C230, C231).
* Case files: BR_STATUS and GEN are ignored by the Pyomo model, PeakP is overwritten with QD, cost rows of different lengths or for reactive power make the reading fail (C232, C233).
* Settings of the power flows: an unknown solver or OPF type, or a file without `pandapower_optimisation_settings`, silently runs no power flow (every plan is then infeasible); inter-temporal runs without time settings cover no period; pypower ignores the progress bar; output settings without time settings are ignored; an object prepared again keeps what the new file does not name (C237-C239).
* Access function: its result cannot be given to `save_in_json` (always TypeError, as in the test of GeneralManager); saving destroys the tables it is given; an input file with another extension than `.json` is silently replaced by default settings (C240-C242).
* Requests to the optimisation model: hour 0 is taken for "no hour", every request by position, for all elements or all hours raises, nothing can be set, and the graphs the model builds are empty (C244, C245).
* Handing data to the engine: an option with an unknown name silently takes the value of the entry before it; a workbook without one of the three sheets cannot be initialised (C246).

## Properties, status and theorems

| property | status | proved in | note |
|---|---|---|---|
| C01 Dictionary-mode container is a map | proved | Props/Container |  |
| C02 List-mode container is an insertion-ordered multimap with stack removal | proved | Props/Container |  |
| C03 append then pop is the identity in list mode | proved | Props/Container |  |
| C04 Item assignment in list mode touches every entry with the key and nothing else | proved | Props/Container |  |
| C05 Container difference removes exactly the equal items | proved | Props/Container |  |
| C06 Containment is a preorder; for dictionaries it is antisymmetric | proved | Props/Container |  |
| C07 Operations on containers of different kinds are rejected without effect | proved | Props/Container |  |
| C08 A single loop over a container sees every item once; a nested loop over the same container does not | proved | Props/Container |  |
| C09 extend concatenates lists and overrides dictionaries | proved | Props/Container |  |
| C10 The pool enumerates each complete option exactly once with consecutive keys | proved | Props/SearchLocal |  |
| C11 Available interventions are the pool minus everything already chosen | proved | Props/SearchLocal |  |
| C12 All non-empty subsets of the available interventions are tried, each once | proved | Props/SearchLocal |  |
| C13 Exploring a subtree leaves the candidate exactly as it was | proved | Props/SearchRun |  |
| C14 Remaining construction times are restored after a subtree has been explored | partial | Props/SearchRun | The property is false of the code: C14_leaf_lowers_times_violated (every non-root leaf) and C14_violated (observable in the recorded plan). Proved remainder: all times shift by one common non-positive amount. |
| C15 The search never raises on a well-formed problem | proved | Props/SearchRun |  |
| C16 The reported plan covers every node of the scenario tree | proved | Props/SearchRun |  |
| C17 The cost of the recorded complete plan never increases | proved | Props/SearchRun | Monotone over every call of solve made in the run; the recording step keeps the cheaper of incumbent and recorded plan. |
| C18 Recorded paths are root-to-leaf paths of the control tree | proved | Props/SearchRun |  |
| C19 Incumbent bookkeeping stays aligned | proved | Props/SearchRun |  |
| C20 Incumbent keys identify one solution each | partial | Props/SearchKeys, Props/SearchKeysRun | False of the code (C20_violated, and C20_violated_in_run at a reachable state). Proved: the exact keys after renumbering, and the exact condition under which they are distinct and equal 0..n-1. |
| C21 Eliminating offspring removes exactly the solutions that extend the candidate | proved | Props/SearchKeys | Proved for incumbents with distinct keys; C21_needs_distinct_keys shows the hypothesis is necessary (C20 fails in general). |
| C22 Plans for scenarios that share a node agree on the decisions taken there | partial | Props/SearchRun, Props/SearchStar | False of the code in general: C22_violated is a well-formed problem (three levels) whose recorded plan is anticipative. Proved for all problems of two stages (one root, at least two leaves, interventions without construction time, OPF a function of node and set of active interventions): C22_two_stage_partial. |
| C23 The recorded plan is optimal among feasible plans | partial | Props/SearchRun, Props/SearchStar | False of the code in general: C23_violated (recorded plan 750, achievable 20, three levels) and C23_no_plan_recorded_violated (one scenario). Proved for all problems of two stages (one root, at least two leaves, interventions without construction time, OPF a function of node and set of active interventions): a plan is recorded iff there is a feasible decision, it is the plan of a feasible decision, and no feasible decision is cheaper (C23_two_stage_partial). |
| C24 The stored investment cost is the cost of the stored interventions | partial | Props/SearchRun | False of the code (C24_violated). Proved: equality when installation times are <= 0 and years are ordered; never understated for non-negative costs and rate below 100. |
| C25 Every recorded intervention comes from the pool and is used at most once per path | proved | Props/SearchRun |  |
| C26 A replaced incumbent solution is never more expensive | proved | Props/SearchRun |  |
| C27 Only interventions whose construction is finished reach the OPF and the stored plan | proved | Props/SearchLocal |  |
| C28 Updating construction times shifts every time by the period and is undone by the opposite period | proved | Props/SearchLocal |  |
| C29 Discounted totals | proved | Props/SearchLocal |  |
| C30 The anticipative search cannot deliver a result | proved | Props/BaseSearch |  |
| C31 The solution tables report each scenario's plan | partial | Props/Solution | Proved for every plan with distinct keys (C31_tables_partial, C31_lines_only_partial, C31_one_cost_per_scenario_partial) and for every run whose recorded keys are distinct. False in general: C31_violated is a run on a well-formed problem whose recorded keys repeat, so one scenario's interventions are reported for another and a recorded line is missing. |
| C32 Every scenario belongs to exactly one node per level | proved | Props/Graph |  |
| C33 Edges join exactly the consecutive-level nodes that share a scenario | proved | Props/Graph |  |
| C34 Graph-to-tree conversion gives every node at most one predecessor and keeps the scenario histories | proved | Props/GraphProfile, Props/GraphTree |  |
| C35 Node data are averages over the node's scenarios and year | proved | Props/NodeData | Buses and flexible units; unknown year raises; averages lie between extremes. NaN cells are not modelled. |
| C36 Centroids are the means of the members of the scenario's cluster | proved | Props/Clustering | For all label vectors: contiguous labels give exact cluster means, any gap raises IndexError (clusters are never mixed). |
| C37 Clustering preserves the total of each time step | proved | Props/Clustering | Sum preserved and centroids between bounds, for every successful call. |
| C38 Network updates start from the original network | proved | Props/Network | Any history of updates (successful, raising half-way, OPF runs) is quantified by the inductive Reached; repeat-call and the accumulation without initialise are separate theorems. |
| C39 A line upgrade changes only that line and keeps impedance times capacity constant | proved | Props/Network | Single lines (0-based) and clusters (1-based numbers minus one); floats are an ordered field, 3**0.5 a positive parameter. |
| C40 Order independence of line upgrades | proved | Props/Network | Closed form of any list of upgrades, permutation invariance, same-line additivity. |
| C41 A load update changes exactly one load | proved | Props/Network | First load of the bus, frame condition, IndexError iff no load. |
| C42 Profile aggregation conserves the mean and rejects mismatched lengths | proved | Props/Profiles, Props/Settings |  |
| C43 Normalised demand equals one in the first year | proved | Props/Multipliers |  |
| C44 Numbers in MATPOWER files are read back exactly | proved | Props/MatFile |  |
| C45 Rows of the attest profile are partitioned by type | proved | Props/Profiles |  |
| C46 Missing sections fall back to uninitialised defaults | proved | Props/Settings, Props/SettingsMore |  |
| C47 Catalogue rounding returns the smallest sufficient size | proved | Props/Screening | Each requirement is rounded up to the smallest size of the catalogue of its kind of branch; ValueError exactly when it exceeds all sizes. |
| C48 Screening keeps distinct, sorted, non-empty clusters within the limit | proved | Props/Screening | Clusters returned are different, found by screening, at most the limit; all non-empty ones if within the limit, exactly the limit otherwise; the ideal costs are evenly spaced. |
| C49 Scenario tree growth doubles the multipliers consistently | proved | Props/Attest, Props/AttestOptions | C49_tree_shape (2^y values in year y), C49_growth (first/last grown at their economies' rates, the rest evenly spaced), C49_between (bounds), C49_complete (when the tree is built), C49_position / C49_path (position of a scenario in year y is the ancestor of its position in year y+1). The bound is between the two ends of the row; the first year's rate is used as a fraction although the others are percentages (CA:963). |
| C50 Energy tree: node numbering is a partition and Before inverts After | proved | Props/Energy | Every layout: no exception, numbering without gaps, each node but the root in the child range of exactly one node with a smaller number (C50_tree); sizes (C50_measure). |
| C51 Energy tree: scenario ranges cover all leaves once | proved | Props/Energy | Every layout: as many final nodes as scenarios, scenario i ends in the i-th final node, ranges of children are consecutive and make up the parent's. |
| C52 N-1 bookkeeping excludes exactly the failed branch | partial | Props/Devices | Proved for explicit contingency lists. The SecurityFlag option numbers contingencies from 0, so the first contingency fails nothing, the last branch never fails and the last flow variable is undeclared: C52_flag_violated. |
| C53 Wind power curve stays within its physical limits | proved | Props/Renewables | For cutIn ≤ rated ≤ cutOut (in exact arithmetic over the reals): limits, zero outside, rated in between, monotone up to cut-out. Outside the hypothesis it fails: C53_unordered_violated (rated above cut-out keeps running). |
| C54 Failure/repair simulation yields alternating up and down periods of the sampled lengths | partial | Props/MonteCarlo | C54_times_partial, C54_row_partial and C54_matrix_partial give the status of every component and the intact flag for non-negative sampled times. The claim fails where a sampled time to failure is 0 (C54_zero_partial, C54_zero_violated: the component is up for the whole horizon), negative means never terminate (C54_negative_violated); the same sampled pair repeats in each cycle. Random numbers are inputs of the model. |
| C55 Piecewise cost curves reproduce the polynomial at the break points | partial | Props/CostCurve | Lines interpolate the polynomial at consecutive break points, are exact there for convex costs and overestimate by at most a*Delta^2/4 in between (C55_break_points_partial, C55_convex_partial, C55_exact_partial, C55_quadratic_partial, C55_piecewise_partial, C55_unit_partial). The break points cover [Min, Min+floor(Max/Delta)*Delta] only, a step above the capacity makes generation free, zero capacity raises and concave costs are overestimated at break points (C55_*_violated). |
| C56 Capacity verification returns the cheapest feasible cluster per node | partial | Props/SettingsMore, Props/Verification | C56_exact_partial/C56_verification_partial state exactly which cluster is returned: the first in cost order that works on the network with its own upgrades and those of all clusters tried before. Own upgrades only: proved when earlier clusters are empty (C56_own_upgrades_partial), false in general (C56_own_upgrades_violated). |
| C57 The search reports success exactly when it has recorded a plan | partial | Props/SearchRun, Props/SearchStar | False of the code in both directions (two witnesses on well-formed problems). Proved for problems of two stages: reported success implies a recorded plan (C57_two_stage_partial); the converse fails. |
| C58 Rows of the lines table belong to the scenario's own plan | partial | Props/Solution | False of the code (C58_violated), because recorded plans can be anticipative (C22). Proved for non-anticipative plans. |
| C59 Every root-to-leaf path of the control tree is the history of a scenario | partial | Props/GraphSearch | False of the code for four or more years (C59_violated); proved for two and three years. |
| C60 No scenario is lost when the control tree is built | partial | Props/GraphSearch | False of the code when scenarios differ in the first year (C60_violated, C60_two_predecessors_violated); proved when the first year is common. |
| C61 From the clustered table to a plan for every scenario | proved | Props/GraphSearch |  |
| C62 Every OPF of the non-anticipative search runs in original network plus finished interventions plus node demands | proved | Props/Network | Closed form for single and cluster investments plus bus demands (node data without flexible units, see C63). The base (anticipative) solver violates it: C62_base_violated. |
| C63 Flexible-unit data reach the network | partial | Props/Network | Violated for every non-empty table: sgen/poly_cost parameters reach the line branch and raise. No positive case exists beyond tables without flexible units (covered by C62). |
| C64 An OPF that fails counts as infeasible | proved | Props/Network | Proved for the non-anticipative solver; the base solver violates it when there are no new interventions (C64_base_violated). |
| C65 Scenarios of one cluster share the node of that year | proved | Props/Clustering | iff theorem plus the merge witness for the converse. |
| C66 The year of a node's data is the year the search uses for it | proved | Props/Multipliers, Props/NodeData | Proved for every table the reader accepts, whatever the order of its years (the reader sorts them): C66_year_of_node. C66_years_agree_iff: sorting is necessary and sufficient. |
| C67 Demands of the input table reach the OPF | proved | Props/NodeData | Composition of C35 and C62; data without flexible units (see C63). |
| C68 From the demand table to a plan for every scenario | proved | Props/Multipliers |  |
| C69 No token of a case file is silently misread as another number | partial | Props/MatFile | False of the code: 5e15 is read as 5e-5, 1E5 as 15, [-5 as 5 (general theorems). Proved: several points, text after an exponent, one-digit unsigned exponents and bare points are rejected. |
| C70 A case file is read back completely | proved | Props/MatFile |  |
| C71 No row of a matrix in a case file is lost | partial | Props/MatFile | False of the code: any short line inside a matrix silently ends it, and a row on the line 'mpc.x=[...' is dropped. Proved: stored rows are read from consecutive lines, none invented; C70 gives the layouts that are read completely. |
| C72 Reading a document replaces everything read before | partial | Props/Settings | False of the code: binary variables of successive readings accumulate and the table dictionary is only updated (C72_binary_variables_violated). Proved for every history: every other settings group is exactly that of a fresh reader (C72_fresh_except_partial). |
| C73 The demand table of the planning document is the case's demand times the growth factor | proved | Props/Attest | C73_demand_table: one row per chosen scenario, year and demand bus, with the factor of the scenario's path. |
| C74 The document built from growth rates can be read and planned | proved | Props/Attest | C74_document_is_readable and C74_document_to_plan (composition with C68): k-means labels are arbitrary contiguous labels; floats are rationals. |
| C75 Investment options carry exactly the sizes and costs of their clusters | proved | Props/AttestOptions | C75_options is an equivalence with the independent specification IsOption/Bought; C75_complete gives a simple sufficient condition. |
| C76 Applying an investment option upgrades exactly the branches of its cluster | proved | Props/AttestOptions | C76_pool and C76_option_upgrades, by composition with C39/C40. That line i of the pandapower network is branch i of the MATPOWER case is pandapower's conversion and is not modelled. |
| C77 Lists given as text are read as the numbers written | partial | Props/AttestOptions | Holds only for lists of one-digit numbers (C77_single_digits_partial); false in general: C77_violated_only_digits, C77_violated. Missing: nothing more holds. |
| C78 The fixed country multipliers grow every economy from its own previous level | partial | Props/AttestOptions | True for 2030, 2040 and the active economy of 2050 (C78_rows_partial); the slow economy of 2050 grows from the second scenario of 2040 (C78_violated_slow_2050 characterises exactly when this does not matter). |
| C79 Screening solves one programme per year and scenario, with the investments of earlier years in place | proved | Props/Screening | The LP solver is an arbitrary function of branch count, previous investments and multipliers; numbers are exact rationals. |
| C80 Too many clusters are thinned by cost against evenly spaced ideal costs | proved | Props/Screening | Selection by cost relative to the cost of the cluster that the code's exchange pass leaves last (C81 shows it need not be the largest). |
| C81 Clusters are returned ordered from small to large and never empty | partial | Props/Screening | False of the code: the exchange pass with 'any column greater' is not a sort and an empty cluster may be kept (C81_violated_*). Proved when all found clusters are comparable. |
| C82 Screening succeeds whenever the requirements fit the catalogues | partial | Props/Screening | False of the code: costs of transformer sizes are looked up in the line catalogue (IndexError), a limit of 0 divides by zero. Proved when the sizes of transformers also occur among those of lines and the limit is positive. |
| C83 The screening programme describes a DC power flow plan | proved | Props/ScreeningLP | glpk itself is not modelled; constraints are predicates on points, floats are rationals, one time point as in every call. |
| C84 Power is balanced over every part of the network | proved | Props/ScreeningLP |  |
| C85 An optimal screening plan invests exactly what its flows need | proved | Props/ScreeningLP |  |
| C86 The direction in which a branch is written down does not matter | partial | Props/ScreeningLP | False of the code: previous investments are not counted against the reverse flow (C86_violated). Proved for branches without previous investment. |
| C87 Generation costs in screening follow the cost curve of each generator | proved | Props/ScreeningLP | Up to PMIN+PMAX; beyond it (multipliers above one) strictly convex costs are underestimated (C87_beyond_violated). |
| C88 Every complete case can be screened and has a plan | partial | Props/ScreeningLP | False of the code: piecewise costs, missing costs and a first generator of size zero always raise; reactive demand cannot be curtailed so there may be no plan. Proved for polynomial costs with a first generator of positive size, and plans exist for active demand only. |
| C89 Buying a reported cluster is enough for its scenario | proved | Props/ScreeningLP | Exactness of the solver is a hypothesis; an example shows it is satisfiable. |
| C90 Verification upgrades exactly the branches of the cluster | partial | Props/Verification | Upgrades by branch and which clusters raise are proved exactly; the three-phase clause is false: the added power is sqrt(3) times the MVA bought (C90_three_phase_violated). |
| C91 Every tree node gets its own verified cluster | proved | Props/Verification | Numbering, per-node result, failure flag, node loads and additional loads, and exceptions for non-binary trees, for all trees and OPF behaviours (OPF is an oracle on networks). |
| C92 The verification report describes one path per scenario and a consistent total | partial | Props/Verification | Report paths, IndexError beyond four years and cost monotonicity are proved; 'total is the cost of the scenario's investments' fails: it is the last year's cost (C92_total_violated). |
| C93 The planning command verifies the clusters it was given | partial | Props/Verification | Without given clusters the command is characterised fully (C93_screened_partial); given clusters are ignored in favour of the files of an earlier run (C93_given_clusters_violated, C93_repeats_earlier_violated) or raise (C93_without_files_violated). |
| C94 Energy tree: states follow each other in the order of the data | proved | Props/Energy | All layouts without an empty period; from connect_spec (closed form of the recursive Mapping). |
| C95 Energy accounting | proved | Props/Energy | Feasible states for arbitrary rational weights/inputs/outputs; accounting, uniqueness and existence (non-negativity of vSoC is not part of EnFeasible: dropping it makes the accounting theorem stronger, the existence is before it), and the closing of the horizon. Excluded: first period flagged (C96_root_raises_violated) and exactly one uncertain node (C96_one_uncertain_violated). |
| C96 Every uncertainty flag is accepted and constrains its nodes | partial | Props/Energy, Props/EnergyMore | False of the code for a flag in the first period, which always raises (C96_root_raises_violated), and for a single uncertain node, which loses its constraint (C96_one_uncertain_violated). Proved for the other flags (C96_flags_partial): with at least two names and no flag in the first period every choice of flags is accepted, all nodes of flagged periods are uncertain, the states are unique, and the end of an uncertain node is given by its weight, net input and the changes along its alternatives. |
| C97 Every node of the energy tree gets the data of its period and name | partial | Props/Energy | Holds for aligned data (C97_data_partial) and with a fixed number of vectors (C97_fixed_partial); fails silently when numbers of weights and names differ (C97_shifted_violated) and for a first period given as one row (C97_row_violated). |
| C98 The cooling factor is a decreasing derating between 0 and 1 with the data of the chosen plant type | proved | Props/Renewables | For sensible data (CoolingOk); with a shutdown above the maximum temperature the factor becomes negative (C98_shutdown_violated). numpy's argument defaults (list of lists) are not modelled. |
| C99 Solar output is bounded by the light available and follows it step by step | partial | Props/Renewables | Bounds, proportionality, order and positions proved over the reals; C99_domain_partial says exactly when the angles exist (they do not at latitude 0 or with the sun in the zenith); a flat fixed collector receives no diffuse light (C99_flat_violated). |
| C100 Every Monte Carlo hour is the optimisation of that hour | partial | Props/MonteCarlo | C100_hours_partial proves it for every solver result; hours in which the optimisation is infeasible are stored as zero curtailment (C100_infeasible_violated). The optimisation model itself is a parameter. |
| C101 Network data link every branch to its buses | partial | Props/Devices | Connections, totality and unknown buses proved; a single rural load type is stored as a list instead of a number: C101_load_type_violated. |
| C102 The objective weighs every period once | partial | Props/CostCurve | The objective is the expected weighted sum of the cost variables, but these already carry the weight, so generation costs count with the square of the weight: C102_weights_violated; with unit weights it is as expected. |
| C103 Balanced buses conserve energy | partial | Props/Dispatch | Conservation proved for estimated losses in every security scenario and for precalculated losses in the intact network, with pumps at different buses. Fails otherwise: of two pumps at one bus the first is in no balance, a pump is counted at position bus number minus one, and precalculated losses raise an IndexError in contingencies. |
| C104 Estimated losses never understate the quadratic losses | partial | Props/Dispatch | Proved exactly for flows within the range of the points (3 per unit by default); beyond the last point losses below the quadratic ones are admissible. |
| C105 Every generator has its own variables and its bus | proved | Props/Dispatch |  |
| C106 Demand follows the linked profile | partial | Props/Dispatch | Proved for links to existing profiles and for the defaults; with fewer profiles than scenarios the defaults raise an IndexError, and a link to profile zero silently uses the last profile. |
| C107 Minimum down and up times are respected | partial | Props/Commitment | Minimum times hold for a unit if every committed conventional unit before it has the same kind of minimum time (C107_down_partial, C107_up_partial, for M <= N). Violated otherwise: the rules use the number of the minimum-time variable as number of the binary variable, i.e. that of another unit (C107_other_unit_violated: any schedule is allowed); no unit can be switched in the first period, so admissible schedules are excluded (C107_first_period_violated). |
| C108 Generators stay within their limits | partial | Props/Commitment | Proved with and without unit commitment, and the derated maximum without unit commitment. Violated with unit commitment and cooling for units without minimum output (not derated), and the minimum output is not derated, so a strong derating makes the problem infeasible. |
| C109 Ramps limit the change of output | partial | Props/Commitment | The ramp constraints are characterised exactly (iff), and the choice of settings for one, all or no values. Violated for a list of two or more settings shorter than the number of units: IndexError instead of no limit. |
| C110 Cooling uses the temperature and type linked to the unit | partial | Props/Commitment | Proved without types and with pairwise different types. Violated for equal types: the search for repeated cases compares with overwritten links, so a unit may get the temperature of another (C110_same_type_violated). |
| C111 Baseload units produce a share of their average output | partial | Props/Commitment | Proved for equal weights when some hydropower unit has baseload. Violated: the baseload of conventional units is ignored if no hydropower unit has baseload, and with unequal weights constant production is infeasible. |
| C112 Renewable units follow the linked profile | partial | Props/Commitment | Proved for links to existing profiles, the default links and the single profile. Violated for link 0, which uses the last profile instead of being rejected. |
| C113 Instances of the network model do not share variables | partial | Props/Coupled | Holds for flows, voltages, losses, generation, costs, pumps and curtailment, and for binaries when the declared range is large enough; C113_binaries_violated: binary variables of later instances lie outside the declared range (KeyError) when few units need them. |
| C114 Instances count with the weight of their scenario | proved | Props/Coupled | All trees of periods and names with weights for every name (first period without uncertainty). |
| C115 Hydropower does not use more water than given | proved | Props/Coupled, Props/UserData | All trees, inputs, outputs and feasible solutions; the water is given to the first name of the first period only, as set_Hydro does. |
| C116 Reported results add up | proved | Props/Coupled, Props/UserData | Reports as weighted sums, totals by class and load type, conservation law, spilled renewables; losses are those of the solution because the program's own report of losses fails (C117). |
| C117 Every announced report is available | partial | Props/UserData | Positive parts: no losses, net demand without demand. Violated: get_AllLoss never returns with losses and a branch; get_NetDemand never returns with demand; list load types raise; bus 0 is the last bus; without demand profiles the report uses the period's value while the balance uses the first. |
| C118 The parts of the objective add up to it | partial | Props/UserData | Equal if all period weights are 1; violated otherwise (parts ignore period weights). |
| C119 Demand profiles are stored for their scenario | partial | Props/UserData | Stored exactly for 1..Number, averages, initial profiles; violated: unknown scenarios ignored silently, negative numbers overwrite another scenario, 0 raises, only the first 24 values count for two periods. |
| C120 Renewable profiles are stored for their unit | proved | Props/UserData | All units, profiles; overwriting. |
| C121 Capacities and status can be changed and restored | partial | Props/UserData | Capacity, off and status of elements other than the first; violated: switching on divides the per-unit maximum by the base again, cannot undo off; element 0 refused. |
| C122 Supernodes are the connected groups of buses below the voltage level | partial | Props/Reduction | C122_supernodes_partial: whenever the search succeeds the supernodes are the components, and it succeeds whenever the recursion limit exceeds the number of low buses. C122_recursion_violated: a chain of low buses longer than Python's recursion limit raises RecursionError. |
| C123 The reduction keeps the total demand | proved | Props/Reduce | C123_demand |
| C124 The reduction keeps the total fixed losses | partial | Props/Reduce, Props/ReduceBranches | C124_losses_partial: exact surplus (losses of elements replaced by artificial lines are counted twice when a supernode has several coupling buses); C124_violated: concrete network. |
| C125 Buses and lines of the reduced network have unique numbers | proved | Props/Reduce | C125_numbers |
| C126 Generators of removed buses move to their supernode | partial | Props/ReduceBranches, Props/ReduceGens | C126_generators_partial: holds when every low bus comes after every high bus; C126_violated: otherwise generators of kept buses may move to a supernode. |
| C127 Every valid network can be reduced | partial | Props/ReduceMore, Props/ReduceWhen | False for networks in which a group of buses below the level has no way up (IndexError) or no line lies at or above the level (C127_fails_violated). C127_succeeds_partial: all other consistent networks are reduced; C127_exactly_partial: success exactly in these cases. |
| C128 The elements of the reduced network join existing buses | partial | Props/ReduceBranches, Props/ReduceMore | C128_ends_partial: ends of every element by number and position; C128_violated: coupling buses do not list the artificial lines. |
| C129 The tables of preserved and removed branches identify the original branches | partial | Props/ReduceBranches | C129_branches_partial: which branches are in the tables; C129_violated: the original positions of preserved branches are wrong. |
| C130 The analysis of islands accepts every consistent network | partial | Props/Islands | Fails: C130_no_elements_violated, every network without element in service raises AssertionError. C130_succeeds_partial: on well formed networks it succeeds exactly when some element is in service (content: C131_islands). |
| C131 Islands and isolated buses share out the network | proved | Props/Islands | C131_islands for any correct components (refComponents_ok: they exist) |
| C132 Positions of the ends of an element follow the order of its buses | partial | Props/Islands | Fails: C132_order_violated, positions are in the order of the bus table, and an element from a bus to itself raises IndexError. C132_order_partial: elements naming their buses in table order get the right positions. |
| C133 Deleting generators leaves the other generators at their buses | partial | Props/Islands | Fails: C133_delete_generators_violated, for every network no bus lists any generator of the type afterwards and no island holds any. C133_other_types_partial: the network's own lists are right and other types are untouched. |
| C134 Deleting series elements leaves the rest of the network intact | proved | Props/Islands | C134_delete_elements |
| C135 Dividing a river into parts keeps the river | partial | Props/HydroMore, Props/Hydrology | C135_parts_partial proves the division for all rivers and all given parts (positive); C135_again_partial that re-initialising undivided rivers gives the same model. Violations: a zero among the parts stops the division (C135_zero_violated), more parts than rivers is a ValueError (C135_rows_violated), re-initialising two or more rivers of which one is divided is an IndexError (C135_again_violated) and a single divided river is divided again (C135_single_violated). |
| C136 Nodes of the river network know exactly the rivers that reach and leave them | partial | Props/HydroNet | C136_network_partial proves the tables for every network whose rivers join different pairs of nodes; C136_parallel_violated: two rivers between the same nodes always raise IndexError. |
| C137 Water is neither created nor lost | partial | Props/HydroFlow, Props/HydroMore | C137_conservation_partial, C137_day_partial prove the balance for every network, scenario and period (nodes numbered from 1, one input and one output per node); C137_witness is a concrete solution. Violation: of two inputs at a node the first is lost (C137_double_violated). |
| C138 Rivers that leave a junction share its water as the user says | partial | Props/HydroMore | C138_shares_partial proves the proportions for every node; violation: a zero share before the last river of a junction is a ZeroDivisionError (C138_zero_violated, C138_zero_example_violated). |
| C139 Flow at the end of a river is an average of its inflow and the flow of its depth | partial | Props/HydroMore | C139_average_partial proves the weighted average, its weights and the positive slope; violation: the flow of the full river is not the maximum, as the computed maximum volume is never used (C139_full_violated). |
| C140 Flow limits hold or are paid for | partial | Props/HydroMore | C140_limits_partial proves that every excess is paid in the penalty and that without penalty limits hold; violation: with the option off one common slack remains (C140_feas_violated). |
| C141 Ramp limits of rivers are respected | partial | Props/HydroMore | Violated: the ramp constraints compare a flow with itself (C141_ramp_violated) and the user's ramps are not read, a single one is a ValueError (C141_values_violated). |
| C142 Water storage of hydropower units keeps its capacity and its daily cycle | partial | Props/HydroMore | C142_storage_partial proves the capacity and the cycle; violations: storage cannot be used in the first period (C142_first_violated), capacity is truncated to whole units (C142_small_violated), of two units at a node the first is lost (C142_double_violated). |
| C143 Links between scenarios carry the water of the rivers over | partial | Props/HydroMore | C143_links_partial proves the links; violations: no links is an UnboundLocalError (C143_none_violated), the scenario of a single controlled input is ignored (C143_controlled_violated). |
| C144 Outputs of the river network keep a minimum flow | partial | Props/HydroMore | C144_outputs_partial proves the minimum outflow; violation: an output on no river is an IndexError (C144_no_river_violated), so outputs are always on a river. |
| C145 Hydropower cannot produce more than its water allows | partial | Props/HydroLink, Props/HydroPump | C145_downstream_partial, C145_output_partial prove the limits for units with rivers downstream and at outputs; violations: a unit with rivers downstream that is not at an output frees the unit at the last output (C145_last_violated; C145_witness has a solution with 100000 MW), units at no output and without rivers downstream are unlimited (C145_nowhere_violated), of two units at an output the first is unlimited (C145_double_violated). |
| C146 Pumps move the water that their power lifts | partial | Props/HydroPump | C146_intake_partial and C146_delivery_partial prove intake and delivery for a pump to a node that is not an input; violations: pumps to an input use the variable of the pump before (C146_input_violated), worse efficiency lifts more water, so pumping and generating gains energy (C146_efficiency_violated), without hydropower units there is no link (C146_no_hydro_violated). |
| C147 Coupling the engines respects the hydrology settings | partial | Props/HydroPump | C147_cycle_partial proves the cycle for every instance; violations: fixed flows are discarded (C147_fixed_violated), the length of periods is multiplied again on every initialisation (C147_length_violated), pump nodes become energy vectors on re-initialisation (C147_vectors_violated). |
| C148 The two implementations of the energy balance agree | partial | Props/GlpkEnergy | GLPK and Pyomo describe the same plans for every tree without uncertainty and every call succeeds (C148_runs_partial, C148_same_partial, C148_returned_partial). False with uncertainty: IndexError (C148_uncertain_violated). With data that would need negative storage there is no plan and numbers are returned silently (C148_negative_violated). |
| C149 Every plan of the GLPK power flow balances the network | partial | Props/GlpkData, Props/GlpkExamples, Props/GlpkMore, Props/GlpkNetwork, Props/GlpkPlans | The points of the linear program are exactly the plans of the network rules (C149_plans_partial, C149_all_plans_partial); the system balances (C149_total_partial). The balance per bus holds without pumps and isolated buses (C149_balance_partial); pumps are counted at every bus (C149_pumps_violated) and an isolated bus is a free source (C149_isolated_violated). |
| C150 Flows of the GLPK power flow follow the angles and the ratings | partial | Props/GlpkCases, Props/GlpkExamples, Props/GlpkMore | C150_flows_partial for contingencies that match a branch. A rating of 0 means flow 0 (C150_rate_violated); a contingency that matches no branch aborts or loses the flow law (C150_unmatched_violated, C150_merged_violated). |
| C151 The GLPK power flow returns the cheapest plan | partial | Props/GlpkExamples, Props/GlpkPlans | The objective and its optimality are proved (C151_objective_partial, C151_cheapest_partial, C151_value_partial); the cost is the right one if every period is one hour (C151_hour_partial); hours are counted twice in the unit costs otherwise (C151_hours_violated). |
| C152 The economic dispatch with GLPK can be solved | partial | Props/GlpkRuns | False in every case: AttributeError (C152_violated). |
| C153 The coupled GLPK model ties water to hydropower | partial | Props/GlpkCoupled, Props/GlpkCoupledMore, Props/GlpkCoupledRuns, Props/GlpkWater | Plans, water and objective are proved for every tree without uncertainty (C153_plans_partial, C153_water_partial, C153_objective_partial); the call succeeds under side conditions (C153_runs_partial) and fails for ramps that are not positive, more than 11 trees with more than 10 instances, renewable units in the economic dispatch (C153_ramp_violated, C153_names_violated, C153_res_violated); trees without unit are tied to costs (C153_units_violated). |
| C154 The GLPK power flow runs on every network | partial | Props/GlpkCases, Props/GlpkCoupledMore, Props/GlpkExamples, Props/GlpkRuns | Proved for well formed networks with bounds in order (C154_runs_partial); fails for zero demand, low profiles, units without pieces, a single branch with contingencies, loops, more renewable than conventional units, unequal numbers of pieces (C154_*_violated). |
| C155 With curtailment allowed the GLPK power flow always has a plan | partial | Props/GlpkExamples, Props/GlpkMore | Proved without demand losses (C155_feasible_partial, C155_returned_partial); with losses as a share of demand there may be no plan (C155_loss_violated). |
| C156 Every numeral of a case file is converted with its value and nothing else is taken for a number | proved | Props/MatJson | C156_numeral: every decimal numeral is read with its exact (rational) value; C156_only_numerals: nothing else is; C156_refused: every other text raises ValueError. float() rounding, inf/nan and underscores are outside the model (DESIGN). |
| C157 A case file of the usual layout is converted to the network it describes | partial | Props/MatJsonDemand, Props/MatJsonFile, Props/MatJsonMore | C157_file_partial for every file of the layout and all three copies of the converter. Violated: a constant cost coefficient not written as a whole number is refused by the version in use (C157_cost_violated). |
| C158 The two MATPOWER readers of the package agree | partial | Props/MatJsonMore | C158_agree_partial on the notation and layout both understand (witness C158_witness). Violated outside it: 1E2 is 100 for one and 12 for the other; two bus matrices are joined by one and the last one kept by the other (C158_violated). |
| C159 What the converter does not understand is refused, not dropped | partial | Props/MatJsonMore | C159_bad_row_partial: a line in a matrix that is not a row raises. Violated: glued names give an empty network (C159_glued_violated), fractions in whole-number columns are cut off (C159_truncated_violated), numbers on the opening line are ignored (C159_first_line_violated), half of a piecewise cost is dropped (C159_piecewise_violated). |
| C160 The case file that is converted is the one the user names | partial | Props/MatJsonMore | C160_path_partial for every folder but the root and every name. Violated: a file without a folder raises IndexError (C160_bare_violated) and one in the root is looked for in the current folder (C160_root_violated). |
| C161 A network written as a MATPOWER file and converted again is the same network | partial | Props/MatWrite | C161_round_trip_partial for every network whose generators have a cost coefficient. Violated: hydropower, renewables and shunts are not written (C161_lost_violated), reactive limits are not scaled (C161_reactive_violated), a generator without coefficients makes an unreadable file (C161_costless_violated). |
| C162 The report of the planning tool shows the plan | partial | Props/Report | C162_content_partial gives the exact content of every saved report; C162_empty_partial: a plan without lines is reported. Violated for every other plan: no saved report shows any intervention (C162_violated), a plan that builds a line in the first or last scenario always raises (C162_raises_violated, C162_raises_last_violated, C162_run_violated for a whole run of the search), anticipative problems raise TypeError (C162_anticipative_violated). |
| C163 The report of the planning tool states the costs of its scenarios | partial | Props/Report | C163_first_partial: the cost of scenario 0 is reported. Violated: scenarios numbered from 1 (C163_from_one_violated), second scenario of plans without lines (C163_second_violated). |
| C164 The report is named after the input file | partial | Props/Report | C164_name_partial for every folder/name.extension. Violated: no folder or no extension raises IndexError after the search (C164_bare_violated). |
| C165 Peak loads come from the right row and hour | proved | Props/PlanData | Exact characterisation (iff) of success and result; negative hours, which count from the end in Python, are not in the statement. |
| C166 Time series of a bus are those of the bus | partial | Props/PlanSeries | Proved for sheets with the same buses in the same order but for the peak of the reactive load; violated: the reactive peak is the active one, and rows of the other sheets are taken by position. |
| C167 Discounting and capital recovery | partial | Props/PlanFactors | Capital recovery proved for every rate that is accepted; violated: the discount factors are 1/(1-d)^y and grow; with two or more years the rates 1, 0 and -2 raise ZeroDivisionError. |
| C168 Removing and restoring the costs of generation loses nothing | proved | Props/PlanFactors | Round trip, frame and exact condition for success. |
| C169 Every intervention has the cost of its size | partial | Props/PlanResults | Lengths always agree; costs are those of the first place of the size (iff); violated: a size that occurs twice has the first cost, a size that is not in the catalogue stops the program. |
| C170 The investment file reports the paths | partial | Props/PlanOutput | All entries proved but for the operation cost of the path; violated: it is the same number for every path, yearly operation costs are zero if it is zero, more than four years raise IndexError. |
| C171 Recorded results are where they are looked for | proved | Props/PlanOutput | Yearly peaks; the version with seasons, days and hours is not modelled. |
| C172 A parameter that is set is the one that is read | partial | Props/Elements | C172_set_get_partial, C172_history_partial, C172_new_partial prove reading after setting, kinds and non-interference for every history; C172_unknown_violated: an unknown name is silently ignored by set_element and read as None. |
| C173 Positions of list parameters | partial | Props/Elements | C173_positions_partial proves element, list of elements (a new list) and length; C173_live_violated: ':' returns the list of the device itself, so changes by the caller change the device. |
| C174 A network takes over the data of another | partial | Props/Elements | C174_transfer_partial: objects and parameters are those of the other network. C174_shared_violated: the two share their lists in every later state. C174_empty_violated: no transfer if a list of devices of some kind is empty in either network. |
| C175 Reported tables of the network are a solution | proved | Props/GlpkResults | C175_tables: all functions return, shapes, the plan is the one GLPK found; C175_reported: the reported tables obey the rules of C149 and are cheapest. |
| C176 Reported tables of the energy balance | proved | Props/GlpkResults | C176_states and C176_duals, with the hypotheses of C148 (no uncertainty, non-negative states). |
| C177 Output tables show the values | partial | Props/Tables | Proved for networks in Excel files and trees in HDF5 files, for every list of regular values: C177_shown_partial. Missing because false: HDF5 tables of networks are always empty (the position is compared with the letters of a type name), nothing is written without a position, the Excel sheet of a tree raises, an output asked for twice has an empty second sheet. |
| C178 Saving results comes to an end | partial | Props/Tables | Termination for regular values is part of C177_shown_partial (save_results returns with enough rounds). Missing because false: a value without identifier makes save_results fail or run forever (C178_endless_violated); close_output_files raises without HDF5 outputs (C178_close_violated). |
| C179 Transformers of PSS/E files | partial | Props/Psse | Proved for every list of transformers with both kinds present, units 1 and 2, reactances of a star within a factor of 100 of each other, and section at line 14554. Missing because false: files with one kind only get a branch of arbitrary numbers; shorter files raise; large reactances are cut; losses in watts are divided by the wrong base. |
| C180 Buses of PSS/E files | partial | Props/Psse | Proved for every number of buses from two on. Missing because false: a single bus raises TypeError; the version has no influence on what is read. |
| C181 The PyPSA network is the network | partial | Props/Pypsa | Proved for every regular network: buses, generators, lines and transformers (C181_network_partial), demand of buses numbered 1, 2, ... (C181_demand_partial). Missing because false: demand goes to the bus whose number is the position plus one, reactive demand without active demand is lost, generator voltages have no effect, transformer impedances are on the wrong base, costs are per unit of base power, hydropower and line charging are left out, generators at isolated buses become references. |
| C182 Tables of the AC power flow | partial | Props/Pypsa | Proved for every network with conventional generators only and buses numbered 1, 2, ... (C182_tables_partial); when active and reactive power are equal every cost is that of the active power (C182_cost_partial); with one period the objective is the weighted sum (C182_total_partial). Missing because false: with any other generator or numbering AttributeError; costs come from reactive power; the total is that of the last period. |
| C183 Elements of a workbook | proved | Props/Workbook | For every sheet: C183_titles, C183_idColumn and C183_sheet (entries of all rows and columns, with characteristics), C183_noId and C183_titleError (errors), C183_stored/C183_ignored (what happens with each accepted title), C183_traceless (an element with characteristics only leaves no trace). |
| C184 Time trees of a workbook | partial | Props/WorkbookTree | C184_sheet_partial and C184_model_partial prove it for every sheet whose parts are separated by empty rows and give no level twice. What happens otherwise is proved too: C184_repeated_violated (a repeated level overwrites the first node), C184_noGap_violated (the next title is read as a level). Missing: sheets with cells that are neither. |
| C185 Profiles of a workbook | partial | Props/WorkbookProfiles | C185_sheet_partial proves it for every sheet with at least one and at most 19 empty rows between the blocks and known names. C185_unknownName_violated: a block with an unknown name and 20 or more elements ends the reading silently; C185_shunt_violated: 'Shunt susceptance' of buses is taken for that of branches; C185_names_partial: the other titles agree. |
| C186 Profiles multiply the elements they are for | partial | Props/WorkbookCorrelate | C186_correlate_partial proves it for every model and list of profiles (any number, any order), provided that profiles of the same type, subtype, name and ID agree on group and zone, an ID is that of exactly one element, and no profile with an ID comes after one for all that covers its element. C186_overlap_violated: without the last condition the first hour is lost. C186_sheet_partial links the elements to the sheets, C186_unknownId_partial the error, C186_subtypeCase_violated and C186_groupNumber_violated what a user can run into. |
| C187 Options of a workbook | proved | Props/WorkbookOptions | the sheet with its five columns; errors for missing columns and different lengths. Findings: only the misspelt 'Lossess' is known; names that are not known share one nameless option |
| C188 Connections of a workbook | partial | Props/WorkbookBlocks | blocks and the expansion of connections for all the elements of a type are proved; false of the code: connections for a single element never reach the model, and it is enough that subtype, group or zone agree; a block without 'end' never returns |
| C189 Outputs of a workbook | partial | Props/WorkbookOutputs | blocks are proved; false of the code: texts, so also IDs, are written in lower case; rows named after a variable raise unless the value is 'all' or a variable; a block without 'end' never returns |
| C190 Functions of a workbook | partial | Props/WorkbookOutputs | tables with single values first and coefficients last are proved; false of the code: coefficients elsewhere end the reading silently, tables without coefficients give nothing, a table with coefficients only raises, the element is searched by its ID alone |
| C191 Reading a whole workbook | partial | Props/WorkbookBook | order independence is proved for workbooks without connections (within elements the order of types is kept); false of the code: connections before elements raise a KeyError, a second sheet of connections doubles the first, a column 'paths' raises, profiles without 'representative periods' are left out silently |
| C192 Saved results of the GLPK solver are the totals of the plan | partial | Props/SavedExamples, Props/SavedPrint, Props/SavedResults | Proved for the network model (C192_network_partial) and the coupled one (C192_coupled_partial), with the profiles (C192_profiles_partial). The code violates the rest: column gen_cur holds renewable generation without feasibility and in the dispatch, saving percentage losses raises NameError, detailed results always raise AttributeError. |
| C193 Saved rows balance | partial | Props/SavedExamples, Props/SavedResults | Proved: the exact relation between the columns for all options (C193_balance_partial), the plain balance without contingencies, pumps or given losses (C193_network_partial) and in the dispatch (C193_dispatch_partial). Violated with contingencies (losses and curtailment are added over all states) and pumps (each pump is counted at each bus). |
| C194 Printed totals are the totals of the saved rows | partial | Props/SavedPrint | Proved with feasibility on and at most 24 periods. Violated otherwise: the day has 24 places (IndexError) and without feasibility printing raises TypeError. |
| C195 Saved rows of a Pyomo run are the totals of the plan and add up to the reported totals | partial | Props/SavedPyomo | Rows and weighted totals proved for all sizes, weights and solutions without losses (C195_rows_partial, C195_totals_partial). Fails when losses are modelled: the loss report ends the program ('Just stop', C195_losses_violated). |
| C196 Results accumulated over a history of runs are the sums over the runs | partial | Props/SavedPyomo | Sums over every history, the split of the objective and independence of saving proved (C196_parts_partial, C196_objective_partial, C196_history_partial, C196_tables_partial, C196_save_partial). Fails when only the main results folder is given: the summary raises TypeError (C196_summary_violated). |
| C197 The reported marginal value of water is the negative dual | partial | Props/SavedPyomo | The reported value is within 1 of minus the dual and exact for whole numbers; values below 1 are reported as 0 because int() drops the fraction (C197_small_violated). |
| C198 Printed losses of the branches add up to what is lost | partial | Props/SavedPyomo | Sum of the printed losses in closed form for every case; exact if all flows are positive and every bus has demand. Fails for flows in both directions (signed flows in the denominator, C198_directions_violated) and for buses without demand (the first curtailment is counted again, C198_curtailment_violated). |
| C199 The compiled engine keeps every parameter it is given, under its element | partial | Props/EngineData, Props/EngineExamples | Every loaded parameter belongs to the one element of its ID; the answer to a lookup is the value given last among the parameters with the same characteristics, none, or a conflict (C199_elements_partial, C199_lookup_partial, C199_value_partial). Fails for two elements with the same ID and different types (C199_ids_violated) and if a value for one period is loaded after a value for all periods (C199_period_violated). |
| C200 Powers are converted to per unit, nothing else is | proved | Props/EngineData | For every element as loaded by Python (C200_loaded), every power in every period is divided by the base power once, everything else is unchanged. Arithmetic over the rationals; a second conversion by an update of a status is the subject of a later property. |
| C201 Piecewise linear costs of the compiled engine approximate the given cost from above | partial | Props/EngineCost | Exact set of the admitted costs for convex polynomials and for points, error bound for quadratic costs, within the break points. Fails outside: the last break point is min + max, so that for a negative smallest output the largest output is under-costed (C201_range_violated); more pieces than lines read beyond the vectors (C201_pieces_violated). |
| C202 The linear program of the compiled engine is the DC optimal power flow of each period | partial | Props/EngineExamples, Props/EngineOpf, Props/EngineRun | Feasibility of the program is equivalent to the separate specification CDcOpf, the objective is the cost, rows and columns have different keys. Fails for negative reactances (no solution), couplers (carry nothing) and branch states that change from period to period (no model); buses of branches must exist and differ. |
| C203 The compiled engine solves, in megawatts and currency, the problem that was loaded | partial | Props/EngineExamples, Props/EngineModel | One program per period; balance, limits and flows in megawatts as given; quadratic costs covered if the output is within the limits of the first period. Fails: linear costs count 1/base of the cost (C203_linear_violated), hours of the first element only (C203_hours_violated), cost lines of the first hour are used in all hours (C203_hourcost_violated). |
| C204 The results of the compiled engine for a period are those of its last evaluation | partial | Props/EngineEval, Props/EngineOther, Props/EngineState | Proved for models with representative periods and hours: one evaluation (C204_values_partial), any history (C204_history_partial), the engine of initialise (C204_start_partial). Violated: without one of the two options no evaluation gives results (C204_options_violated, C204_single_violated: the program ends; C204_one_violated: old values are returned as results), and the order of the subscripts matters (C204_order_violated). The point the simplex method finds is an argument of the model. |
| C205 An update of a parameter changes that parameter in the program of that period, and nothing else | partial | Props/EngineLimits, Props/EngineOther, Props/EngineUpdate | Proved for new limits of generators: one update in any order of its characteristics (C205_limit_partial), and any history of evaluations and updates, in terms of the optimal power flow with the limits given last (C205_history_partial, C205_feasible_partial, C205_data_partial, C205_first_partial). Violated: other parameters are ignored with the code of success (C205_ignored_violated); an unknown element or an update for all periods writes outside the data (C205_unknown_violated, C205_whole_violated); the status of a branch is not changed, the network is put into per unit a second time and the engine cannot be evaluated any more (C205_status_violated, C205_twice_violated). |
| C206 The outputs of the compiled engine are the values that were asked for | partial | Props/EngineReturn | Proved: outputs of variables for any order of characteristics (C206_variables_partial), after an evaluation (C206_run_partial), outputs of parameters as the entries with the hour, type and name (C206_parameters_partial), several outputs (C206_several_partial). Violated: IDs are ignored (C206_ids_violated); an element without the variable ends the program (C206_missing_violated); so does an output before an evaluation (C206_before_violated); parameters of all representative periods are returned and those without an hour are not (C206_periods_violated); no or several types, places that start again (C206_types_violated); duplicates for several subtypes (C206_subtypes_violated). The texts of characteristics returned with the values are not modelled. |
| C207 The options of a command are the configuration that is run | partial | Props/Cli | Proved for run-n and run-en (C207_run_n_partial, C207_run_en_partial, C207_accepted_partial: refused exactly with a negative number of units). Violated: run-example-hydro ignores the plants, losses, feasibility and time steps asked for, run-ac the plants; run-res never reaches the engine (C207_violated_*). |
| C208 Contingencies are modelled for branches that exist | proved | Props/Cli | Exactly the lists of branch numbers are accepted, and the tables are those of the specification cliOutages. |
| C209 What the command line accepts can be started | partial | Props/Cli | C209_start_partial: exactly the calls of run-n and run-en without renewable units, without contingencies and with a time step start, with the plants asked for. Violated for --res (the arrays are replaced by numbers) and --sec (a list of characters): C209_violated_units. |
| C210 The profiles of a file of time series can be found again | proved | Props/TimeSeries | For every file that is read; numpy's repetition of single rows and numbers included (tsCell). |
| C211 The plants of a file of time series keep their bus and link | proved | Props/TimeSeries | For every file that is read. |
| C212 A file of time series that is complete is read | partial | Props/TimeSeries | C212_accepted_partial gives the exact condition: fewer plants than periods in total, which the property does not ask for (C212_violated_single: sources with one period each and a plant are never read); files with only a demand give nothing (C212_violated_demand). |
| C213 run runs what was initialised | partial | Props/Controls | Proved for every history of calls (C213_run_partial). False for the commands: run-en with pyomo and run-example-hydro hand a model to run, which is taken for the compiled engine (C213_violated_object: AttributeError after every history without a workbook), and run('CLP') imports a module that does not exist (C213_violated_clp). Missing: nothing beyond this. |
| C214 The water set for a plant is what it can use | partial | Props/Controls | Proved for numbers of existing plants (C214_inputs_partial, C214_water_partial). False otherwise: with several plants number 0 is the last one, with one plant every number is accepted (C214_violated_numbers). |
| C215 Marginal values and water left are reported as they are | partial | Props/Controls | Proved: the flag is sound, and exact for integer duals (C215_flag_partial); mean within one (C215_mean_partial); water left (C215_left_partial). False: a fraction is dropped, so the flag may be missing although the value exceeds the penalty, and the GLPK report differs (C215_violated_flag). |
| C216 Line parameters set by the user | partial | Props/Controls | Proved for lists of positions (C216_set_partial, C216_all_partial). False for the numbering that the other controls use: positions start at zero (C216_violated_number), and a single number raises TypeError (C216_violated_single). |
| C217 The services asked for are provided | partial | Props/Services | Proved: the exact set of dispatches that is admitted (C217_exact_partial). The property is false: the services are taken from the production of all units, so that a requirement of up to the whole production excludes nothing (C217_violated_void), more excludes everything (C217_violated_high), a list of False counts as True (C217_violated_flags), and with conventional units only the default settings raise (C217_violated_number). |
| C218 Uncertain renewables are limited or supported | partial | Props/Services | Proved: the limit without support, which is exact (C218_without_partial), and what is left of it with support (C218_with_partial). False with support: the uncertainty then excludes nothing (C218_violated_void); only the first uncertainty is used (C218_violated_first). |
| C219 An instance is relieved by its own curtailment | partial | Props/Services | Proved for one bus with demand or the first instance (C219_own_partial). False otherwise: the curtailment belongs to another instance (C219_violated_other) and is charged with its weight (C219_violated_charge); without demand the model cannot be built (C219_violated_none). |
| C220 The profiles of a node are the original ones times its factors | partial | Props/Controllers | Proved for profiles of different types or variables and modifiers of existing profiles: any history of visits (C220_history_partial), and in the non-anticipative search a node's profiles depend on this node only (C220_node_partial). False otherwise: of two profiles of the same type and variable only the first follows (C220_violated_second), a modifier without profile scales the last profile (C220_violated_unknown). |
| C221 The power flow minimises the costs of the file | partial | Props/Controllers | Proved for a network without generators whose costs are those of external grid 0 (C221_costs_partial). False otherwise: with a generator 0 the grid's cost is charged to it and the grid is free (C221_violated_generator), costs of static generators are charged to generators (C221_violated_static), of several grids one is kept (C221_violated_grids), and a second power flow on the same network never runs (C221_violated_again). |
| C222 Verdict and cost of a node cover all its time steps | partial | Props/Controllers | Proved: without continue_on_divergence, a run that ends converged in all steps (C222_verdict_partial). False: the cost is that of the last step (C222_violated_cost), and with continue_on_divergence so is the verdict (C222_violated_verdict). |
| C223 The engine builds a program for an energy balance tree | partial | Props/EngineTree | The property is false for every input: no tree and no connections give a program (C223_violated): what belongs to the tree is dropped when it is stored, so that the first row ends in an exception. Without the DC OPF or connections every tree is refused (C223_violated_alone), and so is every tree whose first of several levels has more than one name (C223_violated_copies), with a code that nobody sees. |
| C224 The expansion variables are the candidate branches | partial | Props/EngineTree | Proved if every branch has its data and the option is given once for the engine fdif (C224_variables_partial). False otherwise: a branch without vTEP hides all candidates after it and the objective, silently (C224_violated_missing); with another engine there are no variables (C224_violated_engine). |
| C225 Failure and repair times are exponential with the given means | partial | Props/FailureTimes | Proved: the tail probabilities are exponential at whole hours (C225_time_partial, C225_probability_partial, with Lebesgue measure on the numbers drawn). False: times are rounded down, so their mean is 1/(exp(1/mean)-1), less than the mean given (C225_violated_mean), and with probability 1-exp(-1/mttr) the element never fails (C225_violated_never). |
| C226 The report of run-en gives the energies of the solution | partial | Props/RunReport | Proved: with Pyomo and without renewables the figures are the weighted energies (C226_pyomo_partial); with GLPK the spilled energy is available less produced, without weights (C226_spill_partial). False: with renewables the report with Pyomo raises (C226_violated_renewables), the figures of the solvers agree only if all weights are 1 (C226_violated_weights, exact), GLPK adds the curtailment of contingencies (C226_violated_contingencies). |
| C227 The tables of the network report show the solution | partial | Props/NetPrint | Tables of generation, flows, angles, curtailment and (with a binary variable) commitment are proved to show the solution, and the report to be complete without unit commitment. False of the code and proved so: pumps are shifted by one row, services show the last period everywhere, with unit commitment and two generators without binary variables the report raises KeyError, a generator that cannot be switched shows the state of another, NM.print without the argument raises, without a network curtailment of an instance is shown elsewhere. |
| C228 The losses shown on the screen are the losses | partial | Props/NetPrint | Estimated losses are shown as they are; with a loss factor the sum is right when all flows have the direction of their branches, no pumps run and all buses have demand or nothing is curtailed. Otherwise false of the code, with witnesses (direction, reversed, pumps, curtailment). |
| C229 The tables of the water report balance | proved | Props/HydroPrint | Through the constraints of the hydrology model (C137 and others) for every feasible solution. |
| C230 Profiles in the original format drive the elements they name | partial | Props/ProfileDict | Proved: values in every time step, other elements untouched, complete documents are read and run. Missing because false of the code: all_indexes is read but never used (no element is driven), workbooks other than .xlsx are not read. |
| C231 Flexible units are new generators with their own limits and costs | partial | Props/FlexUnits | Proved: one new generator and cost per distinct bus; parameters of rows go to them if the case has no static generator at the bus. Missing because false of the code: a static generator of the case at the bus takes the limits instead (or IndexError without cost); after the first pypower power flow the costs are marked gen and the lookup raises. |
| C232 The network of the optimisation is that of the case file | partial | Props/CaseRead | Proved: data of all buses and branches (C232_buses_partial, C232_branches_partial), ends and ratings in the optimisation (C232_network_partial), every complete file is read (C232_read_partial). Missing because false of the code: the active peak is the reactive demand and the reactive peak is missing (C232_peak_violated); branches out of service are in service in the Pyomo model (C232_status_violated). |
| C233 The generators of the optimisation are those of the case file and the settings | partial | Props/CaseRead | Proved: data, costs and settings of all units (C233_conventional_partial, C233_units_partial), limits and buses in the optimisation (C233_limits_partial). Missing because false of the code: units out of service keep their capacity (C233_status_violated); cost rows of different lengths (C233_ragged_violated) and rows for reactive power (C233_reactive_violated) make the reading fail. |
| C234 The screening reads the values of the case | proved | Props/ScreeningGraph | C234_values: keys are injective (decimal numbers, first underscore), nodes are the blocks of parameters in order. |
| C235 Which cases the screening accepts | proved | Props/ScreeningGraph | C235_accepted. A case without generators or branches raises UnboundLocalError (del of the loop variable). |
| C236 The graph of the screening joins elements to their buses | proved | Props/ScreeningGraph | C236_edges: the edges are a permutation of the specified ones. |
| C237 A power flow uses the solver, the options and the time steps of the input file | partial | Props/RunSettings | Proved from the document to the call for complete documents (C237_single_partial, C237_series_partial) and that unknown solvers raise with inter_temporal (C237_unknown_partial). False otherwise: without inter_temporal an unknown solver or type runs no power flow silently (C237_violated_unknown); without the section pandapower_optimisation_settings the default solver is not used (C237_violated_section); without time settings an inter-temporal run covers no period (C237_violated_periods); pypower ignores the progress bar (C237_violated_bar). |
| C238 The output writer records exactly the requested variables in every period | partial | Props/RunSettings | Proved for documents with output and time settings (C238_writer_partial). Without time settings there is no writer (C238_violated_no_time). That pandapower's writer records what it is told to is outside the model. |
| C239 Preparing a network with another input file forgets the one before | partial | Props/RunSettings | Proved for documents with a case file, a problem section and a pandapower section (C239_fresh_partial, C239_network_partial). Without them settings, case, writer and generators of the previous file stay (C239_violated_settings, C239_violated_units). |
| C240 The plan that the access function returns can be saved | partial | Props/SaveJson | The list of tables can be saved and the file holds exactly their rows (C240_saved_partial, C240_plan_partial). The value that main_access_function returns is a pair of that list and the information of the search (or None), for which save_in_json always raises TypeError and writes nothing (C240_violated; the repository's own test of GeneralManager does this). |
| C241 Saving a plan changes neither the plan nor anything but the file | partial | Props/SaveJson | The file is written only by a save that succeeds, and holds what the value holds then (C241_file_partial). Saving replaces the tables of its argument by dictionaries; a second save raises AttributeError (C241_violated). |
| C242 An input file is read or rejected | partial | Props/SaveJson | Proved for name.json in any directory (C242_json_partial). Any other extension, .JSON included, gives the default parameters without an error (C242_violated). |
| C243 Looking ahead asks every successor and changes nothing | proved | Props/LookAhead | C243_lookahead. No code calls the look-ahead; its effects are those of the method of the class. |
| C244 Values of the optimisation model can be asked for | partial | Props/EngineQuery | Proved for requests without a position, for lists of elements and lists of hours other than 0 or one hour other than 0 (C244_lists_partial, C244_hour_partial), and for values that do not change in time (C244_constant_partial), on networks that the caller built. False otherwise: hour 0 counts as no hour, so that the value of another hour is returned (C244_violated_hour, C244_violated_first); every request with a position, for all elements or for all hours ends in an exception (C244_violated_position, _all_elements, _all_hours); lists without hours are refused (C244_violated_no_hours); the graph built by the model itself holds none of its parameters (C244_violated_build). |
| C245 Values that are set in the optimisation model are read back | partial | Props/EngineQuery | False for every model: with an element in the graph setting ends in an exception, without one nothing is set (C245_violated_network, C245_violated_tree); whenever setting and reading succeed, None is read (C245_violated_read). |
| C246 What was read from a workbook reaches the compiled engine | partial | Props/EngineLoad | Proved for data whose values have their declared types, with all three sheets, options with known names and characteristics with different names and no empty lists (C246_loaded_partial). False otherwise: without buses, generators or branches loading raises (C246_violated_sheet); an option with another name takes the value loaded before it (C246_violated_option); a characteristic with an empty list is dropped (C246_violated_empty). |

## Axioms of each theorem

* **propext, Classical.choice, Quot.sound** (868 theorems): `C06_dict_antisymm`, `C10_pool`, `C12_combinations`, `C12_leaf_requests`, `C12_inner_requests`, `C13_candidate_restored`, `C13_every_call`, `C14_uniform_shift_partial`, `C14_leaf_lowers_times_violated`, `C14_violated`, `C15_search_never_raises`, `C15_no_call_raises`, `C15_needs_years`, `C16_plan_covers_tree`, `C17_plan_never_more_expensive`, `C17_check_keeps_cheaper`, `C18_paths_are_root_to_leaf`, `C19_bookkeeping_aligned`, `C20_keys_after_renumbering_partial`, `C20_distinct_iff_partial`, `C20_violated`, `C20_violated_in_run`, `C21_exactly_offspring_removed`, `C22_violated`, `C22_two_stage_partial`, `C23_violated`, `C23_no_plan_recorded_violated`, `C23_two_stage_partial`, `C23_two_stage_witness`, `C24_violated`, `C24_cost_matches_partial`, `C24_never_understated_partial`, `C25_interventions_from_pool`, `C26_replacement_is_cheaper`, `C27_plan_keeps_finished`, `C29_totals`, `C29_additive`, `C29_later_weighs_more`, `C29_later_weighs_strictly_more`, `C30_base_never_stores_a_plan`, `C30_base_raises_at_feasible_leaf`, `C30_base_raises_when_combining`, `C30_base_raises_on_feasible_problem`, `C30_access_function`, `C31_tables_partial`, `C31_lines_only_partial`, `C31_one_cost_per_scenario_partial`, `C31_access_function_partial`, `C31_violated`, `C32_one_node_per_level`, `C32_share_iff_equal`, `C32_nodes_well_formed`, `C33_edges`, `C33_scenario_traces_path`, `C33_single_row`, `C34_profile`, `C34_conversion`, `C35_bus_averages`, `C35_unknown_year`, `C35_between`, `C35_unit_averages`, `C36_centroids`, `C36_gaps_raise`, `C37_sum_preserved`, `C37_between`, `C38_needs_initialise`, `C39_single_line`, `C40_closed_form`, `C40_order_independent`, `C40_same_line_adds`, `C42_equal`, `C42_shorter`, `C42_not_multiple`, `C42_block_means`, `C42_success_iff`, `C42_after_reading`, `C43_multipliers`, `C43_rejected`, `C43_empty`, `C43_first_year_one`, `C43_only_value_error`, `C44_numeral_value`, `C44_no_number`, `C45_partition`, `C45_every_row_once`, `C45_unknown_type`, `C46_initialised_iff_present`, `C46_absent_defaults`, `C46_optional_keys`, `C46_case_file`, `C46_required_keys`, `C46_binary_variables`, `C46_tables`, `C46_witness`, `C47_round_up`, `C47_too_large`, `C47_cluster`, `C47_cluster_succeeds`, `C48_ideal_costs`, `C48_kept`, `C49_tree_shape`, `C49_growth`, `C49_between`, `C49_complete`, `C49_position`, `C49_path`, `C49_bus_factors`, `C50_tree`, `C51_scenarios`, `C52_active_partial`, `C52_distinct_partial`, `C52_numbering_partial`, `C52_voltages_partial`, `C52_flag_violated`, `C53_limits`, `C53_monotone`, `C53_unordered_violated`, `C54_times_partial`, `C54_row_partial`, `C54_matrix_partial`, `C55_break_points_partial`, `C55_convex_partial`, `C55_exact_partial`, `C55_quadratic_partial`, `C55_range_violated`, `C55_free_violated`, `C55_no_capacity_violated`, `C55_concave_violated`, `C55_piecewise_partial`, `C55_unit_partial`, `C56_applied_partial`, `C56_applied_witness`, `C56_exact_partial`, `C56_own_upgrades_partial`, `C56_own_upgrades_violated`, `C56_verification_partial`, `C57_false_although_recorded_violated`, `C57_true_although_nothing_recorded_violated`, `C57_two_stage_partial`, `C58_rows_of_own_plan_partial`, `C58_violated`, `C59_up_to_three_years_partial`, `C60_common_first_year_partial`, `C60_violated`, `C61_table_to_plan`, `C62_opf_network`, `C65_share_node_iff`, `C65_same_cluster_same_node`, `C65_equal_means_merge`, `C66_year_of_node`, `C66_years_agree_iff`, `C66_same_years`, `C67_demand_reaches_opf`, `C68_demand_table_to_plan`, `C69_unsigned_exponent_violated`, `C69_inner_characters_violated`, `C69_sign_lost_violated`, `C69_rejected_partial`, `C70_file_round_trip`, `C70_values_on_first_line`, `C70_unclosed`, `C71_short_line_violated`, `C71_first_row_violated`, `C71_first_number_violated`, `C71_rows_from_lines_partial`, `C72_fresh_except_partial`, `C72_binary_variables_violated`, `C72_second_reading_succeeds_partial`, `C73_demand_table`, `C74_document_is_readable`, `C74_document_to_plan`, `C75_options`, `C75_complete`, `C75_defaults`, `C76_option_upgrades`, `C77_single_digits_partial`, `C77_violated`, `C78_rows_partial`, `C78_violated_slow_2050`, `C79_screening_runs`, `C79_one_per_scenario`, `C79_reduction_never_raises`, `C80_selection`, `C81_sorted_partial`, `C81_violated_order`, `C81_violated_reference`, `C81_violated_empty`, `C82_screening_succeeds_partial`, `C82_violated_transformers`, `C82_zero_limit_violated`, `C83_programme`, `C84_every_cut`, `C84_total`, `C85_no_waste`, `C85_unlimited`, `C85_only_if_exceeded`, `C86_orientation_partial`, `C86_violated`, `C87_cost_exact`, `C87_never_under`, `C87_quadratic`, `C87_beyond_violated`, `C88_builds_partial`, `C88_piecewise_violated`, `C88_first_generator_violated`, `C88_plan_exists_partial`, `C88_no_plan_violated`, `C89_clusters_suffice`, `C90_cluster_applied_partial`, `C90_upgraded_unique_partial`, `C90_three_phase_violated`, `C90_raises_partial`, `C90_witness`, `C91_nodes`, `C91_numbers`, `C91_too_many_nodes`, `C91_loads`, `C92_report_partial`, `C92_costs_monotone_partial`, `C92_witness`, `C92_total_violated`, `C93_given_clusters_violated`, `C93_without_files_violated`, `C93_repeats_earlier_violated`, `C93_screened_partial`, `C93_witness`, `C94_order`, `C95_accounting`, `C95_solution`, `C95_total`, `C96_root_raises_violated`, `C96_one_uncertain_violated`, `C96_flags_partial`, `C97_data_partial`, `C97_fixed_partial`, `C98_limits`, `C98_monotone`, `C98_selected`, `C98_unknown`, `C98_shutdown_violated`, `C99_domain_partial`, `C99_bounds_partial`, `C99_more_light_partial`, `C99_flat_violated`, `C99_series_partial`, `C99_too_short_partial`, `C99_returns_partial`, `C100_hours_partial`, `C101_connections_partial`, `C101_succeeds_partial`, `C101_unknown_bus_partial`, `C101_load_type_violated`, `C102_objective_partial`, `C102_weights_violated`, `C102_unit_weights_partial`, `C103_conservation_partial`, `C103_precalculated_partial`, `C103_pump_violated`, `C103_contingency_violated`, `C103_witness`, `C103_contingency_witness`, `C104_losses_partial`, `C104_beyond_violated`, `C104_witness`, `C105_variables`, `C105_distinct`, `C105_at_bus`, `C105_unknown_bus`, `C105_witness`, `C106_profile_partial`, `C106_default_partial`, `C106_missing_violated`, `C106_zero_violated`, `C106_no_profiles_partial`, `C106_witness`, `C107_down_partial`, `C107_up_partial`, `C107_first_period_violated`, `C107_other_unit_violated`, `C108_committed_partial`, `C108_switch_partial`, `C108_uncommitted_partial`, `C108_cooled_partial`, `C108_cooled_uc_violated`, `C108_cooled_min_violated`, `C109_ramps_partial`, `C109_short_list_violated`, `C110_same_type_violated`, `C111_baseload_partial`, `C111_conventional_violated`, `C111_weights_violated`, `C112_linked_partial`, `C112_link_zero_violated`, `C114_weights`, `C114_total`, `C115_accounting`, `C115_water`, `C115_witness`, `C116_generation`, `C116_all_generation`, `C116_pumps`, `C116_demand`, `C116_curtailment`, `C116_conservation`, `C116_spill`, `C116_witness`, `C117_losses_violated`, `C117_losses_partial`, `C117_net_demand_violated`, `C117_net_demand_partial`, `C117_load_types_violated`, `C117_numbering_violated`, `C117_constant_violated`, `C118_unweighted_partial`, `C118_weights_violated`, `C119_set_partial`, `C119_beyond_violated`, `C119_negative_violated`, `C119_zero_violated`, `C119_average_partial`, `C119_lengths_violated`, `C120_set`, `C120_overwrite`, `C121_capacity_partial`, `C121_on_violated`, `C122_supernodes_partial`, `C122_recursion_violated`, `C123_demand`, `C124_losses_partial`, `C124_violated`, `C125_numbers`, `C126_violated`, `C126_generators_partial`, `C127_fails_violated`, `C127_succeeds_partial`, `C127_exactly_partial`, `C128_violated`, `C128_ends_partial`, `C129_branches_partial`, `C129_violated`, `C130_no_elements_violated`, `C130_succeeds_partial`, `C131_islands`, `C131_witness`, `C132_order_partial`, `C132_order_violated`, `C133_witness`, `C134_delete_elements`, `C134_witness`, `C135_zero_violated`, `C135_rows_violated`, `C135_again_partial`, `C135_again_violated`, `C135_single_violated`, `C135_parts_partial`, `C136_network_partial`, `C136_parallel_violated`, `C137_conservation_partial`, `C137_day_partial`, `C137_witness`, `C138_shares_partial`, `C138_zero_violated`, `C138_zero_example_violated`, `C139_average_partial`, `C139_full_violated`, `C140_limits_partial`, `C140_separate_partial`, `C140_feas_violated`, `C141_ramp_violated`, `C142_storage_partial`, `C142_first_violated`, `C142_small_violated`, `C142_double_violated`, `C143_links_partial`, `C143_none_violated`, `C143_controlled_violated`, `C143_controlled_partial`, `C144_inner_partial`, `C144_outputs_partial`, `C144_no_river_violated`, `C145_downstream_partial`, `C145_output_partial`, `C145_last_violated`, `C145_nowhere_violated`, `C145_double_violated`, `C145_witness`, `C146_delivery_partial`, `C146_intake_partial`, `C146_input_violated`, `C146_efficiency_violated`, `C146_no_hydro_violated`, `C146_witness`, `C147_cycle_partial`, `C147_fixed_violated`, `C147_length_violated`, `C147_vectors_violated`, `C147_witness`, `C148_runs_partial`, `C148_same_partial`, `C148_returned_partial`, `C148_negative_violated`, `C148_uncertain_violated`, `C148_witness`, `C148_negative_witness`, `C148_uncertain_witness`, `C149_quantities_partial`, `C149_quantities_given_partial`, `C149_witness`, `C149_pumps_witness`, `C149_isolated_violated`, `C149_pumps_violated`, `C149_plans_partial`, `C149_total_partial`, `C149_balance_partial`, `C149_all_plans_partial`, `C150_unmatched_violated`, `C150_unmatched_witness`, `C150_merged_violated`, `C150_rate_witness`, `C150_flows_partial`, `C150_rate_violated`, `C151_hours_violated`, `C151_objective_partial`, `C151_cheapest_partial`, `C151_value_partial`, `C151_hour_partial`, `C152_violated`, `C153_plans_partial`, `C153_objective_partial`, `C153_units_violated`, `C153_witness`, `C153_plan_witness`, `C153_units_witness`, `C153_names_witness`, `C153_runs_partial`, `C153_ramp_violated`, `C153_names_violated`, `C153_res_violated`, `C153_water_partial`, `C154_no_pieces_violated`, `C154_single_violated`, `C154_loop_violated`, `C154_many_res_violated`, `C154_more_pieces_violated`, `C154_failures_witness`, `C154_runs_partial`, `C154_zero_demand_violated`, `C154_low_profile_violated`, `C155_witness`, `C155_loss_witness`, `C155_feasible_partial`, `C155_returned_partial`, `C155_loss_violated`, `C156_numeral`, `C156_only_numerals`, `C156_refused`, `C156_witness`, `C157_demands_partial`, `C157_demands_witness`, `C157_file_partial`, `C157_cost_violated`, `C158_agree_partial`, `C158_witness`, `C158_violated`, `C159_glued_violated`, `C159_truncated_violated`, `C159_first_line_violated`, `C159_piecewise_violated`, `C159_bad_row_partial`, `C160_path_partial`, `C160_root_violated`, `C161_round_trip_partial`, `C161_lost_violated`, `C161_reactive_violated`, `C161_columns_partial`, `C161_witness`, `C161_costless_violated`, `C162_content_partial`, `C162_violated`, `C162_raises_violated`, `C162_raises_last_violated`, `C162_empty_partial`, `C162_tool_violated`, `C162_anticipative_violated`, `C162_run_violated`, `C163_first_partial`, `C163_from_one_violated`, `C163_second_violated`, `C165_peak`, `C166_series_partial`, `C166_reactive_violated`, `C166_same_peak_partial`, `C167_recovery_partial`, `C167_discount_violated`, `C167_given_partial`, `C167_witness`, `C168_restore`, `C168_given`, `C168_witness`, `C169_lengths_partial`, `C169_costs_partial`, `C169_default_partial`, `C169_unknown_violated`, `C169_twice_violated`, `C169_witness`, `C170_content_partial`, `C170_years_violated`, `C170_operation_violated`, `C170_witness`, `C171_record`, `C171_initial`, `C171_invest`, `C172_set_get_partial`, `C172_history_partial`, `C172_new_partial`, `C172_objects_partial`, `C174_transfer_partial`, `C174_shared_violated`, `C174_empty_violated`, `C175_tables`, `C175_reported`, `C175_witness`, `C175_reported_witness`, `C176_states`, `C176_duals`, `C176_witness`, `C177_shown_partial`, `C177_no_position_violated`, `C177_hdf5_network_violated`, `C177_excel_tree_violated`, `C177_repeated_violated`, `C178_endless_violated`, `C179_transformers_partial`, `C179_junk_violated`, `C179_short_violated`, `C179_watts_violated`, `C179_cut_violated`, `C179_witness`, `C180_buses_partial`, `C180_single_violated`, `C180_version_violated`, `C181_network_partial`, `C181_demand_partial`, `C181_demand_violated`, `C181_reactive_violated`, `C181_voltage_violated`, `C181_transformer_violated`, `C181_cost_violated`, `C181_hydro_violated`, `C181_isolated_violated`, `C181_charging_violated`, `C181_witness`, `C182_tables_partial`, `C182_names_violated`, `C182_numbers_violated`, `C182_cost_violated`, `C182_total_violated`, `C182_cost_partial`, `C182_total_partial`, `C183_idColumn`, `C183_noId`, `C183_sheet`, `C183_ignored`, `C183_stored`, `C183_traceless`, `C183_witness`, `C184_sheet_partial`, `C184_model_partial`, `C184_repeated_violated`, `C184_noGap_violated`, `C184_witness`, `C185_sheet_partial`, `C185_unknownName_violated`, `C185_shunt_violated`, `C185_names_partial`, `C185_witness`, `C186_correlate_partial`, `C186_off_partial`, `C186_entry_partial`, `C186_unknownId_partial`, `C186_sheet_partial`, `C186_witness`, `C186_overlap_violated`, `C186_overlapOrder_partial`, `C186_subtypeCase_violated`, `C186_groupNumber_violated`, `C187_options`, `C187_noActive`, `C187_lengths`, `C187_noProblem`, `C187_active`, `C187_losses`, `C187_witness`, `C188_sheet_partial`, `C188_item_partial`, `C188_value_partial`, `C188_for_partial`, `C188_all_partial`, `C188_update_partial`, `C188_single_violated`, `C188_or_violated`, `C188_endless_violated`, `C188_variable_violated`, `C188_uc_violated`, `C188_witness`, `C189_item_partial`, `C189_sheet_partial`, `C189_lists_partial`, `C189_lower_violated`, `C189_variable_partial`, `C189_endless_violated`, `C189_witness`, `C190_sheet_partial`, `C190_item_partial`, `C190_element_partial`, `C190_type_violated`, `C190_short_violated`, `C190_order_violated`, `C190_none_violated`, `C190_single_violated`, `C190_witness`, `C191_kind_partial`, `C191_parts_partial`, `C191_order_partial`, `C191_connections_partial`, `C191_before_violated`, `C191_twice_violated`, `C191_model_partial`, `C191_periods_partial`, `C191_silent_violated`, `C191_paths_violated`, `C191_witness`, `C192_gen_cur_witness`, `C192_percentage_witness`, `C192_profiles_witness`, `C192_profiles_partial`, `C192_network_partial`, `C192_coupled_partial`, `C192_gen_cur_violated`, `C192_percentage_violated`, `C193_witness`, `C193_contingency_violated`, `C193_pumps_violated`, `C193_balance_partial`, `C193_network_partial`, `C193_dispatch_partial`, `C194_totals_partial`, `C194_feasibility_violated`, `C194_periods_violated`, `C195_rows_partial`, `C195_totals_partial`, `C195_losses_violated`, `C195_witness`, `C196_parts_partial`, `C196_objective_partial`, `C196_history_partial`, `C196_tables_partial`, `C196_summary_partial`, `C196_save_partial`, `C196_witness`, `C197_marginal_partial`, `C197_small_violated`, `C198_losses_partial`, `C198_exact_partial`, `C198_directions_violated`, `C198_curtailment_violated`, `C198_witness`, `C199_elements_partial`, `C199_lookup_partial`, `C199_value_partial`, `C199_ids_violated`, `C199_period_violated`, `C199_witness`, `C200_perunit`, `C200_loaded`, `C201_points_partial`, `C201_convex_partial`, `C201_quadratic_partial`, `C201_range_violated`, `C201_given_partial`, `C201_pieces_violated`, `C201_witness`, `C202_status_violated`, `C202_witness`, `C202_feasible_partial`, `C202_objective_partial`, `C202_limit_partial`, `C202_reactance_violated`, `C202_coupler_violated`, `C202_columns_partial`, `C202_rows_partial`, `C203_quadratic_partial`, `C203_single_partial`, `C203_witness`, `C203_hourcost_violated`, `C203_hours_violated`, `C203_lines_partial`, `C203_periods_partial`, `C203_model_partial`, `C203_megawatts_partial`, `C203_linear_violated`, `C204_start_partial`, `C204_history_partial`, `C204_options_violated`, `C204_single_violated`, `C204_one_violated`, `C204_order_violated`, `C204_witness`, `C204_values_partial`, `C205_limit_partial`, `C205_first_partial`, `C205_history_partial`, `C205_ignored_violated`, `C205_unknown_violated`, `C205_whole_violated`, `C205_status_violated`, `C205_witness`, `C205_twice_violated`, `C205_data_partial`, `C205_feasible_partial`, `C206_variables_partial`, `C206_run_partial`, `C206_ids_violated`, `C206_missing_violated`, `C206_before_violated`, `C206_parameters_partial`, `C206_several_partial`, `C206_witness`, `C206_periods_violated`, `C206_types_violated`, `C206_subtypes_violated`, `C207_run_n_partial`, `C207_run_en_partial`, `C207_accepted_partial`, `C207_example_partial`, `C207_violated_example`, `C207_violated_ac`, `C207_violated_res`, `C208_contingencies`, `C209_start_partial`, `C209_violated_units`, `C210_profiles`, `C210_hours`, `C210_no_more`, `C211_plants`, `C212_accepted_partial`, `C212_violated_single`, `C212_violated_demand`, `C213_run_partial`, `C213_violated_object`, `C213_violated_clp`, `C214_inputs_partial`, `C214_water_partial`, `C215_flag_partial`, `C215_violated_flag`, `C215_mean_partial`, `C215_left_partial`, `C216_set_partial`, `C216_words_partial`, `C216_all_partial`, `C216_violated_number`, `C216_violated_single`, `C217_exact_partial`, `C217_units_partial`, `C217_violated_void`, `C217_violated_high`, `C218_without_partial`, `C218_with_partial`, `C218_violated_void`, `C219_violated_charge`, `C220_history_partial`, `C220_node_partial`, `C220_violated_second`, `C220_violated_unknown`, `C221_costs_partial`, `C221_violated_generator`, `C223_violated`, `C223_violated_alone`, `C223_violated_copies`, `C224_variables_partial`, `C224_violated_missing`, `C224_violated_engine`, `C225_time_partial`, `C225_probability_partial`, `C225_violated_mean`, `C225_violated_never`, `C226_pyomo_partial`, `C226_violated_renewables`, `C226_violated_weights`, `C226_spill_partial`, `C226_violated_contingencies`, `C227_generation_partial`, `C227_flows_partial`, `C227_angles_partial`, `C227_curtailment_partial`, `C227_tables_partial`, `C227_pumps_violated`, `C227_services_violated`, `C227_commitment_partial`, `C227_commitment_violated`, `C227_complete_partial`, `C227_network_violated`, `C227_witness`, `C227_state_violated`, `C227_nonetwork_violated`, `C228_estimated_partial`, `C228_factor_partial`, `C228_total_partial`, `C228_witness`, `C228_direction_violated`, `C228_reversed_violated`, `C228_pumps_violated`, `C228_curtailment_violated`, `C229_nodes`, `C229_places`, `C229_rivers`, `C229_violations`, `C229_witness`, `C230_values_partial`, `C230_others_partial`, `C230_complete_partial`, `C230_all_violated`, `C230_format_violated`, `C230_witness`, `C231_targets_partial`, `C232_buses_partial`, `C232_branches_partial`, `C232_network_partial`, `C232_status_violated`, `C232_peak_violated`, `C232_read_partial`, `C232_witness`, `C233_conventional_partial`, `C233_units_partial`, `C233_limits_partial`, `C233_status_violated`, `C233_ragged_violated`, `C233_reactive_violated`, `C233_witness`, `C234_values`, `C234_witness`, `C235_accepted`, `C235_witness`, `C236_edges`, `C236_witness`, `C237_single_partial`, `C237_series_partial`, `C237_unknown_partial`, `C237_violated_unknown`, `C237_violated_section`, `C237_violated_periods`, `C238_writer_partial`, `C238_violated_no_time`, `C239_fresh_partial`, `C239_network_partial`, `C239_violated_settings`, `C239_violated_units`, `C240_saved_partial`, `C240_plan_partial`, `C240_violated`, `C242_json_partial`, `C242_violated`, `C243_lookahead`, `C244_violated_first`, `C246_loaded_partial`, `C246_violated_sheet`, `C246_violated_option`, `C246_violated_empty`
* **propext, Quot.sound** (99 theorems): `C01_dictionary_is_a_map`, `C02_list_is_a_log`, `C03_append_pop_restores`, `C04_set_item_frame`, `C05_difference_lists`, `C05_difference_dicts`, `C06_contains_iff`, `C06_contains_preorder_lists`, `C06_contains_preorder_dicts`, `C07_same_kind_ok`, `C08_single_loop`, `C08_nested_loop`, `C08_nested_loop_misses_pairs`, `C09_extend_dicts`, `C11_available`, `C11_available_keys`, `C21_needs_distinct_keys`, `C27_opf_gets_finished`, `C28_update_shifts`, `C28_update_inverse`, `C28_needs_distinct_keys`, `C38_history_independent`, `C38_repeat`, `C39_cluster_step`, `C39_other_tables_raise`, `C41_index_error`, `C41_one_load`, `C50_measure`, `C54_zero_partial`, `C54_negative_violated`, `C59_violated`, `C60_two_predecessors_violated`, `C62_base_violated`, `C63_violated`, `C64_raising_opf_infeasible`, `C64_returned_verdict`, `C64_base_violated`, `C76_pool`, `C77_violated_only_digits`, `C91_additions`, `C92_more_years_violated`, `C97_shifted_violated`, `C97_row_violated`, `C100_infeasible_violated`, `C103_pump_bus_violated`, `C109_settings_partial`, `C110_one_type_partial`, `C110_distinct_types_partial`, `C112_default_partial`, `C113_instances_partial`, `C113_binaries_partial`, `C113_binaries_violated`, `C119_initial_partial`, `C121_status_partial`, `C133_other_types_partial`, `C133_delete_generators_violated`, `C141_values_violated`, `C154_zero_demand_witness`, `C160_bare_violated`, `C164_name_partial`, `C164_bare_violated`, `C165_witness`, `C166_witness`, `C166_order_violated`, `C171_witness`, `C172_witness`, `C172_kinds_partial`, `C173_positions_partial`, `C173_live_violated`, `C173_witness`, `C174_witness`, `C174_empty_witness`, `C178_closed_partial`, `C178_close_violated`, `C183_titles`, `C214_violated_numbers`, `C217_violated_number`, `C219_own_partial`, `C219_violated_other`, `C219_violated_none`, `C221_generator_partial`, `C222_verdict_partial`, `C222_violated_cost`, `C222_violated_verdict`, `C229_complete`, `C231_created_partial`, `C231_existing_violated`, `C231_nocost_violated`, `C231_again_violated`, `C231_witness`, `C237_violated_bar`, `C241_violated`, `C244_lists_partial`, `C244_hour_partial`, `C244_constant_partial`, `C244_violated_hour`, `C244_violated_position`, `C244_violated_all_hours`, `C245_violated_read`
* **propext** (16 theorems): `C05_none_entries_survive`, `C06_list_not_antisymm`, `C07_kind_mismatch`, `C07_double_create_is_unusable`, `C09_extend_lists`, `C162_clusters_partial`, `C172_unknown_violated`, `C183_titleError`, `C218_violated_first`, `C221_violated_grids`, `C221_violated_again`, `C241_file_partial`, `C244_violated_all_elements`, `C244_violated_no_hours`, `C244_violated_build`, `C245_violated_tree`
* **none** (9 theorems): `C54_zero_violated`, `C103_pump_witness`, `C121_first_violated`, `C137_double_violated`, `C192_detailed_violated`, `C196_summary_violated`, `C217_violated_flags`, `C221_violated_static`, `C245_violated_network`
