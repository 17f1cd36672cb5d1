
## What is not modelled

* pyensys/engines/pyeneO.py except the output tables (C177-C178) and the saved results (C192-C196), the C++ engine except the loading of parameters, the DC optimal power flow (C199-C203), its evaluations, updates and outputs (C204-C206), the balance tree up to its failure and the expansion variables (C223-C224): the edges and links of the balance tree, the texts returned with outputs and the simplex method
  of energy_models2.cpp, cpp_energy_wrapper.*, the class `models` of pyene_Models.py; storage units of the network engine (the code raises, see Model/Dispatch).
* pyensys/Optimisers/screening_model.py (an older copy of the command line version that nothing imports), clusters_verification.py (idem), the parts of input_output_function.py
  and process_data.py that only the old scripts use.
* pyensys/cli.py except the options of run-n, run-en, run-example-hydro, run-ac, run-res (C207-C209), pyensys/tests, pyensys/fixtures.py.
* Inside the modelled functions: what the header of each model file lists as left out.

## Findings

The theorems with suffix `_violated` are exact statements about the code as it is. In short (property in parentheses):

* Search: deleting a key removes entries of the partial tree regardless of the path, stale incumbents mix root decisions (C14, C20-C24, C57); the lines table repeats the root's
  rows per path and attributes decisions of a node to all its scenarios (C31, C58); control trees keep full scenario lists, giving phantom histories (C59); profiles with several
  roots lose scenarios (C60); flexible units always raise (C63); the base class loses candidates and every successful anticipative run raises (C30).
* Clustering and node data: clusters with equal means merge (C65); gaps in labels raise IndexError (C36).
* MATPOWER reader: `5e15` is read as 5e-5, `1E5` as 15, `[-5` as 5 (C69); a blank or short line ends a matrix, the first row on the opening line is dropped (C71).
* Settings and options: reading twice accumulates variables (C72); texts are read digit by digit (C77); the slow 2050 multiplier grows from the second 2040 scenario (C78).
* Screening: only the last scenario of a year counts as previous investment, sorting is no sort (C81-C82); previous investments are ignored for reverse flow (C86); piecewise or
  missing costs raise (C88).
* Verification: upgrades accumulate over failed clusters (C56), a factor of sqrt(3) (C90), more than 4 years raise and the total is the last year's cost (C92), stale files are
  used (C93).
* Energy balance: uncertainty in the first period always raises, a single uncertain node drops its constraint (C96); misaligned weights shift silently (C97).
* Renewables and Monte Carlo: equator raises, no diffuse light on flat collectors (C99); a mean time to failure of 0 means always up (C54); infeasible hours count as no
  curtailment (C100).
* Network engine: contingencies are numbered from 0 (C52); cost curves are wrong out of range, for free, zero-capacity and concave units (C55); the objective squares the weights
  (C102); pumps are placed at bus number - 1 and the first of two at a bus is lost (C103); losses are underestimated beyond 3 pu (C104); fewer profiles than scenarios raise (C106);
  minimum up and down times act on the wrong unit (C107); minimum output is not derated (C108); baseload of conventional units is ignored (C111).
* Coupled model and interface: binary variables of later instances raise KeyError (C113); `get_Loss` ends the program, `get_NetDemand` raises (C117); objective parts ignore
  weights (C118); a generator flagged off cannot be undone (C121).
* Reduction: long low-voltage chains raise RecursionError (C122), losses are counted twice (C124), generators move (C126), original positions are wrong (C129).
* Hydrology: duplicate input nodes lose the first, node 0's balance is not enforced (C137); ramps compare a flow with itself (C141); storage is unusable in the first period (C142);
  double counting clears the wrong unit (C145), worse pumps lift more water (C146), seconds are multiplied on every initialisation (C147).
* GLPK models: an isolated bus is a free source (C149); a contingency that matches no branch aborts or loses the flow law (C150); hours are counted twice in unit costs (C151);
  economic dispatch raises AttributeError (C152); names clash with more than 11 trees (C153); infeasible models are returned silently (C148, C155).
* Converters: readers disagree on `1E2` (C158); glued names give an empty network (C159); bare paths raise (C160); hydropower, renewables and shunts are not written (C161).
* Report of the planning tool: a plan with any intervention is never written; every file that is written shows zeros (C162).
* Output tables: HDF5 tables of networks are always empty, Excel sheets of trees raise (C177), a value without identifier runs forever (C178). PSS/E: phantom transformers, fixed line
  14554, wrong base for losses in watts (C179), a single bus raises (C180).
* PyPSA: demand is attached by position, transformers are on the wrong base, generator voltages are ignored (C181); AC tables fail with renewables, costs are those of reactive power in the
  last period (C182).
* Workbooks: elements with characteristics only leave no trace (C183); a block of profiles with an unknown name can end the reading silently (C185); a profile with an ID after one for all
  loses an hour, subtypes in capitals never match, groups that are numbers raise (C186).
* Workbooks: 'Losses' is not an option (C187); connections for one element are dropped, subtype OR group OR zone is enough (C188); IDs of outputs are written in lower case (C189); a function may
  take the characteristics of a bus with the same ID (C190); sheets of connections must come last and only once, a path to another workbook raises (C191).
* Saved results: 'gen_cur' keeps the renewable total without feasibility and in the dispatch, 'spill' is always 0, percentage losses raise NameError, detailed results raise AttributeError (C192);
  'loss' and 'curtailment' are added over all contingency states (C193); printed totals have 24 places and need feasibility (C194).
* Results of Pyomo runs: with losses the report ends the program (C195); a summary without the second folder raises TypeError (C196); marginal values of water lose their fraction (C197);
  printed losses use signed flows and count the first curtailment for buses without demand (C198).
* Compiled engine: elements with the same ID are merged, a value for one period replaces that for all periods (C199); the last break point of a cost is min + max, more pieces than lines read beyond
  the vectors (C201); a negative reactance leaves no solution, couplers carry nothing, branch states cannot depend on the period (C202); linear costs count 1/base of the cost, the cost lines of the
  first hour are used in all hours, the hours are those of one element only (C203).
* Compiled engine, runs: without both representative periods and hours no evaluation gives results (C204); the status of a branch cannot be changed, and trying leaves the network in per unit squared and the engine without a program; updates for all periods or unknown elements write outside the data (C205); IDs of outputs are ignored, one generator without a cost function makes the output of costs end the program, parameters of all representative periods are returned (C206).
* Command line: run-example-hydro overwrites --hydro, --loss, --feas and --time, run-ac --hydro, run-res uses an undefined name (C207); --res replaces arrays by numbers, so that no run with renewable units starts, --sec is split into characters that are never a branch number (C209).
* Time series: the arrays for the plants have one entry less than there are periods, so that a file with one period per source and a plant each is never read; a file with only a demand returns nothing (C212).
* Controls: run-en with pyomo and run-example-hydro hand a model to `run` and raise AttributeError, `run('CLP')` imports a missing module (C213); plant 0 is the last plant (C214); the flag of a plant drops the fraction of the marginal value (C215); a single line number is refused, lines count from zero unlike buses and plants (C216).
* Services: a requirement of ancillary services up to the whole production excludes nothing, since all units count as providers (C217); uncertainty of renewables excludes nothing if a unit may support them, only the first uncertainty counts (C218); the curtailment that relieves an instance is that of another one (C219).
* Power flows of the planning tool: of two profiles for the same type and variable only the first follows the scenario, a modifier without profile scales the last profile (C220); the external grid's cost moves to generator 0, costs of static generators to generators, and the network cannot be used for a second AC power flow (C221); the cost of a node is that of its last time step, and so is the verdict if runs continue on divergence (C222).
* Balance tree of the engine: it never gives a program (C223); a branch without vTEP hides the expansion candidates after it (C224).
* Failure times are rounded down: their mean is too small, and a repair of less than an hour means that the element never fails (C225). Report of run-en: it raises with renewables and Pyomo, is unweighted with GLPK and counts contingencies (C226).
* Report on the screen: pumps are shifted by one row (the last is never shown), services show the last period in all columns, unit commitment with several must-run units raises KeyError, a network model cannot be printed alone (C227); losses with a factor double, vanish or include pumping (C228).
* Planning tool, profiles and flexible units: `all_indexes` of a profile is never used; flexible units at a bus with a static generator of the case change that generator; costs of flexible units are not found after the first pypower power flow (C230, C231).
* Case files: BR_STATUS and GEN are ignored by the Pyomo model, PeakP is overwritten with QD, cost rows of different lengths or for reactive power make the reading fail (C232, C233).
* Settings of the power flows: an unknown solver or OPF type, or a file without `pandapower_optimisation_settings`, silently runs no power flow (every plan is then infeasible); inter-temporal runs without time settings cover no period; pypower ignores the progress bar; output settings without time settings are ignored; an object prepared again keeps what the new file does not name (C237-C239).
* Access function: its result cannot be given to `save_in_json` (always TypeError, as in the test of GeneralManager); saving destroys the tables it is given; an input file with another extension than `.json` is silently replaced by default settings (C240-C242).
* Requests to the optimisation model: hour 0 is taken for "no hour", every request by position, for all elements or all hours raises, nothing can be set, and the graphs the model builds are empty (C244, C245).
* Handing data to the engine: an option with an unknown name silently takes the value of the entry before it; a workbook without one of the three sheets cannot be initialised (C246).
