# Formal model of jnmelchorg/pyensys in Lean 4 - design

This file is generated by `tools/mkdesign.py` from `tools/design_head.md` (prose), the headers of the model files, `properties.jsonl` and `MANIFEST.json`.

## Trusted base

* Lean 4.33.0's kernel. No axioms of our own; every property theorem depends at most on Lean's standard axioms `propext`, `Classical.choice` and `Quot.sound`
  (listed per theorem in the last section; obtained with `#print axioms`). No `native_decide`, no `bv_decide`; `decide +kernel` is used for concrete witnesses only and is
  evaluated by the kernel.
* The reading of the Python source: each model definition cites file and lines in /repo. That the definitions say what the code does is not machine checked; it was tested by
  seeding bugs into the definitions (seeded/LOG.jsonl), which the theorems must notice.
* Numbers: Python floats are modelled by exact rationals `Rat` (Python ints by `Int`/`Nat`; elements of an ordered field in Model/Network, reals in Model/Renewables). Rounding,
  overflow, NaN and infinities are therefore outside the model. `3**0.5` and `math.sqrt` enter as parameters with the sign properties stated as hypotheses.
* External libraries (pandapower, pandas, networkx, scikit-learn, scipy, Pyomo, GLPK) are modelled only through the operations the code uses: the OPF is an arbitrary oracle (a
  function of the OPF calls made so far and of the request, so it may behave differently at every call), a DataFrame is a list of rows, a DiGraph is its insertion ordered node
  and edge lists, Birch is an arbitrary labelling, connected components are a parameter with their defining property, an optimisation model is the list of its constraints and its
  objective - what the solver does with it is not modelled: theorems speak of all feasible or all optimal points.
* `print` calls, timing, file-system access and the JSON/Excel decoders are not modelled.

## Conventions

* `PyErr` enumerates Python exceptions; functions that may raise return `Except PyErr`. `runtime` also stands for a program that GLPK aborts.
* In the search every container key is `str(n)` for an integer n. `str` is injective on integers, so the model uses the integer itself as key (and `none` for the sentinel "not
  found").
* Python recursion is bounded with a fuel argument; running out of fuel is the error `recursion`. Termination theorems show that fuel above the height of the graph is enough and
  that the result does not depend on it.
* Deep copies are values; places where Python shares objects and it matters are modelled with explicit state (the container's own iterator).
* Names: `Cnn_...` are the theorems of property nn. A theorem with the suffix `_partial` proves part of a property; one with `_violated` proves, for the model of the code as it
  is, that (part of) the property is false and exactly when; one with `_witness` shows that the hypotheses of its neighbours are met by a concrete, non-trivial case (many
  witnesses are anonymous `example`s next to the theorem).
* A property is `proved` if the theorems establish its English statement for everything it quantifies over; it is `partial` if something is missing - in almost every case because
  the code itself does not have the property, which is then proved too (the note in MANIFEST.json names the theorems).

## How the properties are stated and proved

| properties | what is modelled | how it is stated and proved |
|---|---|---|
| C01-C09 | the data container in dictionary and list mode, with its own iterator as state | refinement to a finite map / a log of entries by induction over arbitrary sequences of operations; the iterator as a state machine |
| C10-C12, C26-C29 | pool, combinations and local steps of the search | list characterisations (combinations = sublists of a length, counting), case analysis |
| C13-C25, C57 | the whole recursive search with exceptions | Hoare-style invariants by induction on the recursion, total correctness from the height of the graph; the false ones by kernel-evaluated runs on well-formed problems; C22, C23 and C57 for problems of two stages: invariant of the incumbent over leaves and combinations, dominance over all feasible decisions |
| C30 | the anticipative base class | every run that reaches a feasible leaf raises |
| C31, C58 | `get_solution` | folds over recorded paths, permutation and membership of rows |
| C32-C34, C59-C61 | creation of the control graph from a clustered profile and its conversion to a tree | induction over rows and layers; scenarios and histories as independent specification |
| C35, C66-C67 | averaged node data | folds; averages and sums over the scenarios of a node |
| C36-C37, C65 | centroids of clusters | grouping lemmas for an arbitrary labelling |
| C38-C41, C62-C64 | updates of the pandapower network | frame conditions and field arithmetic |
| C42, C45-C46, C72 | profiles and settings of the JSON document | partition of the document into its sections, defaults, equality of what is read with what is written |
| C43, C68 | demand multipliers of attest tables | sums per scenario and year |
| C44, C69-C71 | text reader of MATPOWER files | grammar of numerals and blocks as independent specification; parsing by induction over characters and lines |
| C47-C49, C73-C82 | preparation of the planning problem, options, screening of clusters | extremal characterisations, counting, folds; oracle for the programme |
| C83-C89 | the linear programme of the screening | feasible points and objective from the list of constraints; sums over branches and buses; optimality |
| C56, C90-C93 | verification of clusters | loop over clusters with an oracle for convergence |
| C50-C51, C94-C97 | multi-scale energy balance | trees, index arithmetic, conservation by induction over the tree |
| C53, C98-C99 | renewable profiles | real arithmetic on piecewise definitions |
| C54, C100 | Monte Carlo simulation | loop invariants over failure and repair times |
| C52, C55, C101-C112 | devices, costs, dispatch, unit commitment of the network engine | every constraint as a proposition on values; physical statements (balances, capacity, convexity, ramps) for all feasible points |
| C113-C121 | coupled energy/network model and user interface | block structure of the instances, weights, conservation of water and energy |
| C122-C134 | network objects, islands, reduction to a voltage level | invariants of deletion and renumbering, conservation of demand, losses and generators |
| C135-C147 | hydrology engine and its coupling | conservation of water for all feasible points, index arithmetic of divided rivers |
| C148-C155 | the linear programs written for GLPK | an encoding between names and columns; a program is exactly the set of the physical rules; optimal plans by exchange arguments |
| C156-C161 | converters from and to MATPOWER files | grammar of numerals and files; reader after writer is the identity |
| C162-C164 | report of the planning tool | exact content of the file as a function of the solution |
| C165-C171 | data and results of the investment tool (load sheets, factors, catalogues, result file, records) | loops as maps, exact conditions for success, annuity by induction, invariant for the changed argument |
| C172-C174 | parameters of devices and networks | heap of lists and objects; frame conditions for set, induction over histories of calls, sharing of addresses |
| C175-C176 | result functions of the GLPK models | tables as nested maps, reading by name and offset, transported to the rules of C149 and C148 |
| C177-C178 | tables of the outputs (Excel, HDF5) | passes over the values as a fold with an invariant on the rows found; step budget for termination |
| C179-C180 | reader of PSS/E files | grammar of lines and fields; loop invariant on the counters; star equivalents by algebra |
| C181-C182 | conversion to PyPSA, tables of the AC power flow | loops as maps with distinct names; demand as a sum over loads; lookups by constructed names |
| C183-C186 | Excel workbooks: elements, trees, profiles, correlation | scanners as recursions over rows with state, specified by the shape of the sheet; correlation by an invariant over the profiles done (permutation) |
| C187-C191 | Excel workbooks: options, connections, outputs, functions, the whole workbook | a generic scanner of blocks with its loop lemma; tables by induction over columns, rows and tables; the workbook by a decomposition into kinds of sheets that is closed under concatenation |
| C192-C194 | saved and printed results of the GLPK solver | totals by induction over units, buses and states; balance from the plan characterisation C149 / C153 summed over the buses; printing and saving compared through a common specification |
| C195-C198 | saved rows and accumulated results of Pyomo runs, marginal values, printed losses | rows and totals through the same specification `spCell`; induction over the history of runs; algebra of the loss allocation |
| C199-C203 | compiled (C++) engine: loaded parameters, per unit, piecewise costs, DC optimal power flow | stores of parameters as folds with an invariant on the entries kept; the sparse matrix as a sum over its triples; equivalence with the specification `CDcOpf`; chords of convex functions |
| C204-C206 | runs, updates and outputs of the compiled engine | histories of evaluations and updates by induction with the invariant `CLive`; the program after a history equivalent to the optimal power flow `CDcOpfMax` with the limits given last; outputs as filters, for every order of the characteristics |
| C207-C209 | command line: options, configuration, contingencies, start | configuration as a function of the options; the table of security by induction over its rows and a count of the rows written; equivalences for what is accepted |
| C210-C212 | reader of time series `ReadTimeS` | the three loops as folds with explicit results, indexed through splits `pre ++ p :: post`; the exact condition of acceptance |
| C213-C216 | controls of the engine: initialise/run, water, marginal values, line parameters | histories of calls by induction; the last value given to each plant by induction from the end, then the water balance C115; truncation bounds; folds of updates |
| C217-C219 | services, uncertain renewables, curtailment of instances | projection of the services out of the linear program (exact description of the dispatches that are admitted); positions by division with remainder |
| C220-C222 | profiles, costs and time steps of the power flows of the planning tool | state invariant (controllers = originals times the last factors) over histories by induction; sums over costs; induction over steps |
| C223-C224 | balance tree and expansion variables of the compiled engine | invariant (vertices of the tree keep no constraints) through all loops; first failing vertex of a loop; induction over vertices |
| C225-C226 | failure and repair times; report of run-en | measure of the set of numbers, geometric series; sums over instances and periods, indicator operations for the exact condition |
| C227-C229 | reports of network and water on the screen | readers as tables over ranges (row and column counts are part of the statement), sums over branches; node balance from the constraints of the hydrology model, entries of the tables of inputs by induction over the nodes |
| C230-C231 | profiles in the original format, flexible units | last controller that names the element, frames as lists; labels by position in the list of distinct buses, induction over the creation |
| C232-C233 | case file to network and generators | settings of an object as finite maps, last assignment of a name; per-element specification of the document, composed with the initialisation (C101, C105); totality for complete files |
| C234-C236 | graph of parameters of the screening stage | nodes as the blocks of parameters, unique splitting of the keys at the first underscore; edges as a permutation of the specified ones |
| C237-C239 | settings of the runs, output writer, preparing an object again (Model/RunSettings) | composition with the reader of C46: from the document to the call that reaches pandapower and to the writer; case analysis on the sections that are present; the state before is universally quantified |
| C240-C242 | saving a plan, reading an input file by its path (Model/SaveJson) | induction over the tables, columns and rows: each cell of the frame is found in the dictionary and no other; text lemmas on the last component and the last dot of a path |
| C243 | look-ahead of the plan search | spec of the requests asked, induction over the successors, shifting times there and back |
| C244-C245 | asking the optimisation model for values (Model/EngineQuery) | independent spec of what the model holds; the loop answers like the one element with the identifier; rows by Forall₂; failures for all graphs by cases |
| C246 | data of a workbook in the compiled engine (Model/EngineLoad) | relation "the same value" between cells and values of the engine; induction over characteristics, lists and entries, with the candidate universally quantified |
