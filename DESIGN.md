# Formal model of oemof/tespy in Lean 4: design

## Layout

* `lean/Verif/Model/*.lean` – shallow models of the Python functions, branch by
  branch, one definition per function. Every definition cites the file and the
  lines of `/repo/src/tespy` it models and names its simplifications.
* `lean/Verif/Spec/*.lean` – small specifications which do not use the model.
* `lean/Verif/Lemmas/*.lean` – helper lemmas.
* `lean/Verif/Props/*.lean` – the property theorems (one file per topic), each
  with an `example` which shows that a concrete non-trivial case meets the
  hypotheses.
* `properties.jsonl` – the properties, `MANIFEST.json` – property → theorems,
  `seeded/LOG.jsonl` – mutation log.

## Trusted base

* Lean 4.33.0 kernel, Mathlib as installed; axioms used are at most `propext`,
  `Classical.choice`, `Quot.sound`. No own axioms, no `sorry`, no
  `native_decide`/`bv_decide`. `AXIOMS.md` lists the axioms of every theorem of
  the manifest (from `#print axioms`).
* The reading of the Python code. The code was not executed.
* Numbers: `float` is modelled by an exact field (`ℚ`, or `ℝ` where logarithms
  and roots occur); rounding, overflow and signed zeros are not modelled. `nan`
  is modelled explicitly (`Option`) where the code distinguishes it.
* Exceptions are values (`Except`). Division by zero, which is an exception (or
  `inf`/`nan` for numpy scalars) in Python, is either a guard in the theorem or
  an explicit error of the model.
* Python `dict` is an association list in insertion order, `set` a list/finset
  (iteration order is a parameter or does not matter).
* Objects which are shared by reference (data containers, the value dictionary
  of a fluid composition) are modelled with a heap: identifiers → cells.
* CoolProp/iapws/pyromat property functions, numpy/scipy linear algebra, pandas
  and the file system are parameters or abstracted to their contract.

## Properties: what is modelled and how it is proved

| id | model | proof |
|---|---|---|
| C01, C02 | unit tables, `convert_to_SI`, `convert_from_SI` | field algebra over the full table (lemma: every factor positive) |
| C03 | `Network.set_attr` as a state machine over keyword dictionaries | invariant by induction over call lists; atomicity refuted by a witness |
| C04–C06 | `CharLine.evaluate` incl. `searchsorted` | list induction for `searchsorted`, field algebra |
| C07 | `CharMap.evaluate_x/_y` | same, two levels |
| C08 | `newton_with_kwargs` with fuel-free recursion on the iteration counter | induction over the iterations, arbitrary functions |
| C09, C10 | `_numeric_deriv` on a state record | frame lemma; algebra; Taylor estimate and mean value theorem over the reals; border case refuted |
| C11, C12 | network tables as state machine | invariant over histories; failing calls refuted by witness where they break it |
| C13 | `Connection.__init__`, `check_conns`, `init_components`, `check_components` | counting (pigeon hole) |
| C14 | connector names as strings, sorting | order lemma on decimal strings, sorted-permutation uniqueness |
| C15, C16 | branch walk on a graph with fuel, flatten of trees | injective predecessor ⇒ no revisit ⇒ enough fuel; tree induction |
| C17–C20 | heap model of containers, presolve/reset | invariants on the heap; abort refuted by witness |
| C21 | column assignment over containers | induction, `Nodup`, range |
| C22 | decision logic | case analysis |
| C23 | loop over an arbitrary residual sequence | induction over iterations |
| C24 | row bookkeeping | prefix sums |
| C25, C26 | `update_variables`, `check_variable_bounds` | inequalities; sum refuted for fixed + variable mixtures |
| C27–C29 | `set_attr` state machines | frame + decision lemmas, induction over call lists |
| C30 | `preprocess` counting vs `solve` rows | induction over parameter lists |
| C31 | design/offdesign switching | flag algebra, induction over lists |
| C32, C33 | bus sum, conversion, implicit characteristic | algebra, use of C08 |
| C34–C36 | node residuals over lists of connections | list sums |
| C37, C38 | stoichiometry, electrolyzer, fuel cell | algebra; lambda < 1 refuted |
| C39 | residual and result functions of components | algebra |
| C40 | log-mean temperature difference over `ℝ` | inequalities for `Real.log` |
| C41 | off-design equations | algebra over `ℝ` |
| C42 | exergy balances | case analysis + algebra |
| C43, C44 | mixture functions | list sums |
| C45 | documents written by `export`/`save`, readers of `network_reader` | round trip per file over arbitrary lists, refutations |
| C46 | nested dictionaries, also with object identity | mutual induction |
| C47, C54 | optimisation problem, loop over the generations and table of individuals | list induction, induction over the generations |
| C48 | moving boundary sections | sorting, inequalities over `ℝ` |
| C49, C50 | Jacobian entries | polynomial identities (difference quotient form), column sharing; property functions with derivatives as parameters |
| C51 | heap of fluid containers and their dictionaries | heap invariant, refutation |
| C52 | bus rows over several calculations | refutation, first calculation proved |
| C53, C61 | sequence of calculations on containers shared by reference | frame lemmas through the loops; refutations |
| C55, C56 | condensing mixtures | list sums; refutation for the volume |
| C57, C58 | exergy analysis of a network | sums over tables; refutations |
| C59 | friction laws over `ℝ` | monotonicity, refutation for Hazen-Williams |
| C60 | combustion energy balance | sums over species, stoichiometry |
| C62 | flags of component parameters | direct |
| C63 | maps as mutable arrays, rows at the edges returned as views | induction over the number of evaluations |
| C64, C65 | search with visited marks, merging of branches; specification: reachability through connector names | invariants of the depth-first search, of the merging loop |
| C66, C67 | fluid containers of all connections, distribution per group | folds over dictionaries; frame over disjoint groups |
| C68 | iteration of an arbitrary update with the solver's loop | induction over iterations (C23), counterexample |
| C69–C72 | checks after an iteration as state transformers with exceptions | frame relations closed under sequences and loops; invariants of the last pass |
| C73–C76 | initialisation as a sequence of steps on shared containers, with exceptions; a calculation as initialisation, new values of variables, results | frame relations, invariants per container, simulation between two runs |
| C77 | residual vector and matrix filled by the four kinds of sources over any sequence of iterations, with the dictionaries the sources keep | invariant per row, frame conditions between the blocks of rows |
| C78 | methods of the three wrappers over an abstract library (state from two inputs, properties of a state); the CoolProp state object is threaded through the calls | case analysis on the result of the library; relation between libraries in different units |
| C79 | functions of mixtures from pressure and enthalpy or entropy over the Newton iteration of C08, numerical derivatives with chained starting values, volumetric flow of a connection | results of C08 for the iteration; exact for linear enthalpies; concrete counterexamples |
| C80 | the flow regimes of the friction factor over the reals with the Newton iteration of C08, Darcy equation of a pipe | convexity of the function of Colebrook: iterates from the left never pass the solution; intermediate value theorem; concrete counterexamples |
| C81 | equations, reported values, bus values, entropy and exergy balance of the engine; energy balance as function of the variables of the system with the entries written to the Jacobian in order | field algebra from the solved equations; sums of partial derivatives against last written entries; counterexample classes for loops in series, directly connected loops, variable flue gas and the signs of the entropy balance |
| C82 | equation objects, lists and dictionaries with identities, the registry, the preparation of a calculation | invariant over all call sequences; induction over arguments and registered equations; concrete witnesses for the false parts |
| C83 | energy balance, efficiency, heat, specific energy, reported values and bus values of both reactors; energy balance as function of the variables of the system with the entries written, bus entries as they accumulate | field algebra with formation enthalpies; sums of partial derivatives against written and accumulated entries; the sign of the fuel cell power, missing bus methods, the heat bus and preheated feed water refuted for all cells of the class |
| C84 | energy group, reported values and the entries written to the Jacobian | field algebra, monotonicity of the loss and the quadratic formula for the stagnation temperature; derivatives of affine functions equal central differences; cold collectors, incidence angle coefficients and variable compositions refuted |
| C85 | mandatory constraints of the components with the rows they fill | matching constraints fill their rows with the residuals, so solved means all residuals vanish; algebra; merges of one specified composition refuted by proportional rows |
| C86 | residual with its three branches, ends and sign check of brentq, check of the fluid, variables with derivatives; property functions and the search are parameters with contracts (satisfied by a simple fluid) | equivalence with an independent specification of the expansion; intermediate value theorem, monotonicity of wetness; refutations with witnesses |
| C87 | tables of flows as dictionaries, loops over components, busses and connections, results of groups, recursion over transit groups with a limit, links; exergies and fluid categories are inputs | invariants of sums of flows under every table update, permutation of the nested loops, induction on the number of nodes; refutations with witnesses |
| C88 | residuals over the reals; temperature as a function of enthalpy at the outlet pressures is an arbitrary monotone function | monotonicity of both outlets in the heat, strict concavity of the logarithm for monotonicity of the logarithmic mean, divided differences for its continuity, intermediate value theorem for existence; refutations with witnesses |
| C89 | table as a dictionary of rows with missing values, loop over the species of the gas phase, condensation of water from the mixture model; names of fluids are inputs | evaluation of the loop by induction, Gibbs' inequality for the sign, log sum inequality for mixing of streams; refutation with the values of the Szargut table and bounds of logarithms |
| C90 | residuals as functions of the variables of the system (the residual models of C80, C48, C86 evaluated at the connections), rows as lists of entries, numerical or given, evaluated with the increments of the code | congruence of the residual in the quantities named, case by case; given entries are slopes of functions affine in the variable; refutations with concrete states |
| C91 | residuals of C40 and C41 as functions of the containers of the connections (which may be shared), rows as lists of assignments in the order of the code with the clamped increments of mass fractions, bus entries accumulated | affine functions closed under the sums of the balances, so that central differences are slopes; completeness by congruence; shared containers and compositions by concrete chambers |
| C92 | calc_parameters as assignments to a table of parameters (value, is_set), the residual of the equation a specification stands for, the three ways solve can end, sequences of calls | residuals are affine in the parameter with the reported value as root; induction over sequences; witnesses |
| C93 | the residuals of C90 as functions of the variables of the system | residual zero iff the documented relation, with a separate definition of the load; logarithmic means from C40, sections from C48 |
| C94 | the dictionary of tables beside the tables of objects of C11/C12, all operations on it, the postprocessing with every value as a parameter | invariant over histories (every row has an owner), then the three loops of the postprocessing |
| C95 | networks as lists of components and connections with the ports of C34-C38, the mandatory equations of every class, mass flows shared along branches (C17) | every connection leaves one component and enters one, so sums over components telescope; per class the groups of connections exchanging mass; then the balances of single components |
| C96 | calc_results statement by statement with its exception handlers, the mixture inversion of C79, the unit tables of C01 | case analysis over the outcomes of the library, invariants of the unit loop, C79_roundtrip for mixtures |
| C97 | one complete iteration (increment, update, checks) and the loop over the iterations, for any residuals and jacobian | zero residuals give zero increments, the update and each check are shown to do nothing, induction over the iterations; concrete networks for the refutations |
| C98 | the iteration model of C97 | inverse of permuted and row-scaled matrices, update of every variable by its own column, induction over the iterations; C25 and C97 for linear systems |
| C99 | collection of fuels, check of gases, parser of formulas, heating value and the look-up of amounts in the equations, with the tables of the property library as parameters | induction over the fluids and over the text of the formula; concrete chambers for the refutations |
| C100 | the iteration of C97 and C98 (residuals, jacobian, update with its limits, checks, loop) over the real numbers, values parametrised by the variables divided by typical sizes | mean value inequality along the segment to the solution for the remainder, induction over the iterations, completeness of the loop (C23); concrete turbine for the hypotheses, cycle of period two for the refutation far from the solution |
| C101 | constructor checks, default labels as texts, look-up in the tables of C11, loop of add_subsys | case analysis of the checks, uniqueness of splitting a text at a separator, invariants of the tables over histories (C11) |
| C102 | residuals, the assignments of every deriv method in order, numerical differentiation, accumulation in the row of a bus | congruence of the residuals, residuals are affine in connection variables and quadratic in the power between support points |
| C103 | set_attr on the containers of a connection, simplification, variables and equations of the connection | induction over the keyword arguments (C27) composed with the count of C28 |
| C104 | tables of the parameters of all classes, set_attr on the containers, set-up of the equations and variables of a component | the count of C30 for the flags before and after set_attr; the tables are complete finite domains checked by the kernel |
| C105 | the printed tables as lists of cells with number and colour, on top of the tables of results of C94 | the rows of the tables are those of C94; the printout is computed in closed form and compared with a specification of the tables |
| C106 | the lines printed by the loop of C23 with real logarithms, the columns as lists of variables, names of all parameters of all component classes | induction over the iterations; monotonicity of the logarithm; partition of the variables |
| C107 | the balances over the reals with the entropy as function of pressure and enthalpy; fluids by dh = T ds, T rising with h, throttling | mean value theorem; tangent inequality for merges; monotonicity of the entropy of both streams along the heat transferred |
| C108 | directories as functions to files, files as rows by label, the inference of the index by pandas as a parameter, the loops over classes, labels, busses and connections with their exceptions | invariants of the loops over lists of any length |
| C109 | the two data files number by number as exact fractions, the look-up with its KeyError, the fall-back line, the table of classes with their component names and characteristic parameters | facts about the tables over the rationals, transported to every ordered field, and the theorems on lines and maps of any size (C04, C05, C07, C41, C63, C81) for all loads |
| C110 | the report as the list of what it emits (sections, table cells with style, equations, figures), the file system with joined and concatenated paths, the failures, the selection of columns and cells of the tables, the placement of figures; the text of the equations and the layout of LaTeX are not modelled | the emitted list characterised by membership for each section, then no failure or failure by induction over the list of actions |
| C111 | the printed formulas transcribed symbol by symbol as propositions, next to the residual functions already modelled; formulas of compressor maps, bus functions and pressure equalities of reactors and the rendering of LaTeX are not | equality of the two solution sets by algebra; where they differ, the exact condition under which a state satisfies both, and a witness |
| C112 | get_plotting_data of all classes on the inlets and outlets of the network model (sorted by the names of the connectors as text), results as a function of the connection; units and the diagrams themselves are not | the positions of connectors follow from uniqueness of a sorted permutation; order of decimal numbers as text by induction on the digits |
| C113 | categorize_fluids, single_fluid and fluidalias_in_list with the names of fluids as parameter (none: RuntimeError of CoolProp for incompressible fluids) | induction on the composition for the loop, case distinction on the number of fluids contained, for names without repetition (keys of a dictionary) |
| C114 | cone_func over the reals with n = 1, design values as data | squares of both sides for nonnegative mass flow, case distinction on the order of the pressures |
| C115 | the combustion model of C37 over an ordered field with a list of inlets and a finite set of fuels | sums over the inlets are invariant under permutation; lambda is linear in the air flow; the fuel left in the outlet follows from the stoichiometry |
| C116 | the equations of the component as rows of C36, saturation enthalpies as functions of composition and pressure | linear combinations of the mass and energy balance with the saturated outlets |
| C117 | the equations of pump and pipe as rows of C36, lines as in C05 | the delivered pressure falls (C05_antitone, from C05_monotone of the line with negative values) while the loss rises strictly with the flow |
| C118 | the zeta equation (C59) for a family of branches with common pressures at the nodes | the loss rises strictly with the flow; sums of flows are compared branch by branch |
| C119 | efficiency equations and reported power of the machines for a sequence of states, isentropic enthalpy by entropy | induction on the stages: the states stay above the isentrope of the inlet, where isentropes are further apart |
| C120 | the equations of C59 and C88 for a sequence of states | the loss is linear in the length; the distance from the ambient temperature falls by the product of exponentials |
| C121 | a circuit as a sequence of connections with solved components between them, fluids as in C107 | entropy balance of each component (C107), summed around the circuit |

## What is modelled

| model | code (below `src/tespy`) |
|---|---|
| Units | tools/helpers.py `convert_to_SI`, `convert_from_SI`, tools/global_vars.py |
| Characteristics | tools/characteristics.py `CharLine`, `CharMap` (evaluation, domain errors, constructor) |
| Newton, NumericDeriv | tools/helpers.py `newton_with_kwargs`, `_numeric_deriv` |
| Optim, DictHeap | tools/helpers.py `merge_dicts`, `get_all_subdictionaries`; tools/optimization.py |
| NetworkAttr, Tables | networks/network.py `set_defaults`, `set_attr`, `add_conns`, `del_conns`, `add_busses`, ... |
| Topology | networks/network.py `check_network`, `check_conns`, `check_components`, branch search; `propagate_to_target` of the components |
| Presolve, FluidHeap | networks/network.py `presolve_massflow_topology`, `presolve_fluid_topology`, `reset_topology_reduction_specifications` |
| Solver | networks/network.py variable space, `solve_determination`, `solve_loop`, `update_variables`, rows of the system |
| Modes | networks/network.py `initialise`, `init_design`, `init_offdesign`, `init_set_properties`; connections/connection.py `calc_results` |
| Connection | connections/connection.py `set_attr`, `simplify_specifications`, `preprocess` |
| Component | components/component.py `set_attr`, `preprocess`, `solve`; tools/data_containers.py |
| Bus | connections/bus.py; components/component.py `calc_bus_*`; networks/network.py `solve_busses`, `process_busses` |
| Eqs | mandatory and connection equations with derivatives: component.py, nodes/*, reactors/*, turbomachinery/*, heat_exchangers/* |
| HeatTransfer, MovingBoundary | heat_exchangers/{base,condenser,simple,parallel,movingboundary}.py, piping/*, turbomachinery/*: results, off-design equations |
| CompressorMap | turbomachinery/compressor.py map equations and parameter check |
| WrapperBranches | networks/network.py `create_fluid_wrapper_branches`, `propagate_fluid_wrappers`; `propagate_wrapper_to_target`, `start_fluid_wrapper_branch` of all components; connection.py `_create_fluid_wrapper`. Fluid containers are separate per connection |
| Combustion | combustion/{base,diabatic}.py |
| Mixture | tools/fluid_properties/{mixtures,helpers,functions}.py |
| Iterate | networks/network.py `solve_loop` with values |
| Checks | networks/network.py `check_variable_bounds`, `check_connection_properties`; connection.py `check_*_bounds`; `convergence_check` of the components |
| StartValues | networks/network.py `init_set_properties`, `init_properties`, `init_val0`, `init_precalc_properties`, `init_conn_params_from_path`; generic starting values of the components |
| Exergy | exergy balances of the components, tools/analyses.py |
| Export | networks/network.py `export`, `save_*`; networks/network_reader.py; `_serialize` methods |
| Py | exceptions, dictionaries and list access of Python |
| Assembly, NewtonStep, IterInfo | networks/network.py `solve_components`, `solve_busses`, `solve_connections`, `solve_user_defined_eq`, `matrix_inversion`, `solve_control`, `iterinfo_body`, `iterinfo_tail`, `_convergence_check` |
| ParamTables | `get_parameters` of all component classes (names, kinds, groups, number of equations), set-up of a component |
| Lookup, UserEq | constructors of `Connection`, `Component`, `Subsystem`, `get_conn`, `get_comp`, `add_subsys`; `UserDefinedEquation`, `add_ude`, `del_ude` |
| ResultTables, ConnResults, SpecDrift, Printing | networks/network.py `postprocessing`, `process_*`, tables of results, `print_results`, `print_components`; `Connection.calc_results`; `calc_parameters` of the components as assignments |
| NumRows, CombRows, EngineRows | the `*_deriv` methods of parameter equations and of combustion chambers and engines, entry by entry; `numeric_deriv`; the residuals they belong to (kA, kA_char, effectiveness, efficiency and map equations, cone law, dp_char, flow characteristics, Darcy, Hazen-Williams, UA, pinch, ...) |
| HexSpec, Friction, Solar, SteamTurbine | effectiveness of heat exchangers; tools/fluid_properties/helpers.py friction factors; solar_collector.py, parabolic_trough.py; steam_turbine.py |
| Engine, Reactors, ReactionSetup | combustion/engine.py; reactors/*; recognition of fuels and gases, formulas, heating values |
| NetBalance | mandatory equations of all components of a network |
| EntropyBal, ChemExergy, Sankey | `entropy_balance` of the components; chemical exergy of streams; functional groups and Grassmann diagram of `ExergyAnalysis` |
| MixInverse, Wrappers | functions of pressure and enthalpy or entropy of mixtures; wrappers.py over abstract property libraries |
| OptimRun | `OptimizationProblem.run` with pygmo as parameter |

Not modelled (none of the theorems says anything about them):

* the property libraries CoolProp, iapws and pyromat themselves (parameters with the contracts named in the theorems), pygmo,
  pandas, numpy beyond the operations used, cuda (`use_cuda`);
* LaTeX reports (tools/document_models.py and all `*_func_doc` methods), `get_plotting_data`, plots of characteristics,
  `FluProDia` data;
* logging and the text of messages; the layout of printed tables;
* parsing and writing of files: the readers and writers work on records; `load_custom_char` and the data files of the package;
* subclasses, components and characteristics written by users;
* times, rounding, overflow and signed zeros of floating point numbers; warnings.

## Disagreements between documentation or expectation and code

Properties with status `partial` in `MANIFEST.json` are false in general or
proved under conditions; the notes there name the conditions and theorems with
suffix `_false` (or a name describing the failure) are counterexamples proved
about the model. The most important ones:

* C03: all accepted histories proved; atomicity of rejected calls is refuted (C03_rejected_call_not_atomic)
* C09: proved when the residual does not raise; refuted when it raises
* C10: Error bound for three times differentiable residuals and mean value property for all differentiable ones; the bound is sharp. Mass fractions: for fractions of at least 1e-5; below, the derivative is scaled by a factor between one half and one (C10_half_slope_at_zero). Exact arithmetic.
* C100: Proved with explicit constants: distance, change of the derivatives, error of the jacobian, norm of its inverse. Hypotheses: exact arithmetic, fixed columns, starting values of an earlier calculation (the checks for fresh starting values may change values, C97) and a rate with which the tolerance is reached by iteration 42 at the latest, because the loop may give up afterwards. C100_neighbourhood: for exact derivatives such a distance exists around every regular solution, and the error is halved in every iteration. Refuted without closeness: a mass flow with a regular solution alternates between two values for ever.
* C101: Creation, get_conn, additions, deletions and subsystems proved for all histories; get_comp for histories of successful calls. Refuted: component labels may contain colons and underscores, so that connections between different components can have the same default label and the second one is rejected; after a failed addition get_comp returns another component than the one at the end of the connection. Labels which are changed after the object was added are not modelled.
* C102: Rows of equations: complete, and exact for mass fractions inside (1e-5, 1 - 1e-5) and loads whose increment contains no support point; at a mass fraction of 0 the entry is half of the derivative (C102_edge_false). Busses: proved if the connections do not share variables; refuted for the total heat of cooling loops in series, whose mass flow gets twice its derivative (C102_bus_series_false).
* C103: Proved for mass flow, pressure, enthalpy, temperature, volumetric flow, steam quality, boiling temperature difference, their references and the fluid balance. Refuted for entropy and specific volume: set_attr accepts both, marks them as specified, and no equation enforces them (C103_entropy_ignored_false).
* C104: Refuted in two points: numbers for td_log, Q_loss, the deviations of the cycle closer, and heat transfer coefficients and area of the moving boundary heat exchanger are accepted and ignored (C104_ignored_false; C104_takes_part shows that there are no others); cone=False switches the cone law of a turbine on (C104_cone_false). A member of a group without the other members is ignored as well, as C104_value says.
* C105: Refuted in five points: specifications changed after the calculation are printed as results of connections (C105_later_false; C105_connection_values shows that otherwise the values are the calculated ones); a component called total is missing in the table of its bus (C105_total_false); a network without results ends with a KeyError instead of the announced TESPyNetworkError (C105_never_solved_false); after a calculation without results the former values of components and busses are printed without a message (C105_failed_false); specified values beyond their limits are not coloured as specified (C105_specified_false).
* C106: Refuted in three points: every line may show 100 % although the calculation does not converge, with linearly dependent equations (C106_hundred_converged_false) or a residual equal to the tolerance (C106_hundred_regular_false); the converse holds (C106_converged). The warning about the maximum number of iterations also appears if the calculation converges in the last permitted iteration (C106_warning_false); without warning and convergence the calculation stopped for another reason (C106_silent). With max_iter=0 one iteration is counted although there is none, and the warning does not appear (C106_total_false). Rounding to the printed decimals and times are not modelled.
* C107: Refuted in two points: merges of different fluids leave out the entropy production by mixing, because the reference entropy of the mixture contains it (C107_merge_mixing_false); the balance of combustion chambers raises AttributeError for every state, since the attribute S_Qcomb is reduced before it is created (C107_chamber_false). Combustion engines: C81. The attribute S_Qirr in the documentation of heat exchangers does not exist; with its sign the sum would not be the entropy production. Temperatures along a heat exchanger are those at the mean pressures, as in the code.
* C108: Refuted in six points: a component that the files of the network's design path do not list is passed over, although its own design_path lists it, and its parameters become nan (C108_new_component_false); when labels are exchanged between classes, each takes the values of the other class (C108_class_false); labels with leading zeros raise KeyError (C108_zero_label_false); values of components that are not on a bus add rows to it, one for None for unknown labels (C108_bus_row_false); with local_offdesign labels that all are numbers raise KeyError (C108_local_number_false), and without a design_path the former design values are kept silently (C108_local_no_path_false). Reading and writing floats in the files is taken as exact; rows are found by label with unique labels.
* C109: Refuted in four points: steam turbines and moving boundary heat exchangers do not use the default characteristics of turbines and heat exchangers but a constant (C109_inherited_false); the default map of the efficiency of compressors exceeds the design value by up to 1.5 % (C109_map_efficiency_false); a class with a name of its own gets a line in place of a map, which cannot be evaluated (C109_map_fallback_false); a map given for a line, or a line for a map, is accepted and fails later (C109_wrong_kind_false). The characteristics of the combustion engine are not 1 at the design load by their nature; for them C109_engine is proved. The numbers of the files are exact fractions here, floating point numbers in the code.
* C11: label uniqueness for all histories; components = ends of connections for histories of successful calls, refuted after failing calls; what each call adds and removes, and when it raises; a bus with the name of a class of components shares and deletes the result table of the components (C11_bus_label_false)
* C110: Refuted in many points, each with its condition: a reference anywhere in the network (C110_ref_false), a component without documented bus function or an empty bus (C110_bus_false) end the report with an error; with a path that does not end with a slash, such as the default one, figures of combustion engines, of user defined equations and of busses are written to another folder, so that there is no report or a figure is missing (C110_constraint_false, C110_bus_figure_false, C110_figures_false); labels with a slash fail (C110_slash_false); the fluid balance and parameters without a formula, such as the minimum terminal temperature difference, are left out (C110_balance_false, C110_hidden_false, C110_heat_exchanger_false, C110_simple_false); figures are made for components that do not use the characteristic and overwrite each other (C110_unused_figure_false, C110_overwrite_false); labels of equations repeat (C110_duplicate_label_false). The text of equations, the number format and the tables of LaTeX are not modelled.
* C111: Holds for most equations. Refuted, with the exact set of states that satisfy both, for: the ellipse law of turbines (quotient of volumes upside down), the specified heat of a cooling loop of an engine (sum instead of difference of enthalpies), the air ratio (upside down), the reaction with too little oxygen, the energy balance of water electrolyzers (sign of the hydrogen term), the mass balance of fuel cells (outlet 1 instead of 2), the fluid balance of separators (for each outlet instead of the sum), the difference to boiling (temperature missing), references (sign of delta), Hazen-Williams with reversed flow or rising pressure, Darcy-Weisbach at very small flows, logarithmic differences at equal or crossed temperatures. Compressor maps from the second evaluation on outside of the map (the solved equation drifts, C63). What components add to busses agrees in solved states.
* C112: Proved for turbomachines, heat exchangers, pipes, collectors, valves, droplet separators and merges with at most nine inlets. With ten or more inlets the key 2 of a merge is inlet 10 (C112_merge_false), the keys of a drum are not its inlets (C112_drum_false; documented in the code, with a warning), and splitters, separators, combustion chambers, engines, fuel cells and electrolyzers give no data (C112_none_false).
* C113: Proved for all compositions. The words are not always those for the fluid: carbon monoxide is no combustion gas, a mixture of two heat transfer fluids is a gas, and two millionths of methane make nitrogen a combustion gas (C113_words_false).
* C114: Proved for states with the inlet pressure not below the outlet pressure. Refuted without that condition: because of the absolute value the mirror image of the ellipse satisfies the equation as well, so that a turbine may be solved with rising pressure (C114_rising_false); C114_ellipse_partial gives all solutions.
* C115: Proved for lambda, for the order and mixing of the inlets, and for the thermal input with an air ratio of at least one. Refuted for the thermal input with less air: for a single fuel it is fixed by the oxygen supplied (C115_ti_rich_false), and two fuel flows with the same air have the same thermal input (C115_two_fuel_flows_false).
* C116: Proved except for the direction of the flows at the outlets of a separator: they are in flow direction exactly for saturated and two-phase inlets (C116_two_phase_partial); a separator fed with superheated steam is solved with negative liquid flow (C116_superheated_false). The saturation enthalpies are functions of composition and pressure and not modelled further.
* C117: Proved for characteristics that do not rise, without extrapolation and over the volumetric flow (the preset), if one of the states has a flow of at least 0.0001; refuted for rising characteristics (two flows solve one circuit) and for flows below 0.0001, which have no loss in the model. Existence of a solution is not claimed.
* C118: Proved for equal specific volumes in the two states if one branch has a flow of at least 0.0001; below that flow the model has no loss and the distribution is not determined (C118_small_flow_false). Series for equal specific volumes.
* C119: Refuted as stated (C119_stage_efficiency_false: two turbine stages of one half reach a lower enthalpy than one turbine); it holds for isentropic stages (C119_ideal). Proved instead for all efficiencies: staged turbines deliver at least the power of one machine and at most the isentropic power, staged pumps and compressors need at least the power of one machine. Fluid properties are hypotheses.
* C12: proved unless a del_conns call raised; refuted in that case
* C120: Proved for Darcy-Weisbach. For Hazen-Williams proved if the pressure falls along the pipe (the equation also accepts a rise, C120_hazen_false); for heat losses if the ambient temperature is not passed (solutions beyond the ambient temperature exist for large kA, C120_ambient_false).
* C121: Proved for isentropic efficiencies up to one and pressures that do not rise in valves and heat exchangers, for circuits of one fluid without branches, with any number of internal heat exchangers (C121_internal). Refuted for specified efficiencies above one, which the equations accept: a circuit turns all heat into power (C121_efficiency_false).
* C13: proved if the connectors declared at check time are those declared when the connections were created; refuted if the number of connectors is changed in between
* C19: The property is false: without the reset, a second presolve raises an error (one specification in the branch) or loses containers (no specification). What is proved positively is C18: the state is restored whenever the reset is reached.
* C20: All cases of the presolve. False part: a branch with all fractions specified but a sum below one is accepted; a demanded fluid balance is not considered.
* C24: False for a component or connection equation whose jacobian is empty (all its quantities fixed): its row is not reserved. Proved for all other systems.
* C26: False with fixed and variable fractions on one connection; C26_sum_iff says exactly when it holds.
* C27: All rules hold for all call sequences except: nan specifies the property instead of removing the specification, a failing call keeps the keywords before the failing one, and a number for m_ref etc. raises an error but activates the reference.
* C28: Degrees of freedom and rejection proved; false: Td_bp is used in the display unit, three specifications of the state are accepted.
* C29: Effect of every keyword of Component.set_attr for every history. The full statement is false: values of the wrong kind are silently ignored for parameter groups, NaN specifies the parameter although the manual documents it as a way to unset it, and a failing call keeps the keywords before the failing one; these are proved as counterexamples.
* C30: Proved for all components and specification patterns except merges with partly variable compositions and fuel cells with specified mass flows, for which it is false.
* C31: Holds for components and, with conditions on lists, for connections. Refuted: mass flow in the list of a connection which is not the first of its branch, references to listed properties, lists naming unspecified properties; off-design lists with references make every off-design calculation fail; the value of a listed property after switching back is the off-design result.
* C32: Residual, rows, specification and reported values proved for any number of components. A calculation that ends without convergence replaces the specified value by the sum (C32_specification_replaced).
* C33: Exact for base component and numeric factors; with base bus and a part load characteristic the relation holds up to the residual of an iteration whose derivative lacks a factor, and fails beyond its 15 passes (C33_bus_load_false).
* C34: All balances proved for any number of inlets and fluids; the count of the fluid equations is right exactly under the condition of C30_merge_iff. The outlet is within the bounds of the inlets for flows into the merge (C34_mixture), not with backflow (C34_backflow_false).
* C35: Splitter proved; the separator conserves every species only if all but one fluid have an equation, counterexample with three fluids.
* C37: Holds for air ratios of at least 1; below 1 carbon, hydrogen and oxygen are lost (refuted).
* C38: False for the fuel cell with specified mass flows (error or duplicated equation) and for fully specified mass flows.
* C39: Proved in both directions for Q, P, pr, dp, ttd_u, ttd_l, eta_s, eff_hot, eff_cold and, with side conditions, ttd_min, zeta, kA. False and refuted: ttd_min of condensers with superheated inlet, kA with a negative or zero terminal difference (nan or exception), zeta with reversed flow, kA of simple heat exchangers across the ambient temperature (exception in postprocessing).
* C40: Holds for all temperatures for HeatExchanger. For Condenser it fails if both temperatures of one end are specified (math domain error, refuted); for simple heat exchangers it fails exactly if inlet or outlet has ambient temperature (refuted).
* C42: True for turbomachines, valves, heat exchangers, drums, combustion chambers and merges with an outlet off ambient temperature; simple heat exchangers cooled across or below ambient temperature, dissipative ones below it, and electrolyzers violate it.
* C44: Species below the precision do change ideal mixtures through the mole fractions (refuted); proved for species with fraction zero.
* C45: Proved per file (network, connections, components, busses) with side conditions. Refuted: unit of specific volume, references between connections, local_offdesign of connections, groups of characteristics, later changes of fluids, labels "P", networks without connections, saving to the same path.
* C48: Sections hold in full for closed energy balances; the pinch bound holds without pressure losses and is refuted with pressure losses. With straight temperatures in every section UA is exactly the integral of the heat over the temperature difference and the pinch the smallest difference anywhere; with curved temperatures a smaller difference inside a section is missed (refuted). With reversed heat flow temperatures are calculated at states outside of the exchanger (C48_reversed_partial) and the pinch is not a bound (refuted).
* C49: Correct for connections with containers of their own; false for v references within a branch (entry of the common mass flow overwritten), for T references to variable compositions (factor missing) and for self references. Property functions are parameters with their derivatives as hypotheses.
* C50: Proved for any number of connectors and any variability pattern where true; false for recuperators on one branch, variable pressure drop, variable pr1/pr2, separators with specified outlets, volumetric flow of variable compositions and the fluid balance.
* C51: The property is false: after a calculation the dictionaries of the mass fractions stay shared within the former branch.
* C52: True for the first calculation; false afterwards: columns of earlier calculations stay in the row and raise an IndexError if the system became smaller.
* C53: Holds for m, p, h, x, Td_bp (with conditions); refuted for temperature and volumetric flow. Components: C92, busses: C32.
* C54: After a run over any number of generations every row of the table holds the decision values, the objective and the constraint values of that individual (C54_table), and is marked valid exactly if all limits are kept strictly (C54_valid). Refuted for limits met with equality (C54_limit_reached).
* C55: True for the entropy and for the enthalpy once the liquid fraction exceeds the precision; below, all water is evaluated as liquid.
* C56: False: densities instead of volumes are averaged; the computed formula and a witness are proved.
* C57: Proved for networks of any size when fuel and product exergy have the right sign; absolute values break the balance otherwise.
* C58: True if every component on a bus has an exergy destruction of its own; false for sources and sinks on busses with losses.
* C59: Holds for Darcy and zeta; refuted for Hazen-Williams, where copysign drops the sign of the pressure difference. All solutions of the zeta and Hazen-Williams equations are determined: with a zeta value small differences of pressure have no flow (C59_zeta_small_false).
* C60: For air ratios of at least 1, because below 1 the elements are not conserved (C37).
* C61: Holds in the first off-design calculation and as long as mass flow containers stay the same; refuted if the mass flow specification is removed or moved between two off-design calculations.
* C62: The documented behaviour is false: the variables are the same in both modes, for all components and lists.
* C63: Holds within the range of speed lines or with guide vane angle 0; false at the edges of the map: every evaluation scales the outermost row in place (C63_drift gives the value of the n-th evaluation), derivatives for quantities without influence do not vanish, the check after a calculation scales the row once more.
* C64: Termination and soundness in all networks; completeness unless one fluid reaches the cooling and the combustion inlets of the same engine, where it is refuted.
* C65: Holds if the relation 'the fluids of two starts meet' is transitive; refuted for five sources, where merging stops too early.
* C66: Proved for networks with disjoint groups (C65). Refuted: a specified fraction of a single fluid is replaced by 1, fluids with starting value only are not known, networks with overlapping groups.
* C67: True for the first calculation; false afterwards: engines and back ends are kept, a changed mixing rule raises an error.
* C68: The values before the last step satisfy the equations; the reported ones do if the last step does not enlarge the residual, exactly for linear equations. Refuted in general: an equation without solution is reported as converged with a residual above 2300.
* C70: Holds for mass flows in every iteration, for pressure and enthalpy of pure fluids with limits of the fluid (upper enthalpy limit not negative), for mixtures in the first four iterations. Refuted: ranges of the user for pure fluids, negative upper enthalpy limits, mixtures later on, phase checks with negative enthalpies.
* C71: Holds for positive values if the quantity is variable at the side the check corrects. Refuted for negative enthalpies, pumps with variable outlet only, turbines with variable inlet only; flows in the first segment of a pump characteristic are changed.
* C72: Valid compositions if all fractions of the flue gas are variable. Refuted: order of the inlets matters, exception if only the fuel lacks values of a former calculation, specified fractions of the flue gas.
* C73: Holds if no connection has a reference of a property which has been found before the calculation. Refuted: a reference of the enthalpy overwrites the enthalpy found from specified pressure and temperature, the specified temperature is violated.
* C74: All variables get a number; values of the user and generic values are used if no other rule applies. Refuted: mass flows start between 1 and 2 in the unit of the network, not kg/s; starting values of mass flows at other than the first connection of a branch are ignored; documented values at the outlet of turbomachines are never used.
* C75: Holds if the file uses the units of the network. Refuted for other units: specified values are reported in the unit of the file and read in the unit of the network in the next calculation.
* C76: Values left over by an aborted calculation have no influence. Refuted for results: they replace the starting values of the user and are used with init_previous=False as well.
* C77: Every equation has its own row with the residuals of this iteration and the derivatives assigned last in this calculation, if every source with equations assigns a derivative in the first iteration. Refuted: derivatives which are no longer assigned stay in the matrix; an equation without derivatives in the first iteration is overwritten by the next one; derivatives left in a bus by an aborted calculation are added in the first iteration of the next one.
* C78: Proved: results of the CoolProp wrapper do not depend on earlier calls; iapws and CoolProp agree for every method except p_sat and for recognised phases; phase and vapour content agree; isentropic keeps the entropy. Refuted: p_sat of the iapws wrapper divides the temperature by 1e6 and raises for every temperature of water; the saturation temperature drops above the critical pressure; unrecognised phases have different names; p_sat raises for incompressible fluids; pyromat has no saturation values, phases and viscosities.
* C79: Proved: temperatures are within the range of the mixture, belong to the enthalpy within the tolerance unless the iteration limit is reached, and are exact for constant heat capacities from any starting value. Refuted: a volumetric flow cannot be specified for a mixture with variable pressure or enthalpy, as the mixing rule is not passed to the derivative (KeyError); enthalpies outside of the range yield a limit of the range without exception; derivatives of the volume start the second iteration at the value of the volume; an exception leaves the mass fraction changed.
* C80: Proved: up to a Reynolds number of 10^12 the friction factor exists, is positive and the Darcy equation lets the pressure fall in flow direction; explicit regimes follow their laws; iterated values are never above the unique solution and at most 0.4 % (rough, roughness up to a tenth of the diameter) or 0.5 % (smooth) below it, within 10^-12 if the run meets its tolerance. Refuted: the run never meets its tolerance for rough pipes with friction factors of 0.02 and more; for smooth pipes at Reynolds numbers from 10^7 to 10^8 the value is more than 0.07 % too small; exception at very large Reynolds numbers with extremely smooth pipes and at zero, the coefficient 0.03164 in the documentation, monotonicity. The flow does not follow from the pressures: within the laminar range and within that of Blasius it does (C80_flow_partial), but every smooth pipe has pressure differences without any mass flow (C80_no_flow_false) and a pipe can have two mass flows for the same pressures (C80_two_flows_false), because the factor jumps at Reynolds numbers of 2320 and 10000.
* C81: Proved: first law, shares, reported values and busses for all engines; the Jacobian row for loops with mass flows of their own and fixed compositions. Refuted: the Jacobian row for cooling loops in series (the entry of the first loop is overwritten), for a loop feeding the other directly and for variable flue gas compositions; the entropy balance has the wrong sign for internal irreversibility and for the heat given to the loops; the exergy balance always raises TypeError.
* C82: Proved: labels are unique after every history, effect of successful calls, connections of every calculation, KeyError exactly for connections which are not in the network, lists of the user are not changed. Refuted: failing calls keep the equations before the failing one; deleting an equation which was not added deletes another one with its label; a connection replaced by one with the same label is silently used; equations created without parameters share one dictionary.
* C83: Proved: first law, reported values, efficiency characteristic and bus values of electrolyzers; reported values of fuel cells; Jacobian rows with separate mass flows. Refuted: the energy balance of fuel cells counts the (negative) power with the wrong sign, so every solved cell with positive efficiency releases (1 + eta) times the energy of the hydrogen as heat in addition to its power; fuel cells contribute 0 to busses and raise AttributeError on busses with a value; the heat bus of electrolyzers doubles one derivative and lacks another; derivatives are wrong if the cooling water becomes the feed water.
* C84: Proved: heat balance, reported values, upper limits, stagnation temperature, unique area, exact entries of mass flow and parameters. Refuted: heat flows from cold to hot in the model for collectors more than lkf_lin / lkf_quad colder than the ambient; the incidence angle modifier exceeds 1 for negative iam_1 (as documented) and is negative for large coefficients; entries of variable compositions are missing. The entries of pressure and enthalpy are central differences. One outlet temperature for given flow, inlet and radiation if the collector is not colder than the ambient; without that condition the quadratic loss leaves a second solution (C84_second_outlet_false).
* C85: Proved as equivalences for all these components. Refuted for merges of mixtures whose composition is specified and equal at all connections: the equations of the fluids are proportional, so all but one are redundant. Energy and stoichiometry of combustion are parameters here (see C37, C60).
* C86: Meaning, existence, uniqueness, second law and reported efficiency proved. Refuted: ValueError if the dry expansion ends superheated but the outlet of an iterate is wet, for subcooled inlets and for supercritical inlet pressures; negative efficiency (power consumption) within the bounds of alpha; the documented equation is not the one solved when saturation is crossed; alpha and eta_s_dry as variables make the system singular.
* C87: Results, bus flows, termination and conservation of the diagram proved for all networks. Refuted: if one group delivers fluids of two categories to another the analysis raises; so it does with a source on a bus with the default base; negative flows are left out of the diagram, so its nodes need not be balanced.
* C88: Uniqueness proved for the terminal temperature differences, effectiveness and, among states with positive terminal differences, kA; existence for every positive kA. Refuted: kA has a second solution with negative terminal differences, because these are replaced by 0.01 and 0.02 K; eff_cold of 0.9 may cool the hot stream below the cold inlet; positive terminal differences do not exclude crossing temperatures where a stream evaporates. For pipes and simple heat exchangers with kA and Tamb all solutions at constant heat capacity are determined: the exponential approach to the ambient temperature and, for kA above twice the heat capacity flow, a second one beyond it (refuted); an inlet at ambient temperature raises an error. Condensers without subcooling: among saturation temperatures above the outlet of the cooling water kA has exactly one solution, given in closed form, which falls with kA; a second one below that temperature exists (refuted).
* C89: Values, loss by mixing, exact availability and sign under the condition that the table implies an environment at the ambient temperature proved. Refuted: humid air at 40 degC has a negative chemical exergy with the values of Szargut (2007), because the values for 25 degC are used at every ambient temperature; mixtures with other rules than ideal-cond have none; a row without reference phase raises TypeError, a missing name IndexError. Mixing of streams is proved without condensation only.
* C90: Complete for mass flow, pressure and enthalpy of all 29 equations with the characteristic parameters of the covered list; entries right for all but valves linked to the pressure ratio. Refuted: dp_char linked to pr has wrong entries for both pressures; eta_char linked to another mass flow than that of hydrogen has no entry for it; mass fractions are never named, so rows are incomplete with variable compositions; component parameters other than those listed are accepted as variables but have no entry in any row.
* C91: Complete for all variables apart from mass fractions in the energy balance; exact for the thermal input, the energy balance (mass flow, pressure, enthalpy) and the reaction balance unless fuel is left for lack of oxygen. Refuted: the energy balance has no entries for mass fractions although it depends on them; mass fractions at zero have half of the derivative; with two inlets sharing one composition the thermal input holds the entry of the last inlet only and a bus counts the derivative twice.
* C92: Refuted: results overwrite specified values. Proved instead: a specified value survives exactly if the end state satisfies its equation exactly; otherwise it changes by residual over sensitivity and the stored value satisfies its equation in the end state; flags and parameters without equation never change; after any history the values are those of the last calculation with results. Also lost in converged calculations: ttd_min of condensers with superheated inlet, zeta with reversed flow, negative kA of simple heat exchangers; kA becomes nan with a negative terminal temperature difference.
* C93: Proved for valid parameters and defined loads. Refuted: an invalid parameter with type abs silently evaluates flow and heat transfer characteristics at zero; at standstill the efficiency and pressure loss characteristics raise an error.
* C94: Proved for histories in which additions and deletions succeed and no bus has the name of a class or the name Connection. Refuted: a bus with such a name makes every calculation raise, or its removal takes the table of the class along; a failed addition followed by the removal leaves a stale row; without postprocessing the table of connections is empty beside former values; two components with the same label on a bus share one row and the total is that of the last.
* C95: Proved under the conditions of C34 (merges with complete compositions) and C38 (enough variable mass flows at electrolyzers and fuel cells). Refuted: with two cycle closers in a cycle a solution may have different mass flows in the two halves and violate the first law; a separator does not conserve energy if the enthalpy of the mixture is not that of the fluids at equal temperature. For reactions the energy received is the change of the energy flow, its relation to the heating value is C37/C38.
* C96: Refuted: without boiling temperature (ValueError) the quality becomes nan, even a specified one, and the former distance to the boiling point stays; mixtures keep quality, distance to the boiling point and phase of a former pure fluid; specified temperature and volumetric flow of a mixture become nan if no temperature fits; the volume of a mixture may belong to another temperature than the one reported; changing the unit of the network between calculations reinterprets the former results used as starting values. Quality and phase of the CoolProp wrapper: C78.
* C97: Proved if the checks of the components find the values in order and the minimum number of iterations is at most 42. Refuted otherwise: with a minimum of 43 or more iterations the calculation is aborted for lack of progress at a solution; a flue gas with 15 % carbon dioxide is moved by the check of the combustion chamber; a flow in the first segment of a pump characteristic is moved; a mass fraction of 1e-7 is reported as 0. Exact arithmetic; residuals and jacobian raise no exception.
* C98: Order of equations and variables: values, result and verdict, for norms which do not depend on the order. Scale: the values of every iteration. Linear systems: if the first step is not limited, the checks find nothing to correct and 3 to 42 iterations are demanded. Refuted: the verdict depends on the scale (m^2 = 1 times 1e-8 is reported as converged above 60 kg/s); values depend on the order in which components have been added (two compressors in series). Exact arithmetic.
* C99: Recognition, formulas and heating values proved for all tables. Acceptance is decided as stated if every name is known to the property library and the first combustion inlet knows the fuels. Refuted: oxygen under another name than O2 is accepted and then raises KeyError in the equations; the coolant of an engine is searched for fuels as well and raises KeyError or ValueError; combustion with pure oxygen is rejected for lack of nitrogen; water under another name stands beside the product H2O. int() is modelled for decimal digits, the arbitrary order of Python sets by a fixed one.
