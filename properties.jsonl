{"id": "C01", "title": "Unit conversions round-trip", "statement": "For every fluid property (m, v, p, h, T, Td_bp, vol, x, s), every unit listed for it and every value, convert_from_SI(convert_to_SI(value)) returns the value and convert_to_SI(convert_from_SI(value)) returns the value (exact arithmetic); a unit that is not listed for the property is rejected with an error by both functions.", "quantifier": "all properties, all units (listed or not), all real values", "why_tests_cant": "the value is a real number; tests sample a few values and units", "anchors": ["src/tespy/tools/helpers.py:convert_to_SI", "src/tespy/tools/helpers.py:convert_from_SI", "src/tespy/tools/global_vars.py:fluid_property_data"]}
{"id": "C02", "title": "Unit conversions keep order and temperature differences", "statement": "convert_to_SI is strictly increasing in the value for every property and unit, so bound checks may be carried out in any unit; and for every temperature unit the SI difference of two temperatures equals the SI value of their difference when it is given as a boiling point temperature difference (Td_bp) in the same unit.", "quantifier": "all properties, all listed units, all pairs of values", "why_tests_cant": "order preservation is a statement about all pairs of reals", "anchors": ["src/tespy/tools/helpers.py:convert_to_SI", "src/tespy/tools/global_vars.py:fluid_property_data"]}
{"id": "C03", "title": "Value ranges of a network keep their physical meaning under any sequence of Network.set_attr calls", "statement": "After any sequence of Network(...)/set_attr calls with units and ranges, the displayed m_range, p_range and h_range are the stored SI bounds expressed in the current unit, and a call that sets only units never changes the SI bounds the solver uses. A call that is rejected (invalid unit) should leave the network unchanged.", "quantifier": "all finite sequences of set_attr calls with arbitrary combinations of unit and range keywords, valid or invalid", "why_tests_cant": "the property is about arbitrary call histories; unit tests execute a handful of calls", "anchors": ["src/tespy/networks/network.py:Network.set_attr", "src/tespy/networks/network.py:Network.set_defaults"]}
{"id": "C04", "title": "CharLine.evaluate reproduces its support points and is piecewise linear between them", "statement": "For every characteristic line with strictly increasing x (at least two points), evaluating at a support point returns exactly the given y, and evaluating between two neighbouring support points returns the linear interpolation of their y values, with or without extrapolation.", "quantifier": "all support point lists of any length >= 2, all x", "why_tests_cant": "number and position of points are unbounded and the argument is real", "anchors": ["src/tespy/tools/characteristics.py:CharLine.evaluate"]}
{"id": "C05", "title": "CharLine.evaluate never leaves the range of its values and preserves monotonicity unless extrapolating", "statement": "Without extrapolation the result of evaluate is always between the smallest and the largest y, equals the first/last y left/right of the domain, and if y is non-decreasing then evaluate is non-decreasing in x over the whole real line.", "quantifier": "all lines, all real arguments (also outside of the domain)", "why_tests_cant": "universal over lines and reals", "anchors": ["src/tespy/tools/characteristics.py:CharLine.evaluate"]}
{"id": "C06", "title": "CharLine extrapolation continues the boundary segments", "statement": "With extrapolation enabled evaluate continues the first and the last segment linearly outside of the domain: the value lies on the line through the first two (last two) support points, and the domain error report is issued exactly for arguments strictly outside of [x_first, x_last].", "quantifier": "all lines with at least two points, all reals", "why_tests_cant": "universal over lines and reals", "anchors": ["src/tespy/tools/characteristics.py:CharLine.evaluate", "src/tespy/tools/characteristics.py:CharLine.get_domain_errors"]}
{"id": "C07", "title": "CharMap.evaluate reproduces grid points and never leaves the value range of the map", "statement": "For every characteristic map with increasing x and per-row increasing y, evaluating at the x and y of a grid point returns its z exactly, and for all x and y the result lies between the smallest and the largest z of the map.", "quantifier": "all map sizes, all x, y", "why_tests_cant": "universal over maps and reals; the code takes different branches at x[0], between rows and at the borders", "anchors": ["src/tespy/tools/characteristics.py:CharMap.evaluate", "src/tespy/tools/characteristics.py:CharMap.evaluate_x", "src/tespy/tools/characteristics.py:CharMap.evaluate_y"]}
{"id": "C08", "title": "The scalar Newton solver respects its bounds and always terminates", "statement": "newton_with_kwargs returns a value within [valmin, valmax] for every function, derivative, start value and target, after a bounded number of function evaluations independent of the inputs; if it stops without the iteration-limit message, the residual evaluated last meets the selected tolerance; the returned value is the Newton step from the point evaluated last, limited to the nearest bound.", "quantifier": "all functions and derivatives (including ones that jump or are constant), all targets, bounds, tolerances", "why_tests_cant": "the function passed in is arbitrary; termination and bounds must hold for all of them", "anchors": ["src/tespy/tools/helpers.py:newton_with_kwargs"]}
{"id": "C09", "title": "Numerical differentiation leaves the model state unchanged", "statement": "Computing a numerical derivative with respect to any connection property, fluid mass fraction or component parameter restores the differentiated quantity and touches nothing else, for every residual function.", "quantifier": "all residual functions, all states", "why_tests_cant": "residual functions are arbitrary and the state has arbitrarily many fields", "anchors": ["src/tespy/tools/helpers.py:_numeric_deriv", "src/tespy/tools/fluid_properties/functions.py:dT_mix_ph_dfluid"]}
{"id": "C10", "title": "Numerical differentiation is exact for linear residuals and of second order for others", "statement": "For every residual function that is affine in the differentiated quantity, the numerical derivative equals the slope, for mass flow, pressure, enthalpy, component parameters and every admissible fluid mass fraction between 0 and 1. For any other residual which is three times differentiable it deviates from the derivative by at most a sixth of the largest third derivative times the square of the step width.", "quantifier": "all affine residual functions, all states with mass fractions in [0,1]; all residuals with three derivatives between the points of evaluation", "why_tests_cant": "the claim must hold at every point of [0,1], including the borders where the step is clipped", "anchors": ["src/tespy/tools/helpers.py:_numeric_deriv"]}
{"id": "C11", "title": "Labels and tables of a network stay consistent under any history of add/del calls", "statement": "After any sequence of add_conns/del_conns/add_busses/del_busses/add_ude/del_ude calls (each may fail with an error), no two connections, no two busses and no two user defined equations of the network have the same label, and the components listed by the network are exactly the sources and targets of its connections, without two components sharing a label.", "quantifier": "all finite call histories, including failing calls", "why_tests_cant": "histories are unbounded; failing calls in the middle of a history are not covered by unit tests", "anchors": ["src/tespy/networks/network.py:Network.add_conns", "src/tespy/networks/network.py:Network.del_conns", "src/tespy/networks/network.py:Network._add_comps", "src/tespy/networks/network.py:Network._del_comps", "src/tespy/networks/network.py:Network.add_ude", "src/tespy/networks/network.py:Network.add_busses"]}
{"id": "C12", "title": "A topology change is never solved with the old topology check", "statement": "After any history of calls, whenever a connection was added or removed since the last successful topology check, the next solve performs the topology check again before it initialises the calculation.", "quantifier": "all call histories interleaving add/del/check", "why_tests_cant": "depends on the whole call history", "anchors": ["src/tespy/networks/network.py:Network.add_conns", "src/tespy/networks/network.py:Network.del_conns", "src/tespy/networks/network.py:Network.check_network", "src/tespy/networks/network.py:Network.solve"]}
{"id": "C13", "title": "A network accepted by the topology check has every connector used exactly once", "statement": "If check_network succeeds, then every inlet and every outlet declared by every component of the network is the end of exactly one connection, and no connection ends at a connector that the component does not declare.", "quantifier": "all networks (any number of components and connections)", "why_tests_cant": "quantifies over all graphs", "anchors": ["src/tespy/networks/network.py:Network.check_conns", "src/tespy/networks/network.py:Network.init_components", "src/tespy/networks/network.py:Network.check_components", "src/tespy/connections/connection.py:Connection.__init__"]}
{"id": "C14", "title": "i-th inlet is paired with i-th outlet whatever the number of connectors", "statement": "For a component with n numbered inlets in1..inn and n numbered outlets out1..outn (e.g. subsystem interface) all connected, the connection listed at position k of the inlets and the one listed at position k of the outlets carry the same connector number, for every n and every order in which the connections were added.", "quantifier": "all n (also n >= 10, where the connector names sort differently from the numbers), all insertion orders", "why_tests_cant": "the sorting is on strings, tests use n <= 3", "anchors": ["src/tespy/networks/network.py:Network.init_components", "src/tespy/components/component.py:Component.propagate_to_target", "src/tespy/components/basics/subsystem_interface.py:SubsystemInterface.inlets"]}
{"id": "C15", "title": "Branch search terminates and visits every connection at most once", "statement": "For every network that passed the topology check, the search for mass flow branches from the branch source components terminates, every connection is collected at most once over all branches and subbranches, and every connection that is reachable downstream of a branch source is collected.", "quantifier": "all accepted networks, including ones with cycles, splitters, drums and merges", "why_tests_cant": "termination over all graphs", "anchors": ["src/tespy/networks/network.py:Network.create_massflow_and_fluid_branches", "src/tespy/components/component.py:Component.propagate_to_target", "src/tespy/components/nodes/base.py:NodeBase.propagate_to_target", "src/tespy/components/nodes/drum.py:Drum.propagate_to_target", "src/tespy/tools/helpers.py:get_all_subdictionaries"]}
{"id": "C16", "title": "Flattening the branch tree keeps every branch exactly once", "statement": "get_all_subdictionaries returns, for every nesting of subbranches, the connections and components of every branch exactly once, in preorder.", "quantifier": "all finite branch trees of any depth and width", "why_tests_cant": "depth and width are unbounded", "anchors": ["src/tespy/tools/helpers.py:get_all_subdictionaries"]}
{"id": "C17", "title": "One mass flow per branch", "statement": "After the topology presolve all connections of a mass flow branch share one mass flow: a value given on any one of them is the value of all of them, more than one given value on a branch raises an error, as does a mass flow reference between two connections of one branch, and branches do not influence each other.", "quantifier": "all branch partitions, all specification patterns", "why_tests_cant": "all numbers of branches and connections and all specification patterns", "anchors": ["src/tespy/networks/network.py:Network.presolve_massflow_topology"]}
{"id": "C18", "title": "The topology reduction is undone after the calculation", "statement": "After a completed calculation (without prepare_fast_lane, which asks to keep the reduction) every connection has its own mass flow and fluid specification again: the user's specification flags are the ones from before the calculation, and the value of every connection is the value computed for its branch.", "quantifier": "all networks, specification patterns and solver outcomes", "why_tests_cant": "state restoration must hold for every history", "anchors": ["src/tespy/networks/network.py:Network.presolve_massflow_topology", "src/tespy/networks/network.py:Network.presolve_fluid_topology", "src/tespy/networks/network.py:Network.reset_topology_reduction_specifications"]}
{"id": "C19", "title": "An aborted solve does not damage the model", "statement": "If solve raises an error (for example because too few or too many parameters are specified), correcting the specification and calling solve again behaves like calling it for the first time.", "quantifier": "all networks, all abort points between initialisation and the end of the calculation", "why_tests_cant": "abort points times models is unbounded", "anchors": ["src/tespy/networks/network.py:Network.initialise", "src/tespy/networks/network.py:Network.solve", "src/tespy/networks/network.py:Network.solve_determination"]}
{"id": "C20", "title": "Fluid composition of a branch is completed consistently", "statement": "After the fluid presolve of a branch: specified mass fractions are kept; if they add up to one all other fluids are fixed to zero; if exactly one fluid is left open and no fluid balance is demanded it is fixed to the remainder so that the fractions sum to one; specified fractions above one in total and a fraction specified twice are rejected; otherwise the open fluids stay variable.", "quantifier": "all branches, all sets of fluids, all specification patterns", "why_tests_cant": "fluid sets and specification patterns are unbounded", "anchors": ["src/tespy/networks/network.py:Network.presolve_fluid_topology"]}
{"id": "C21", "title": "Every free variable owns exactly one column of the equation system", "statement": "The columns assigned to the free mass flows, pressures, enthalpies, fluid fractions and component variables are pairwise different and are exactly 0 .. n-1, where n is the number of variables the solver reports; containers shared within a branch own one column.", "quantifier": "all networks and specification patterns", "why_tests_cant": "number of variables unbounded, sharing pattern arbitrary", "anchors": ["src/tespy/networks/network.py:Network._assign_variable_space", "src/tespy/components/component.py:Component.preprocess", "src/tespy/networks/network.py:Network.init_design"]}
{"id": "C22", "title": "solve only iterates on square systems", "statement": "solve starts iterating if and only if the number of equations equals the number of free variables; otherwise it raises an error that names whether too many or too few parameters were given.", "quantifier": "all equation and variable counts", "why_tests_cant": "all integer counts", "anchors": ["src/tespy/networks/network.py:Network.solve_determination"]}
{"id": "C23", "title": "The convergence verdict is sound and the iteration terminates", "statement": "The solver loop performs at most max_iter iterations; it reports convergence only if at least min_iter iterations were made, the residual norms of the last two iterations were below the threshold and the last matrix inversion succeeded; a run containing undefined (nan) residuals at the end is never reported as converged.", "quantifier": "all residual histories, all min_iter/max_iter", "why_tests_cant": "residual histories are arbitrary infinite sequences", "anchors": ["src/tespy/networks/network.py:Network.solve_loop", "src/tespy/networks/network.py:Network.solve"]}
{"id": "C24", "title": "Equations occupy disjoint rows that fill the system exactly", "statement": "In every iteration the equations of components, connections, busses and user defined equations are written to disjoint rows which together are exactly all rows of the system, whatever the counts of equations per object.", "quantifier": "all lists of objects with arbitrary equation counts", "why_tests_cant": "object counts are unbounded; the row offset depends on all previous objects", "anchors": ["src/tespy/networks/network.py:Network.solve_components", "src/tespy/networks/network.py:Network.solve_connections", "src/tespy/networks/network.py:Network.solve_busses", "src/tespy/networks/network.py:Network.solve_user_defined_eq"]}
{"id": "C25", "title": "Variable updates keep pressures positive, mass fractions and component variables in their bounds", "statement": "After every update of the solver a pressure that was positive is positive, every variable mass fraction is within [0, 1] and every component variable is within its min/max values, for every increment.", "quantifier": "all increments, all previous values, all bounds", "why_tests_cant": "increments are arbitrary reals", "anchors": ["src/tespy/networks/network.py:Network.update_variables"]}
{"id": "C26", "title": "Mass fractions add up to one after every solver iteration", "statement": "After check_variable_bounds the mass fractions of each connection with variable composition sum to one.", "quantifier": "all compositions with any number of fixed and variable fluids", "why_tests_cant": "all numbers of fluids and values", "anchors": ["src/tespy/networks/network.py:Network.check_variable_bounds"]}
{"id": "C27", "title": "Connection.set_attr follows the documented specification rules", "statement": "For every property: passing a number sets the specification with this value, passing None removes value and reference specification, passing nan removes the value specification, passing a Ref sets the reference specification without touching the value specification, <prop>0 only sets the starting value; other properties are never affected.", "quantifier": "all properties, all previous specification states, all argument kinds, all call sequences", "why_tests_cant": "call sequences and previous states are unbounded", "anchors": ["src/tespy/connections/connection.py:Connection.set_attr", "src/tespy/connections/connection.py:Connection._parameter_specification"]}
{"id": "C28", "title": "Pre-simplification of connection specifications preserves the degrees of freedom", "statement": "Replacing a specified temperature/boiling temperature difference/steam quality by a fixed pressure or enthalpy before the calculation keeps the difference between number of equations and number of variables, fixes the quantities to the values the user's specification demands for every unit system, and more than the admissible number of state specifications is rejected.", "quantifier": "all specification patterns, all units, all fluid property functions", "why_tests_cant": "pattern times unit times value space", "anchors": ["src/tespy/connections/connection.py:Connection.simplify_specifications", "src/tespy/connections/connection.py:Connection.preprocess"]}
{"id": "C29", "title": "Component.set_attr follows the documented specification rules", "statement": "For every component property parameter: a number fixes it, 'var' makes it a variable, None or nan removes the specification, a dict applies its entries; unknown parameters and wrong types are rejected; parameters not named in the call are unchanged.", "quantifier": "all parameters, previous states, argument kinds, call sequences", "why_tests_cant": "unbounded call sequences", "anchors": ["src/tespy/components/component.py:Component.set_attr"]}
{"id": "C30", "title": "Declared number of component equations equals the rows the component fills", "statement": "For every component the number of equations announced to the network (which decides solvability) equals the number of rows it fills in every iteration, and a parameter group contributes its equation if and only if all of its elements are specified.", "quantifier": "all component types and specification patterns", "why_tests_cant": "specification patterns are exponential in the number of parameters", "anchors": ["src/tespy/components/component.py:Component.preprocess", "src/tespy/components/component.py:Component.solve"]}
{"id": "C31", "title": "Switching between design and off-design is reversible", "statement": "Solving in design mode, then off-design, then design again restores the specification flags of all connection and component parameters listed in design/offdesign to the state of the first design run, if the user does not change specifications in between; objects not listed are unaffected.", "quantifier": "all networks, all design/offdesign lists (also local_design/local_offdesign)", "why_tests_cant": "all lists and previous states", "anchors": ["src/tespy/networks/network.py:Network.init_design", "src/tespy/networks/network.py:Network.init_offdesign"]}
{"id": "C32", "title": "Bus balance equals the specified value", "statement": "If the bus residual is zero the specified bus value equals the sum of the bus values of its components; the value reported for a bus without specification is the same sum; removing the specification (None, nan) removes the equation.", "quantifier": "all busses with any number of components", "why_tests_cant": "number of components unbounded", "anchors": ["src/tespy/connections/bus.py:Bus.solve", "src/tespy/connections/bus.py:Bus.set_attr", "src/tespy/networks/network.py:Network.process_busses"]}
{"id": "C33", "title": "Bus value and component value are related by the conversion factor in the direction of the base", "statement": "With base 'component' bus value = component value * efficiency, with base 'bus' component value = bus value * efficiency, where the efficiency is the characteristic at the load ratio (1 for a constant factor); a numeric characteristic is a constant factor at every load.", "quantifier": "all component values, all reference values, all characteristics", "why_tests_cant": "implicit equation for base bus has to hold for all values", "anchors": ["src/tespy/components/component.py:Component.calc_bus_value", "src/tespy/components/component.py:Component.calc_bus_expr", "src/tespy/components/component.py:Component.calc_bus_efficiency", "src/tespy/connections/bus.py:Bus.add_comps", "src/tespy/tools/helpers.py:bus_char_evaluation"]}
{"id": "C34", "title": "Merge conserves mass, species and energy", "statement": "If all residuals of a merge are zero, inflowing and outflowing mass agree, for every fluid the inflowing and outflowing species mass agree, the energy flows agree and all pressures are equal, for every number of inlets; the number of declared fluid equations equals the number of residuals for every pattern of variable fluids.", "quantifier": "all numbers of inlets, fluids, all variability patterns", "why_tests_cant": "unbounded numbers of inlets and fluids", "anchors": ["src/tespy/components/nodes/merge.py:Merge.get_mandatory_constraints", "src/tespy/components/nodes/merge.py:Merge.fluid_func", "src/tespy/components/nodes/merge.py:Merge.energy_balance_func", "src/tespy/components/nodes/base.py:NodeBase.mass_flow_func", "src/tespy/components/nodes/base.py:NodeBase.pressure_equality_func"]}
{"id": "C35", "title": "Splitter and separator conserve mass, species and energy", "statement": "If all residuals of a splitter (separator) are zero, mass and energy (mass and every species) are conserved and all pressures and enthalpies (temperatures) agree, for every number of outlets.", "quantifier": "all numbers of outlets and fluids", "why_tests_cant": "unbounded numbers", "anchors": ["src/tespy/components/nodes/splitter.py:Splitter.energy_balance_func", "src/tespy/components/nodes/separator.py:Separator.fluid_func", "src/tespy/components/nodes/base.py:NodeBase.mass_flow_func"]}
{"id": "C36", "title": "Drum and droplet separator conserve mass and energy whether or not the circulation is one branch", "statement": "If all residuals of a drum (droplet separator) are zero, total mass and energy are conserved and the outlets are saturated liquid and saturated gas; for the drum this also holds when the circulating inlet and outlet share one mass flow.", "quantifier": "all states, both sharing situations", "why_tests_cant": "universal over real states", "anchors": ["src/tespy/components/nodes/drum.py:Drum.mass_flow_func", "src/tespy/components/nodes/drum.py:Drum.energy_balance_func", "src/tespy/components/nodes/drum.py:Drum.get_mandatory_constraints", "src/tespy/components/nodes/droplet_separator.py:DropletSeparator.energy_balance_func"]}
{"id": "C37", "title": "Combustion conserves mass and elements for every air ratio", "statement": "If the stoichiometry residuals of a combustion chamber vanish, carbon, hydrogen, oxygen and total mass leaving the chamber equal those entering, for every fuel mixture and every air to stoichiometric air ratio lambda, also for lambda < 1.", "quantifier": "all fuel mixtures, all inlet compositions and mass flows", "why_tests_cant": "unbounded fuel mixtures and real-valued flows", "anchors": ["src/tespy/components/combustion/base.py:CombustionChamber.stoichiometry", "src/tespy/components/combustion/base.py:CombustionChamber.calc_lambda"]}
{"id": "C38", "title": "Electrolyzer and fuel cell declare as many mass balance equations as they fill and conserve mass", "statement": "For every pattern of specified and free mass flows the number of mass flow equations declared by the water electrolyzer and the fuel cell equals the number of residuals, and vanishing residuals imply mass conservation and the stoichiometric ratio of hydrogen and oxygen.", "quantifier": "all specification patterns, all flows", "why_tests_cant": "all patterns and reals", "anchors": ["src/tespy/components/reactors/water_electrolyzer.py:WaterElectrolyzer.get_mandatory_constraints", "src/tespy/components/reactors/water_electrolyzer.py:WaterElectrolyzer.mass_flow_func", "src/tespy/components/reactors/fuel_cell.py:FuelCell.get_mandatory_constraints", "src/tespy/components/reactors/fuel_cell.py:FuelCell.mass_flow_func"]}
{"id": "C39", "title": "Reported component results satisfy the equation of the corresponding specification", "statement": "For turbomachines, valves, simple heat exchangers and heat exchangers: if the residual of a specified parameter (P, Q, pr, dp, eta_s, ttd_u, ttd_l, ttd_min, zeta, kA) is zero, the value of this parameter reported after the calculation is the specified value, and vice versa specifying the reported value gives a zero residual.", "quantifier": "all states with non-degenerate denominators", "why_tests_cant": "universal over real states", "anchors": ["src/tespy/components/turbomachinery/base.py:Turbomachine.energy_balance_func", "src/tespy/components/turbomachinery/pump.py:Pump.eta_s_func", "src/tespy/components/turbomachinery/turbine.py:Turbine.eta_s_func", "src/tespy/components/component.py:Component.pr_func", "src/tespy/components/component.py:Component.zeta_func", "src/tespy/components/component.py:Component.calc_zeta", "src/tespy/components/heat_exchangers/base.py:HeatExchanger.calc_parameters"]}
{"id": "C40", "title": "Logarithmic temperature differences used in heat transfer equations are well defined", "statement": "The logarithmic mean temperature difference used in the kA equations of heat exchangers and condensers is defined (no domain error) and positive for every combination of temperatures that can occur during the iteration and lies between the two terminal differences it is computed from.", "quantifier": "all real inlet and outlet temperatures", "why_tests_cant": "four real arguments with nested adjustments", "anchors": ["src/tespy/components/heat_exchangers/base.py:HeatExchanger.calculate_td_log", "src/tespy/components/heat_exchangers/condenser.py:Condenser.calculate_td_log", "src/tespy/components/heat_exchangers/simple.py:SimpleHeatExchanger.kA_group_func", "src/tespy/components/heat_exchangers/simple.py:SimpleHeatExchanger.calc_parameters"]}
{"id": "C41", "title": "Off-design equations are satisfied at the design point", "statement": "For every characteristic with value 1 at load ratio 1, the off-design equations (eta_s_char, cone, kA_char) have zero residual at exactly the state of the design calculation, so off-design simulation at design load reproduces the design.", "quantifier": "all design states, all characteristics through (1,1)", "why_tests_cant": "universal over states and characteristics", "anchors": ["src/tespy/components/turbomachinery/turbine.py:Turbine.cone_func", "src/tespy/components/turbomachinery/turbine.py:Turbine.eta_s_char_func", "src/tespy/components/turbomachinery/pump.py:Pump.eta_s_char_func", "src/tespy/components/heat_exchangers/base.py:HeatExchanger.kA_char_func", "src/tespy/components/component.py:Component.get_char_expr"]}
{"id": "C42", "title": "Exergy destruction of a component is its exergy balance", "statement": "For turbomachines, valves, heat exchangers, merges and simple heat exchangers the reported exergy destruction equals the exergy entering minus the exergy leaving (streams plus work/heat on the bus), independent of the temperature case distinction around ambient temperature.", "quantifier": "all states, all ambient temperatures", "why_tests_cant": "case distinction over four temperatures times real-valued exergies", "anchors": ["src/tespy/components/turbomachinery/pump.py:Pump.exergy_balance", "src/tespy/components/turbomachinery/turbine.py:Turbine.exergy_balance", "src/tespy/components/piping/valve.py:Valve.exergy_balance", "src/tespy/components/heat_exchangers/base.py:HeatExchanger.exergy_balance", "src/tespy/components/heat_exchangers/simple.py:SimpleHeatExchanger.exergy_balance"]}
{"id": "C43", "title": "Mole fractions and condensation split are consistent", "statement": "For every gas mixture the mole fractions are a partition of unity; if part of the water condenses, the gas phase mole and mass fractions each sum to one, the gas phase is saturated, the liquid fraction is between 0 and the water content, and liquid plus vapour water mass equals the total water mass.", "quantifier": "all mixtures with positive molar masses, all pressures and temperatures", "why_tests_cant": "unbounded number of species, real-valued fractions", "anchors": ["src/tespy/tools/fluid_properties/helpers.py:get_molar_fractions", "src/tespy/tools/fluid_properties/mixtures.py:cond_check"]}
{"id": "C44", "title": "Mixture property functions agree with the pure fluid and are mass weighted", "statement": "The mixing functions for enthalpy, entropy and specific volume are insensitive to species below the detection threshold, reduce to the pure fluid function for a single species, and for incompressible mixtures are the mass-weighted mean, hence between the smallest and largest species value.", "quantifier": "all mixtures, all species property functions", "why_tests_cant": "unbounded number of species and arbitrary property functions", "anchors": ["src/tespy/tools/fluid_properties/mixtures.py:h_mix_pT_incompressible", "src/tespy/tools/fluid_properties/functions.py:h_mix_pT", "src/tespy/tools/fluid_properties/helpers.py:get_number_of_fluids"]}
{"id": "C45", "title": "Exporting and loading a network keeps the specification", "statement": "load_network(export(path)) reproduces units, value ranges, connection specifications (including references and design/off-design settings), component specifications and busses of the exported network.", "quantifier": "all networks", "why_tests_cant": "all specification patterns", "anchors": ["src/tespy/networks/network.py:Network.export", "src/tespy/networks/network_reader.py:load_network", "src/tespy/connections/connection.py:Connection._serialize", "src/tespy/connections/bus.py:Bus._serialize", "src/tespy/networks/network.py:Network._serialize"]}
{"id": "C46", "title": "merge_dicts merges recursively without losing entries", "statement": "merge_dicts(a, b) contains, for every path of keys, the value of b if b has a value that is not a dictionary at the path or on the way to it, and otherwise the value of a; it completes unless a has a plain value where b has a dictionary with entries; neither argument is modified and the result shares no mutable object with them.", "quantifier": "all nested dictionaries", "why_tests_cant": "unbounded nesting and object identity", "anchors": ["src/tespy/tools/helpers.py:merge_dicts"]}
{"id": "C47", "title": "Optimisation constraints have the documented sign and order", "statement": "For every set of variables, upper and lower limits, the fitness vector passed to the optimiser is objective, upper limit constraints, lower limit constraints in the order of the labels; each constraint value is non-positive exactly if the limit holds; the decision vector is applied in the order of variable_list and bounds.", "quantifier": "all variable and constraint dictionaries, all decision vectors", "why_tests_cant": "unbounded dictionaries", "anchors": ["src/tespy/tools/optimization.py:OptimizationProblem.collect_constraints", "src/tespy/tools/optimization.py:OptimizationProblem.fitness", "src/tespy/tools/optimization.py:OptimizationProblem.__init__"]}
{"id": "C48", "title": "Sections of the moving boundary heat exchanger partition the transferred heat", "statement": "The heat sections of a moving boundary heat exchanger are sorted, start at zero and end at the total heat, every phase change enthalpy on either side is a section border, and the pinch temperature difference is not larger than any terminal temperature difference.", "quantifier": "all states with closed energy balance, all saturation properties", "why_tests_cant": "universal over reals and property functions", "anchors": ["src/tespy/components/heat_exchangers/movingboundary.py:MovingBoundaryHeatExchanger._get_h_steps", "src/tespy/components/heat_exchangers/movingboundary.py:MovingBoundaryHeatExchanger._assign_sections", "src/tespy/components/heat_exchangers/movingboundary.py:MovingBoundaryHeatExchanger.calc_td_pinch"]}
{"id": "C49", "title": "Reference specifications of connections: equation and derivative agree", "statement": "The entries a connection writes to the equation system for a reference (m, p, h, T, v with Ref) are the partial derivatives of the corresponding residual with respect to every variable, also if both connections share variables, so that one Newton step solves an affine reference equation.", "quantifier": "all states, all factors and deltas, all sharing patterns", "why_tests_cant": "sharing patterns and reals", "anchors": ["src/tespy/connections/connection.py:Connection.primary_ref_func", "src/tespy/connections/connection.py:Connection.primary_ref_deriv", "src/tespy/connections/connection.py:Connection.T_ref_deriv", "src/tespy/connections/connection.py:Connection.v_ref_deriv", "src/tespy/connections/connection.py:Connection.fluid_balance_deriv"]}
{"id": "C50", "title": "Analytic derivatives of component equations are the derivatives of the residuals", "statement": "The analytic Jacobian entries of mass flow, energy, pressure ratio, pressure drop, equality and species balance equations are the partial derivatives of the residual functions with respect to the variable in the column, for every state and every number of connectors.", "quantifier": "all states, all numbers of connectors, all variability patterns", "why_tests_cant": "reals and unbounded numbers of connectors", "anchors": ["src/tespy/components/nodes/base.py:NodeBase.mass_flow_deriv", "src/tespy/components/nodes/merge.py:Merge.fluid_deriv", "src/tespy/components/component.py:Component.pr_deriv", "src/tespy/components/heat_exchangers/base.py:HeatExchanger.energy_balance_deriv", "src/tespy/components/nodes/drum.py:Drum.energy_balance_deriv"]}
{"id": "C51", "title": "Compositions of connections are independent after a calculation", "statement": "After a completed calculation, changing the mass fractions of one connection does not change the mass fractions of another one; in particular, when the network is modified such that two connections are no longer in one branch, their compositions are independent.", "quantifier": "all branches, all specification patterns, all later writes", "why_tests_cant": "the effect of shared mutable objects depends on the history of calculations and modifications", "anchors": ["src/tespy/networks/network.py:Network.presolve_fluid_topology", "src/tespy/networks/network.py:Network.reset_topology_reduction_specifications", "src/tespy/connections/connection.py:Connection._fluid_specification"]}
{"id": "C52", "title": "Rows of busses refer to the variables of the current calculation", "statement": "After any sequence of calculations with changed specifications in between, the row a bus with a specified value contributes to the equation system refers only to variables of the current calculation, so a bus never makes a solvable system fail.", "quantifier": "all networks, all histories of specifications", "why_tests_cant": "the row depends on the history of earlier calculations", "anchors": ["src/tespy/connections/bus.py:Bus.solve", "src/tespy/connections/bus.py:Bus.clear_jacobian", "src/tespy/networks/network.py:Network.solve_busses"]}
{"id": "C53", "title": "Specified values are not changed by a calculation", "statement": "After a completed calculation every value specified by the user at a connection (mass flow, pressure, enthalpy, temperature, volumetric flow, vapour mass fraction, difference to boiling point) is still specified with the same value, also if the calculation stopped before convergence, so that the same calculation can be repeated.", "quantifier": "all networks, specifications, modes and solver results, including non-converged ones", "why_tests_cant": "All solver outcomes; a test checks converged cases, in which result and specification agree within the tolerance.", "anchors": ["src/tespy/connections/connection.py: Connection.calc_results", "src/tespy/networks/network.py: Network.init_set_properties, init_design, init_offdesign, reset_topology_reduction_specifications"]}
{"id": "C54", "title": "Individuals are marked valid exactly if all limits hold", "statement": "After an optimisation run the table of individuals has one row per generation and individual with the decision values, the objective and the constraint values of that individual, and the individual is marked valid exactly if it satisfies all upper and lower limits.", "quantifier": "all problems, models, evolutions, numbers of generations and individuals", "why_tests_cant": "any number of generations; boundary values", "anchors": ["src/tespy/tools/optimization.py:OptimizationProblem.run", "src/tespy/tools/optimization.py:OptimizationProblem._process_generation_data"]}
{"id": "C55", "title": "Enthalpy and entropy of humid mixtures count liquid as liquid and vapour as vapour", "statement": "In a mixture of gases and water whose water partly condenses (mixing rule ideal-cond), the mass specific enthalpy and entropy are those of the condensed water, of the saturated vapour and of the other species at their partial pressures in the gas, each weighted with its mass in the mixture; in particular a minute amount of condensate changes the enthalpy only minutely.", "quantifier": "all compositions with water, all pressures and temperatures below the critical temperature, all pure fluid property functions", "why_tests_cant": "tests compare a few states with tabulated values; the onset of condensation is never sampled", "anchors": ["src/tespy/tools/fluid_properties/mixtures.py: h_mix_pT_ideal_cond, s_mix_pT_ideal_cond, cond_check"]}
{"id": "C56", "title": "Specific volume of humid mixtures is the volume of the phases", "statement": "The specific volume of a mixture with condensed water is the volume of the liquid plus the volume of the gas per unit of mass.", "quantifier": "all compositions with water, all pressures and temperatures, all pure fluid property functions", "why_tests_cant": "tests only check that a value is returned", "anchors": ["src/tespy/tools/fluid_properties/mixtures.py: v_mix_pT_ideal_cond"]}
{"id": "C57", "title": "Exergy balance of a network closes", "statement": "If every component of the analysed network is in exergy balance and on one of the busses of the analysis at most, the reported fuel exergy equals product exergy plus exergy loss plus exergy destruction of components and busses; no tolerance or correction hides a residual.", "quantifier": "all networks of any size and topology, all bus assignments, bases and efficiencies", "why_tests_cant": "the number of components and busses is unbounded and the values are real", "anchors": ["src/tespy/tools/analyses.py: ExergyAnalysis.analyse", "src/tespy/tools/analyses.py: ExergyAnalysis.evaluate_busses"]}
{"id": "C58", "title": "Exergy destruction of the functional groups adds up to that of the network", "statement": "After an exergy analysis the exergy destruction of all functional groups sums up to the exergy destruction of the network.", "quantifier": "all networks, all groupings, all bus assignments and efficiencies", "why_tests_cant": "a sum over arbitrary partitions; marked as a to-do in the code", "anchors": ["src/tespy/tools/analyses.py: ExergyAnalysis.create_group_data", "src/tespy/tools/analyses.py: ExergyAnalysis.analyse"]}
{"id": "C59", "title": "Friction lowers the pressure in flow direction", "statement": "If a pipe or simple heat exchanger with a pressure loss specification (ks, ks_HW or zeta) is solved, the pressure falls in the direction of the mass flow, also for reversed mass flow.", "quantifier": "all states, geometries and friction factors", "why_tests_cant": "universal over states; the wrong solution branch is only reached from particular starting values", "anchors": ["src/tespy/components/heat_exchangers/simple.py:SimpleHeatExchanger.darcy_func", "src/tespy/components/heat_exchangers/simple.py:SimpleHeatExchanger.hazen_williams_func", "src/tespy/components/component.py:Component.zeta_func"]}
{"id": "C60", "title": "Combustion energy balance conserves enthalpy including formation enthalpies", "statement": "A combustion chamber satisfies its energy balance equation (lower heating value, reference state shifts) if and only if the flow enthalpies including formation enthalpies of the substances entering equal those leaving; for the diabatic chamber the reported efficiency and heat loss close the same balance.", "quantifier": "all compositions, mass flows, fuels, heating values computed from formation enthalpies, air ratios at least 1", "why_tests_cant": "The equation is written relative to reference states with a heating value; a numerical case with one fuel shows agreement for that fuel only.", "anchors": ["src/tespy/components/combustion/base.py: CombustionChamber.energy_balance_func, calc_lhv, calc_ti", "src/tespy/components/combustion/diabatic.py: DiabaticCombustionChamber.energy_balance_func, calc_parameters"]}
{"id": "C61", "title": "Design values are available in every off-design calculation", "statement": "In every off-design calculation each connection has the design values (mass flow, pressure, enthalpy, ...) of the file given by design_path, in the first and in all following off-design calculations, wherever the values are specified.", "quantifier": "all networks, all sequences of off-design calculations and changes of specifications in between", "why_tests_cant": "Sequences of calculations with specifications moved between connections.", "anchors": ["src/tespy/networks/network.py: Network.init_offdesign_params, init_conn_design_params, presolve_massflow_topology, solve"]}
{"id": "C62", "title": "Component variables are fixed in off-design calculations", "statement": "In off-design calculations component parameters specified as variables are no variables any more and have the values of the design point (as documented at init_offdesign).", "quantifier": "all components, parameters and lists", "why_tests_cant": "All combinations of lists and parameters.", "anchors": ["src/tespy/networks/network.py: Network.init_offdesign", "src/tespy/components/component.py: Component.preprocess"]}
{"id": "C63", "title": "Evaluating a compressor map does not change it", "statement": "The residuals a compressor contributes for specified characteristic maps of pressure ratio and isentropic efficiency depend on the current operating point only: evaluating them any number of times at the same operating point gives the same documented value, numerical derivatives for quantities they do not depend on vanish, and neither evaluation nor the check of parameter limits changes the map the user passed.", "quantifier": "all characteristic maps of any size, all operating points and inlet guide vane angles, any number of evaluations", "why_tests_cant": "The effect depends on the number of previous evaluations and on whether the operating point is at the edge of the map; tests evaluate maps inside their range or with guide vane angle 0.", "anchors": ["src/tespy/components/turbomachinery/compressor.py: Compressor.char_map_pr_func, char_map_eta_s_func, char_map_pr_deriv, check_parameter_bounds", "src/tespy/tools/characteristics.py: CharMap.evaluate_x, get_domain_errors_x"]}
{"id": "C64", "title": "The fluid search reaches exactly the connections a fluid gets to", "statement": "Starting at every source, cycle closer, electrolyzer or fuel cell outlet the search for fluid properties ends without error and collects every connection the fluid gets to through components, splitters, merges, drums and combustion chambers exactly once, and no others, however the network is looped.", "quantifier": "all accepted networks of any size, with loops, any order of components and connections", "why_tests_cant": "Traversal with visited marks on cyclic graphs with components that handle inlets differently; correctness depends on the global structure of the network.", "anchors": ["src/tespy/networks/network.py: Network.create_fluid_wrapper_branches", "src/tespy/components/component.py: Component.propagate_wrapper_to_target, start_fluid_wrapper_branch", "src/tespy/components/nodes/*.py, combustion/*.py, reactors/*.py: propagate_wrapper_to_target"]}
{"id": "C65", "title": "Groups of connections exchanging fluids are disjoint", "statement": "The connections collected from different starts are merged into groups such that every connection belongs to exactly one group and connections between which fluid passes belong to the same group.", "quantifier": "all accepted networks with any number of sources, in any order", "why_tests_cant": "Depends on the order in which overlapping branches are found and merged; small networks never show an overlap of more than two branches.", "anchors": ["src/tespy/networks/network.py: Network.create_fluid_wrapper_branches"]}
{"id": "C66", "title": "Connections exchanging fluids know the same fluids", "statement": "After the fluids have been distributed before a calculation, connections between which fluid passes know the same fluids and use the same mixing rule; specified mass fractions and starting values are kept, missing ones are filled with equal shares; an error is raised exactly if a group has no fluid or contradictory mixing rules.", "quantifier": "all accepted networks, all specifications of fluids, starting values, mixing rules", "why_tests_cant": "Ranges over all combinations of fluid specifications on all connections of arbitrary networks.", "anchors": ["src/tespy/networks/network.py: Network.create_fluid_wrapper_branches, propagate_fluid_wrappers", "src/tespy/connections/connection.py: Connection._create_fluid_wrapper"]}
{"id": "C67", "title": "Fluid property settings can be changed between calculations", "statement": "The property engine, back end and mixing rule used in a calculation are the ones specified last before it.", "quantifier": "all networks and all sequences of specifications and calculations", "why_tests_cant": "Depends on the history of calculations: settings of the first calculation are stored at every connection of the group.", "anchors": ["src/tespy/networks/network.py: Network.propagate_fluid_wrappers", "src/tespy/connections/connection.py: Connection._create_fluid_wrapper, set_attr"]}
{"id": "C68", "title": "Reported values satisfy the equations", "statement": "If a calculation is reported as converged, the reported values of all variables satisfy the equations within the tolerance of the solver.", "quantifier": "all systems of equations, starting values, iteration limits", "why_tests_cant": "The solver tests the residual before the last update and reports the values after it; only a proof over all equations tells when the last step may spoil the result.", "anchors": ["src/tespy/networks/network.py: Network.solve_loop, solve_control, update_variables, check_variable_bounds"]}
{"id": "C69", "title": "Checks between iterations change variables only", "statement": "The checks after every iteration (value ranges, limits of fluids, feasibility checks of components, normalisation of compositions) change variables of the calculation only; specified and presolved values are never changed, also if the checks fail with an exception.", "quantifier": "all networks, states, iterations, fluids", "why_tests_cant": "Checks act on shared data of several connections and depend on order and iteration; a test sees a few networks only.", "anchors": ["src/tespy/networks/network.py: Network.check_variable_bounds, check_connection_properties", "src/tespy/connections/connection.py: check_pressure_bounds, check_enthalpy_bounds, check_two_phase_bounds, check_temperature_bounds", "src/tespy/components/combustion/base.py: CombustionChamber.convergence_check", "src/tespy/components/turbomachinery: convergence_check of Compressor, Pump, Turbine"]}
{"id": "C70", "title": "Variables stay within their limits", "statement": "After the checks of an iteration all variables lie within the ranges of the network and the limits of the fluid; values within all limits are not changed; the checks terminate.", "quantifier": "all networks, states, fluids, limits and iterations", "why_tests_cant": "Limits depend on signs and magnitudes of enthalpies, on the iteration and on the kind of fluid; the search for the upper limit is an unbounded loop.", "anchors": ["src/tespy/networks/network.py: Network.check_connection_properties, check_variable_bounds, m_range, p_range, h_range", "src/tespy/connections/connection.py: check_pressure_bounds, check_enthalpy_bounds, check_two_phase_bounds"]}
{"id": "C71", "title": "Feasible order at turbomachines after their check", "statement": "After the feasibility check of a compressor or pump in the first iterations outlet pressure and enthalpy are not below the inlet values, for a turbine not above them; values in feasible order are not changed.", "quantifier": "all machines, all values, all choices of variables", "why_tests_cant": "Depends on signs of enthalpies and on which of the quantities are variables.", "anchors": ["src/tespy/components/turbomachinery/compressor.py: Compressor.convergence_check", "src/tespy/components/turbomachinery/pump.py: Pump.convergence_check", "src/tespy/components/turbomachinery/turbine.py: Turbine.convergence_check"]}
{"id": "C72", "title": "Check of combustions leaves valid compositions", "statement": "The feasibility check of combustion chambers and engines ends without exception, leaves mass fractions of the flue gas which are not negative and sum up to one, and does not depend on the order of the inlets.", "quantifier": "all states, inlets, fuels and histories of calculations", "why_tests_cant": "Depends on history (values of former calculations), on the order of the inlets and on the specified fractions.", "anchors": ["src/tespy/components/combustion/base.py: CombustionChamber.convergence_check"]}
{"id": "C73", "title": "Starting values leave fixed values alone", "statement": "The initialisation of starting values never changes a mass flow, pressure or enthalpy which is specified or has been found from the specifications before the calculation, whatever starting values, references, phases and files are given.", "quantifier": "all networks, specifications, starting values, files, fluids, also if the initialisation fails", "why_tests_cant": "The initialisation writes to data shared by several connections in two passes and depends on flags of each of them.", "anchors": ["src/tespy/networks/network.py: Network.init_properties, init_val0, init_precalc_properties, init_conn_params_from_path"]}
{"id": "C74", "title": "Choice of starting values", "statement": "Every variable has a number to start with. A starting value of the user is used as given, in the unit of the network. Otherwise the mass flow starts with a random value between 1 and 2 kg/s, pressure and enthalpy with the values documented for the components the connection is attached to.", "quantifier": "all networks, components, units, starting values", "why_tests_cant": "Depends on all combinations of components, units, specifications and on the simplification of branches.", "anchors": ["src/tespy/networks/network.py: Network.init_properties, init_val0, presolve_massflow_topology", "src/tespy/components: initialise_source, initialise_target"]}
{"id": "C75", "title": "init_path provides starting values only", "statement": "A calculation with init_path differs from one without only in the starting values of the variables: specified values, units and results of this and the next calculation are the same.", "quantifier": "all networks, files, unit systems of the files", "why_tests_cant": "The file may stem from any network with any unit system and the effect shows in the next calculation.", "anchors": ["src/tespy/networks/network.py: Network.init_conn_params_from_path, init_set_properties, solve", "src/tespy/connections/connection.py: Connection.calc_results"]}
{"id": "C76", "title": "init_previous=False starts without former results", "statement": "With init_previous=False the starting values do not depend on former calculations, neither on results nor on values left over by an aborted calculation.", "quantifier": "all networks and histories of calculations", "why_tests_cant": "Property of histories: former results may survive in any of several fields of the shared data.", "anchors": ["src/tespy/networks/network.py: Network.init_set_properties, init_properties, solve", "src/tespy/connections/connection.py: Connection.calc_results"]}
{"id": "C77", "title": "Every equation has its own row in every iteration", "statement": "In every iteration of a calculation the linear system which is solved contains every equation of the components, connections, busses with given value and user defined equations exactly once, with the residual and the derivatives this equation has in this iteration, whatever happened in earlier iterations or calculations.", "quantifier": "all networks, equations, sequences of iterations, earlier calculations", "why_tests_cant": "The rows depend on the sequence of all earlier iterations: residual vector and matrix are allocated once per calculation and the objects keep their derivatives.", "anchors": ["src/tespy/networks/network.py: Network.solve_loop, solve_control, solve_components, solve_connections, solve_busses, solve_user_defined_eq, solve_determination", "src/tespy/connections/bus.py: Bus.solve, clear_jacobian", "src/tespy/tools/helpers.py: UserDefinedEquation.solve", "src/tespy/components/component.py: Component.solve"]}
{"id": "C78", "title": "Fluid property wrappers are interchangeable and without memory", "statement": "The wrappers of all fluid property libraries return, for the same fluid and the same arguments, the same property in SI units, and a result does not depend on the properties calculated before; phase and vapour content agree with each other, isentropic changes of state keep the entropy, and the saturation temperature increases with pressure.", "quantifier": "all fluids and libraries, all arguments including supercritical ones, all sequences of earlier calls", "why_tests_cant": "The CoolProp wrapper keeps one state object which every call changes, and the unit conversions and the replacement of supercritical inputs must be right for all arguments.", "anchors": ["src/tespy/tools/fluid_properties/wrappers.py: CoolPropWrapper, IAPWSWrapper, PyromatWrapper, FluidPropertyWrapper"]}
{"id": "C79", "title": "States of mixtures from pressure and enthalpy", "statement": "Temperature, entropy, volume and viscosity of a mixture from pressure and enthalpy are those of the state with this enthalpy, the isentropic change of state keeps the entropy, the derivatives belong to these functions and do not change the composition, and every connection with a mixing rule can be given a volumetric flow; if there is no such state, this is reported.", "quantifier": "all mixtures, mixing rules, pressures, enthalpies, starting values", "why_tests_cant": "The temperature is found by an iteration of limited length whose starting values come from earlier results.", "anchors": ["src/tespy/tools/fluid_properties/functions.py: T_mix_ph, T_mix_ps, s_mix_ph, v_mix_ph, viscosity_mix_ph, isentropic, dT_mix_pdh, dT_mix_dph, dT_mix_ph_dfluid, dv_mix_dph, dv_mix_pdh", "src/tespy/tools/fluid_properties/helpers.py: inverse_temperature_mixture, get_mixture_temperature_range", "src/tespy/connections/connection.py: Connection.v_func, v_deriv"]}
{"id": "C80", "title": "Darcy friction factor of pipes", "statement": "For every Reynolds number, roughness and diameter the friction factor is computed without exception, is positive and follows the documented law of its flow regime; therefore the pressure of a pipe with the Darcy equation falls in the direction of the flow.", "quantifier": "all Reynolds numbers, roughnesses, diameters and states of the pipe", "why_tests_cant": "Two of the regimes are solved by an iteration of limited length over a continuum of parameters; the examples in the documentation cover one point per regime.", "anchors": ["src/tespy/tools/fluid_properties/helpers.py: darcy_friction_factor, blasius, hanakov, prandtl_karman, prandtl_karman_derivative, colebrook", "src/tespy/components/heat_exchangers/simple.py: SimpleHeatExchanger.darcy_func"]}
{"id": "C81", "title": "Energy flows, derivatives and entropy of combustion engines", "statement": "For every combustion engine whose equations are satisfied energy is conserved: thermal input and entering enthalpy equal power, heat of the two cooling loops, heat loss and leaving enthalpy; power, heat and heat loss have the shares of the thermal input which the characteristic lines prescribe at the load; specified values are reported unchanged and busses receive these energy flows. The Jacobian row of the energy balance holds its partial derivatives for every way of connecting the engine. The entropy production reported is not negative and is zero for reversible parts; the exergy balance is available.", "quantifier": "all fuels, compositions, states of the connections, characteristic lines, load points and ways of sharing mass flows between the connections", "why_tests_cant": "Tests solve a few engines with separate cooling loops; a conserved quantity, a derivative and the second law are statements about all states and all topologies.", "anchors": ["src/tespy/components/combustion/engine.py: CombustionEngine.energy_balance_func, energy_balance_deriv, tiP_char_func, Q1_char_func, Q2_char_func, Qloss_char_func, calc_P, calc_Qloss, bus_func, calc_parameters, entropy_balance, exergy_balance"]}
{"id": "C82", "title": "User defined equations: registry, connections and parameters", "statement": "After every sequence of creating, adding and deleting user defined equations the network holds exactly the equations added and not deleted, each label once; a failing call changes nothing. In every calculation a registered equation refers to the connections given by the user, in the given order, and a connection which is not part of the network is reported. Parameters of one equation are independent of those of other equations.", "quantifier": "all sequences of calls, all equations, networks and lists of connections, calls which raise exceptions included", "why_tests_cant": "Sharing of lists and dictionaries between objects and the state after failing calls depend on the history of calls; tests use one equation in one network.", "anchors": ["src/tespy/tools/helpers.py: UserDefinedEquation.__init__", "src/tespy/networks/network.py: Network.add_ude, Network.del_ude, Network.solve_determination"]}
{"id": "C83", "title": "Energy of fuel cells and water electrolyzers", "statement": "For every fuel cell and every electrolyzer whose equations are satisfied energy is conserved, counting formation enthalpies: the electrolyzer consumes its power P > 0, the fuel cell delivers -P > 0. Specified efficiency, specific energy and heat are reported as specified; busses receive power and heat. The Jacobian rows of these equations and the derivatives given to busses are the partial derivatives for every way of connecting the reactor.", "quantifier": "all states of the connections, molar masses, efficiencies, characteristics, bus parameters and ways of sharing mass flows between the connections", "why_tests_cant": "Tests and documentation examples compare single numbers which were computed with the same code (the documented fuel cell releases 642 kW heat and 200 kW power from 444 kW of hydrogen); conservation and derivatives are statements about all states.", "anchors": ["src/tespy/components/reactors/fuel_cell.py: FuelCell.calc_P, energy_balance_func, energy_balance_deriv, eta_func, heat_func, specific_energy_func, calc_parameters", "src/tespy/components/reactors/water_electrolyzer.py: WaterElectrolyzer.calc_P, energy_balance_func, energy_balance_deriv, eta_func, eta_char_func, heat_func, bus_func, bus_deriv, calc_parameters", "src/tespy/components/component.py: Component.bus_func"]}
{"id": "C84", "title": "Energy of solar collectors and parabolic troughs", "statement": "For every solar collector and parabolic trough whose energy group is satisfied the incident radiation is the sum of useful heat, radiation not absorbed and thermal loss, and Q and Q_loss are reported accordingly. With parameters within their bounds the fluid never gains more than the absorbed radiation, and heat losses flow from hot to cold. A collector with losses has one stagnation temperature below which it heats and above which it cools the fluid; a variable area is determined uniquely. The Jacobian row of the energy group holds the partial derivatives.", "quantifier": "all states, irradiances, areas, loss coefficients, ambient temperatures, incidence angles, and sets of variables", "why_tests_cant": "A test runs one collector with one set of coefficients; bounds on the gain, direction of losses, uniqueness and derivatives are statements about all states and parameters.", "anchors": ["src/tespy/components/heat_exchangers/solar_collector.py: SolarCollector.energy_group_func, energy_group_deriv, calc_parameters", "src/tespy/components/heat_exchangers/parabolic_trough.py: ParabolicTrough.energy_group_func, energy_group_deriv, calc_parameters"]}
{"id": "C85", "title": "Meaning and independence of the mandatory equations of two-stream components", "statement": "The mandatory equations of a valve, cycle closer, subsystem interface, heat exchanger, desuperheater and combustion chamber are satisfied if and only if the physical balances hold (equal enthalpies, equal states, energy balance, saturated gas at the outlet, mass, pressure and fluid balances). The equations announced by a merge are independent of each other for every pattern of specified compositions.", "quantifier": "all states of the connections, numbers of inlets and pairs, fluids and property functions", "why_tests_cant": "Tests solve single networks; equivalence of equations and balances, and independence of the rows, are statements about all states and all patterns of specified values.", "anchors": ["src/tespy/components/piping/valve.py: Valve.get_mandatory_constraints", "src/tespy/components/basics/cycle_closer.py: CycleCloser.get_mandatory_constraints", "src/tespy/components/basics/subsystem_interface.py: SubsystemInterface.get_mandatory_constraints", "src/tespy/components/heat_exchangers/base.py: HeatExchanger.energy_balance_func", "src/tespy/components/heat_exchangers/desuperheater.py: Desuperheater.saturated_gas_func", "src/tespy/components/combustion/base.py: CombustionChamber.mass_flow_func, combustion_pressure_func, get_mandatory_constraints", "src/tespy/components/nodes/merge.py: Merge.get_mandatory_constraints, fluid_func"]}
{"id": "C86", "title": "Wet expansion in steam turbines", "statement": "A steam turbine with eta_s_dry and alpha expands superheated steam with the dry efficiency; if the expansion enters the wet region, from saturation on with the efficiency reduced by alpha times the mean wetness (Baumann). Wet steam at the inlet is expanded with the efficiency reduced by the mean wetness of inlet and outlet. The outlet state exists and is unique, entropy does not decrease, the turbine delivers power, the reported isentropic efficiency is that of the whole expansion, and the equation can be evaluated in every iteration. Only pure fluids are accepted.", "quantifier": "all inlet states, outlet pressures and iterates of the outlet, all efficiencies between 0 and 1, all alpha, all fluids with divergent isobars and positive temperature", "why_tests_cant": "Tests expand water from a few states; uniqueness, the second law and the absence of exceptions are claims about all states the solver visits.", "anchors": ["src/tespy/components/turbomachinery/steam_turbine.py: SteamTurbine.eta_s_wet_func, eta_s_wet_deriv, preprocess, get_parameters", "src/tespy/components/turbomachinery/turbine.py: Turbine.calc_eta_s", "src/tespy/tools/fluid_properties/wrappers.py: CoolPropWrapper.h_pQ, phase_ph, Q_ph"]}
{"id": "C87", "title": "Functional groups and Grassmann diagram", "statement": "The exergy analysis reports for every functional group the exergy entering from other groups and busses, its exergy destruction, and as exergy output what leaves it. The flows of fuel, product and loss exergy are the balances of their busses. The input for the Grassmann (Sankey) diagram can be generated for every analysed network: groups which only pass on a flow are removed without changing what the other nodes receive and deliver, all links connect displayed nodes, and the links show the balance of every node.", "quantifier": "all assignments of components to functional groups and busses, all exergies, all thresholds and orders of nodes", "why_tests_cant": "Tests analyse a few plants; closing balances, termination of the recursive removal of groups and absence of exceptions are claims about all graphs of groups.", "anchors": ["src/tespy/tools/analyses.py: ExergyAnalysis.analyse, evaluate_busses, create_group_data, calculate_group_input_value, single_group_input, remove_transit_groups, generate_plotly_sankey_input"]}
{"id": "C88", "title": "Specifications of heat exchangers determine the heat transferred", "statement": "With known inlets and outlet pressures, one specification of a two-sided heat exchanger (ttd_u, ttd_l, ttd_min, eff_cold, eff_hot, eff_max or kA) determines the state of both outlets, whatever the fluids. A positive kA always has a solution. An effectiveness between 0 and 1 or a positive terminal temperature difference excludes states which violate the second law.", "quantifier": "all mass flows, inlet states, temperature-enthalpy curves (monotone, with or without phase change) and parameter values", "why_tests_cant": "Tests solve single heat exchangers; that no second solution exists and that a solution exists are claims about all fluids and values.", "anchors": ["src/tespy/components/heat_exchangers/base.py: HeatExchanger.energy_balance_hot_func, calculate_td_log, kA_func, ttd_u_func, ttd_l_func, ttd_min_func, calc_dh_max_cold, calc_dh_max_hot, eff_cold_func, eff_cold_deriv, eff_hot_func, eff_hot_deriv, eff_max_func"]}
{"id": "C89", "title": "Chemical exergy", "statement": "The chemical exergy of a stream is that of its species in the table less the exergy lost by mixing, with the water condensed which is not vapour at ambient state; that of a pure fluid is the value of its reference phase. It does not depend on how fluids are named. Mixing destroys chemical exergy, and the exergy of a stream is not negative. It is available for all streams whose species are in the table.", "quantifier": "all compositions, ambient states, tables, names of fluids and mixing rules", "why_tests_cant": "Tests compare a few streams with reference values; signs and the second law are claims about all compositions and ambient states.", "anchors": ["src/tespy/tools/fluid_properties/functions.py: calc_chemical_exergy", "src/tespy/tools/fluid_properties/mixtures.py: exergy_chemical_ideal_cond, cond_check, EXERGY_CHEMICAL", "src/tespy/connections/connection.py: Connection.get_chemical_exergy", "src/tespy/tools/helpers.py: get_chem_ex_lib"]}
{"id": "C90", "title": "Rows with numerical derivatives name every variable the equation depends on", "statement": "For every parameter equation whose derivatives are calculated numerically (heat transfer, terminal temperature differences, effectiveness, pressure loss, efficiencies, characteristics and maps, pinch and UA of moving boundary heat exchangers) the row of the Jacobian has an entry for every variable the residual changes with, every entry is the partial derivative or the central difference quotient of the residual, and quantities the residual does not depend on have no entry or zero.", "quantifier": "all states, variables, components and choices of characteristic parameters, all fluid property functions", "why_tests_cant": "Tests solve single cases; a missing or wrong entry only slows down or breaks convergence for some states and choices, and whether a residual depends on a variable is a claim about all states.", "anchors": ["src/tespy/components/component.py: Component.get_char_expr, zeta_func, zeta_deriv, is_variable", "src/tespy/components/heat_exchangers/base.py: kA_func, kA_deriv, kA_char_func, kA_char_deriv, ttd_u_deriv, ttd_l_deriv, ttd_min_deriv, eff_cold_deriv, eff_hot_deriv, eff_max_deriv", "src/tespy/components/heat_exchangers/condenser.py: subcooling_func, subcooling_deriv, calculate_td_log", "src/tespy/components/heat_exchangers/desuperheater.py: saturated_gas_deriv", "src/tespy/components/heat_exchangers/movingboundary.py: UA_func, UA_deriv, td_pinch_func, td_pinch_deriv", "src/tespy/components/heat_exchangers/simple.py: darcy_deriv, hazen_williams_deriv, kA_group_deriv, kA_char_group_func, kA_char_group_deriv", "src/tespy/components/piping/valve.py: dp_char_func, dp_char_deriv", "src/tespy/components/reactors/water_electrolyzer.py: eta_char_func, eta_char_deriv", "src/tespy/components/turbomachinery: eta_s_deriv, eta_s_char_deriv, flow_char_func, flow_char_deriv, char_map_pr_deriv, char_map_eta_s_deriv, cone_deriv, eta_s_wet_deriv", "src/tespy/tools/helpers.py: _numeric_deriv"]}
{"id": "C91", "title": "Rows of combustion chambers are the derivatives of their equations", "statement": "For the combustion chambers every row of the Jacobian (reaction balance of every fluid, energy balance, specified air ratio, specified thermal input) and the row of an energy bus with the chamber has an entry for every mass flow, pressure, enthalpy and mass fraction the equation changes with, and the value left in the row is the partial derivative (for equations which are not linear the documented central difference quotient).", "quantifier": "all chambers with any number of inlets, all reactions, states, compositions and choices of variables, with or without specified air ratio", "why_tests_cant": "Tests solve a few chambers with given fuel and air; missing, halved or doubled entries only change how the iteration converges, and only for some choices of variables and connections.", "anchors": ["src/tespy/components/combustion/base.py: stoichiometry, stoichiometry_deriv, energy_balance_func, energy_balance_deriv, lambda_func, lambda_deriv, ti_func, ti_deriv, bus_func, bus_deriv", "src/tespy/components/combustion/diabatic.py: energy_balance_func", "src/tespy/tools/helpers.py: _numeric_deriv", "src/tespy/networks/network.py: presolve_fluid_topology"]}
{"id": "C92", "title": "Values specified for components are not changed by a calculation", "statement": "A value given for a parameter of a component (efficiency, pressure ratio, heat, kA, ...) is still the value of that parameter after solve, so that calling solve again, or changing another specification and calling solve, treats the problem the user stated.", "quantifier": "all end states of heat exchangers, condensers, pumps, compressors, turbines, valves, simple heat exchangers, pipes, fuel cells and electrolyzers, all specified values and all sequences of solve calls, converged or not", "why_tests_cant": "Tests look at converged calculations to a tolerance; the value written back after an unconverged calculation, and the states in which result and equation are defined differently, do not occur in them.", "anchors": ["src/tespy/networks/network.py: solve, postprocessing, process_components", "src/tespy/components/heat_exchangers/base.py: calc_parameters", "src/tespy/components/heat_exchangers/condenser.py: calc_parameters", "src/tespy/components/heat_exchangers/simple.py: calc_parameters", "src/tespy/components/turbomachinery/base.py: calc_parameters", "src/tespy/components/turbomachinery/pump.py: calc_parameters", "src/tespy/components/turbomachinery/turbine.py: calc_parameters", "src/tespy/components/piping/valve.py: calc_parameters", "src/tespy/components/reactors/water_electrolyzer.py: calc_parameters", "src/tespy/components/reactors/fuel_cell.py: calc_parameters"]}
{"id": "C93", "title": "Solved characteristic equations mean what the documentation says", "statement": "If an off-design equation with a characteristic line or map is satisfied, the quantity it governs (pressure rise, pressure drop, isentropic efficiency, heat transfer coefficient, electrolyzer efficiency, pressure ratio) is the value of the characteristic (times the design value) at the load, where the load is the chosen quantity (mass flow at inlet or outlet, volumetric flow, pressure ratio) relative to the design case or absolute.", "quantifier": "all states, characteristics, design values, choices of the load parameter, its type and the connections", "why_tests_cant": "Tests compare a few calculations with characteristics; the meaning of the load and of the equation for all states, the choice of connection and the behaviour at zero load are not covered.", "anchors": ["src/tespy/components/component.py: get_char_expr", "src/tespy/components/turbomachinery/pump.py: eta_s_char_func, flow_char_func", "src/tespy/components/turbomachinery/compressor.py: eta_s_char_func, char_map_pr_func, char_map_eta_s_func", "src/tespy/components/turbomachinery/turbine.py: eta_s_char_func", "src/tespy/components/piping/valve.py: dp_char_func", "src/tespy/components/heat_exchangers/base.py: kA_char_func", "src/tespy/components/heat_exchangers/condenser.py: kA_char_func", "src/tespy/components/heat_exchangers/simple.py: kA_char_group_func", "src/tespy/components/heat_exchangers/movingboundary.py: _get_h_steps", "src/tespy/components/reactors/water_electrolyzer.py: eta_char_func"]}
{"id": "C94", "title": "After a calculation the result tables describe the network", "statement": "After a completed calculation the tables of results have exactly one row per connection, per component (in the table of its class) and per component of a bus, holding the values of this calculation; parameters that have neither equation nor specification nor are mere results are nan; the value of a bus is the sum of its rows. This holds whatever was added, removed, replaced or calculated (successfully or not) before. At any time a row belongs to an object that is part of the network.", "quantifier": "all histories of add_conns, del_conns, add_busses, del_busses, adding components to busses and calculations ending in any of their possible ways, all values of a calculation", "why_tests_cant": "Tests read single values from the tables of a network that was built once; stale rows, rows of replaced objects and name clashes depend on the history of calls.", "anchors": ["src/tespy/networks/network.py: initialise, check_network, create_component_df_by_type, add_conns, del_conns, del_comps, add_busses, del_busses, postprocessing, process_connections, process_components, process_busses, results"]}
{"id": "C95", "title": "Mass and energy balances of whole networks and circuits close", "statement": "In a solved network, for the whole network and for every circuit in it (a set of connections closed under what the components let through): the mass flow leaving sources equals the mass flow arriving at sinks; the energy flow at sinks is the energy flow at sources plus the power and heat transferred to the circuit in its components as reported; fluids that do not react are conserved. In a closed circuit with a cycle closer the mass flow on both sides of the cycle closer agrees although no equation demands it, and the powers and heats of the circuit sum to zero (first law).", "quantifier": "all networks of any size and topology made of the 27 component classes with any connections, all circuits, all solutions of the mandatory equations, all property functions", "why_tests_cant": "Tests compare a few numbers of a few plants; a balance over all connections of any network needs an argument over arbitrary topologies, and the equations never state it.", "anchors": ["src/tespy/networks/network.py: solve_loop, postprocessing", "src/tespy/components/component.py: get_mandatory_constraints", "src/tespy/components/basics/cycle_closer.py: CycleCloser.get_mandatory_constraints", "src/tespy/components/nodes/base.py: NodeBase.mass_flow_func", "src/tespy/components/heat_exchangers/base.py: energy_balance_func, calc_parameters", "src/tespy/components/turbomachinery/base.py: calc_parameters"]}
{"id": "C96", "title": "The values reported for a connection describe its state", "statement": "After a calculation the temperature, specific volume, volumetric flow, entropy, quality, distance to the boiling point and phase reported for a connection are those of its mass flow, pressure, enthalpy and composition, whatever was reported before; specified values are reported as specified. Every value is given in the unit selected, so converting it back gives the SI value. The next calculation starts at these results.", "quantifier": "all connections, pure fluids and mixtures, all states, all earlier results, all property libraries including ones raising ValueError or NotImplementedError, all units", "why_tests_cant": "The values left over from earlier calculations, the failures of the property library and the starting temperature of the mixture inversion form an unbounded input space; tests compare some values of some converged plants.", "anchors": ["src/tespy/connections/connection.py: Connection.calc_results, calc_T, calc_x, calc_phase, calc_Td_bp, calc_vol, calc_s", "src/tespy/networks/network.py: init_set_properties, init_properties", "src/tespy/tools/fluid_properties/functions.py: T_mix_ph, v_mix_ph, s_mix_ph, Q_mix_ph, phase_mix_ph, T_sat_p", "src/tespy/tools/helpers.py: convert_from_SI, convert_to_SI"]}
{"id": "C97", "title": "Solving a solved network again leaves it unchanged", "statement": "If the calculation of a network starts at values which satisfy all equations, with starting values of an earlier calculation, the calculation ends after the demanded minimum number of iterations, is reported as converged and has not changed any value.", "quantifier": "all networks, numbers of variables, equations with invertible jacobian, all solutions, all minimum and maximum numbers of iterations", "why_tests_cant": "Re-solving is what every parameter study and every optimisation does; whether a correction of the values interferes depends on every state of every component, which no finite set of plants covers.", "anchors": ["src/tespy/networks/network.py: Network.solve_loop, solve_control, matrix_inversion, update_variables, check_variable_bounds, check_connection_properties", "src/tespy/components/combustion/base.py: convergence_check", "src/tespy/components/turbomachinery/pump.py: convergence_check", "src/tespy/components/turbomachinery/turbine.py: convergence_check", "src/tespy/components/turbomachinery/compressor.py: convergence_check"]}
{"id": "C98", "title": "The course of the calculation depends neither on the order nor on the scale of the equations", "statement": "The order in which equations and variables are numbered and factors multiplied to equations change neither the values of any iteration nor the result and verdict of the calculation; linear equations are solved exactly from any starting values.", "quantifier": "all networks, numbers of variables, permutations of equations and variables, non-zero factors, all linear systems with invertible matrix", "why_tests_cant": "The order follows from the order of specifications and the scale from user-defined equations; the permutations and factors are unbounded.", "anchors": ["src/tespy/networks/network.py: Network.solve_loop, solve_control, matrix_inversion, update_variables, check_variable_bounds, solve_user_defined_eq", "src/tespy/components/turbomachinery/compressor.py: convergence_check"]}
{"id": "C99", "title": "Combustion chambers recognise fuels and gases under each of their names", "statement": "A combustion chamber or engine takes exactly those fluids at its connections for fuels which have a name of one of the six fuels; it demands oxygen, carbon dioxide, water and nitrogen under any of their names; it reads the chemical formula as written and derives the lower heating value from the formation enthalpies; and a chamber accepted in this way can be calculated.", "quantifier": "all sets of fluid names, tables of names, chemical formulas of any length and numbers of any size, molar masses, compositions and mass flows of the inlets", "why_tests_cant": "The names come from the user and from the tables of the property library; combinations of names, formulas and component connections are unbounded and tests use one name per fluid.", "anchors": ["src/tespy/components/combustion/base.py: CombustionChamber.setup_reaction_parameters, calc_lhv, start_branch, stoichiometry", "src/tespy/components/combustion/engine.py: CombustionEngine.preprocess", "src/tespy/tools/fluid_properties/helpers.py: fluid_structure", "src/tespy/tools/helpers.py: fluidalias_in_list", "src/tespy/tools/global_vars.py: combustion_gases"]}
{"id": "C100", "title": "From starting values close to a regular solution the calculation converges to it", "statement": "If a network has a solution at which the equations are differentiable with an invertible jacobian and no limit is active, there is a distance within which every calculation converges to this solution: each iteration multiplies the error by a factor below one, the error is squared if the derivatives are exact, convergence is reported after a number of iterations which the factor determines, the reported values differ from the solution by at most that power of the factor, values which are no variables are not changed, and no other solution lies within the distance.", "quantifier": "all networks with any number of variables and equations (residual functions over the real numbers, jacobians with any bounded error of numerical derivatives), all starting values within the distance, all minimum and maximum numbers of iterations and tolerances", "why_tests_cant": "Starting values form a continuum and the distance depends on curvature, conditioning and derivative errors of the equations; tests start from a few values of single networks.", "anchors": ["src/tespy/networks/network.py: Network.solve_loop, solve_control, matrix_inversion, update_variables, check_variable_bounds"]}
{"id": "C101", "title": "Connections lead from an outlet to an inlet and objects are found under their labels", "statement": "A connection is created exactly if it leads from an existing outlet of one component to an existing inlet of another one; connections between different connectors have different default labels; after any history of additions, deletions and calculations get_conn and get_comp return the object of the network with the label and nothing for other labels; adding a subsystem is adding its connections.", "quantifier": "all arguments of the constructors, all labels, all components with any number of connectors, all histories of calls of any length including failing ones", "why_tests_cant": "Histories of calls and texts are unbounded; tests add and look up a handful of objects.", "anchors": ["src/tespy/connections/connection.py: Connection.__init__, _check_types, _check_self_connect, _check_connector_id", "src/tespy/networks/network.py: Network.get_conn, get_comp, add_subsys, add_conns, del_conns", "src/tespy/components/component.py: Component.__init__", "src/tespy/components/subsystem.py: Subsystem"]}
{"id": "C102", "title": "Rows of combustion engines are the derivatives of their equations", "statement": "For combustion engines the rows of the Jacobian for the specified heat of the cooling loops and for the four characteristic lines (power, heat of both loops, heat loss), and the row of a bus with the thermal input, the power, the heat or the heat loss of the engine, have an entry for every mass flow, enthalpy, mass fraction and component variable the equation changes with, and the value left in the row is the partial derivative.", "quantifier": "all reactions, characteristic lines, states, choices of variables, ways of connecting the engine, and conversion factors of the bus", "why_tests_cant": "Tests solve engines with parallel cooling loops; a doubled or halved entry only changes how the iteration converges, and only for some connections.", "anchors": ["src/tespy/components/combustion/engine.py: Q1_func, Q1_deriv, Q2_func, Q2_deriv, tiP_char_func, tiP_char_deriv, Q1_char_func, Q1_char_deriv, Q2_char_func, Q2_char_deriv, Qloss_char_func, Qloss_char_deriv, bus_func, bus_deriv", "src/tespy/tools/helpers.py: _numeric_deriv"]}
{"id": "C103", "title": "Every specification of a connection takes exactly one degree of freedom", "statement": "Every value and every reference a user specifies for a property of a connection with set_attr lowers the number of variables minus the number of equations of the next calculation by exactly one, None gives it back, and no other keyword changes the number.", "quantifier": "all sequences of calls of set_attr on a connection, all values, all fluid property functions", "why_tests_cant": "Tests specify a few combinations of properties; a specification which is ignored only shows as a result different from what was asked for.", "anchors": ["src/tespy/connections/connection.py: Connection.set_attr, _parameter_specification, get_parameters, preprocess, simplify_specifications", "src/tespy/networks/network.py: Network._assign_variable_space"]}
{"id": "C104", "title": "Every value specified for a component takes part in the calculation", "statement": "For every class of components, a number specified for a property adds exactly its equation and the equations of the groups of parameters it completes to the calculation; specified as variable it adds one variable as well; power and heat loss of engines, fuel cells and electrolyzers stop being variables; and there is no property that is accepted and then ignored.", "quantifier": "all component classes, all their parameters, all states of the other specifications, all numbers", "why_tests_cant": "There are 28 classes with up to 30 parameters; a parameter without an equation is accepted without any message and only shows as a result that does not match.", "anchors": ["src/tespy/components/component.py: Component.set_attr, Component.preprocess", "src/tespy/components: get_parameters of every class", "src/tespy/components/combustion/engine.py: preprocess", "src/tespy/components/reactors/fuel_cell.py: preprocess", "src/tespy/components/reactors/water_electrolyzer.py: preprocess", "src/tespy/components/heat_exchangers/condenser.py: preprocess"]}
{"id": "C105", "title": "Printed results are the results of the calculation", "statement": "After a successful calculation, print_results shows one table per class of components, one table of connections and one per bus, each with exactly one row for every object whose printout is switched on and with the values of this calculation; values beyond their limits, variables and specified values are coloured; the total of a bus is the sum of its rows. Without results there is an error.", "quantifier": "all histories of adding and deleting connections and busses and of calculations ending in any way, all values, all choices of printout, all specifications at the time of the printout, coloured or not", "why_tests_cant": "The printout depends on the history of the network, on the objects at the time of the printout and on labels chosen by the user; tests print single networks and do not look at the output.", "anchors": ["src/tespy/networks/network.py: Network.print_results, Network.print_components, Network.postprocessing, Network.get_comp, Network.get_conn"]}
{"id": "C106", "title": "Information on the iterations tells how the calculation goes", "statement": "During solve every iteration prints one line, numbered from 1, and the total printed at the end is the number of lines. The progress is a percentage that never falls when the residual falls and shows 100 % exactly for residuals up to the tolerance; every variable counts in exactly one of the columns, the component variables in the last one. 100 % in the lines means that the calculation converged, and the warning about the maximum number of iterations that it did not.", "quantifier": "all sequences of residuals (with NaN) and linear dependencies, all increments, all sets of variables, all limits for the number of iterations, all positive tolerances below one", "why_tests_cant": "The lines depend on the whole sequence of residuals; tests do not look at the printout.", "anchors": ["src/tespy/networks/network.py: Network.iterinfo_body, Network.iterinfo_tail, Network.solve_loop, Network._convergence_check"]}
{"id": "C107", "title": "Entropy balances of components follow the second law", "statement": "entropy_balance of a component provides its entropy production: that of all its streams less the entropy transferred with heat. It is not negative for valves and heat exchangers whose pressures fall and whose hot stream is nowhere colder than the cold one, for merges, and for turbomachines exactly with an isentropic efficiency of at most one; the mean temperature of the heat lies between the temperatures of the stream. It works for every component that has one.", "quantifier": "all fluids obeying the second law and stability, all states, mass flows, numbers of inlets, compositions", "why_tests_cant": "The second law has to hold for every fluid and every state; tests compare single states with stored numbers or call no entropy balance at all.", "anchors": ["src/tespy/components/turbomachinery/base.py: Turbomachine.entropy_balance", "src/tespy/components/piping/valve.py: Valve.entropy_balance", "src/tespy/components/heat_exchangers/simple.py: SimpleHeatExchanger.entropy_balance", "src/tespy/components/heat_exchangers/base.py: HeatExchanger.entropy_balance", "src/tespy/components/nodes/merge.py: Merge.entropy_balance", "src/tespy/components/combustion/base.py: CombustionChamber.entropy_balance"]}
{"id": "C108", "title": "An off-design calculation uses the design values stored for each component, connection and bus", "statement": "With mode offdesign every component takes the design values stored under its label for its class in its own design_path, or in that of the calculation; connections take theirs in SI, converted with the units stored with them, and busses those of their components. Loading what save has written for the same network succeeds and provides the saved values. With local_offdesign a design calculation takes them from the own design_path. Missing and surplus components and connections are noticed.", "quantifier": "all networks, labels, classes, directories and contents of the files", "why_tests_cant": "Labels, classes, individual paths and contents of the files combine freely; tests load a few networks whose files match.", "anchors": ["src/tespy/networks/network.py: Network.init_offdesign_params", "src/tespy/networks/network.py: Network.init_conn_design_params", "src/tespy/networks/network.py: Network.init_comp_design_params", "src/tespy/networks/network.py: Network.init_design", "src/tespy/networks/network.py: Network.init_read_connections", "src/tespy/networks/network.py: Network.save_components", "src/tespy/components/component.py: Component.set_parameters"]}
{"id": "C109", "title": "Default characteristics are valid, neutral at the design point and physically meaningful at every load", "statement": "A component parameter that is a characteristic, and for which the user gives none, gets a default that can be evaluated at every load: it is 1 at the design load, so that the off-design equations hold at the design state, efficiencies never exceed their design value, heat transfer coefficients stay positive and never decrease with the load, and the shares of a combustion engine never add up to more than the heat of its fuel. A derived class uses the default of the class it is derived from. A characteristic the user gives is never replaced.", "quantifier": "all component classes with characteristics, all characteristics of the package, all real loads (also outside of the tabulated range)", "why_tests_cant": "Loads are real numbers and unbounded; tests evaluate a few defaults at single loads.", "anchors": ["src/tespy/components/component.py: Component.preprocess", "src/tespy/tools/characteristics.py: load_default_char", "src/tespy/tools/characteristics.py: load_custom_char", "src/tespy/data/char_lines.json", "src/tespy/data/char_maps.json"]}
{"id": "C110", "title": "The LaTeX report documents a model completely and consistently", "statement": "document_model makes a report for every solved network and every path. Each specification of the user appears in it with its value: connection properties, references, fluids, component parameters and groups, totals of busses; results differ from specifications in print, each link has its target exactly once, and each figure that the report includes is a file written next to it, one per characteristic. The total of a bus is the sum of the values of its components on the bus.", "quantifier": "all networks (connections, references, fluids, user defined equations, component classes with any parameters, groups and characteristics, busses), all formats, all paths, all contents of the working directory", "why_tests_cant": "A test looks at one plant and that a file is created; whether a specification is left out, a link dangles or a figure is written elsewhere depends on the classes, labels and the path.", "anchors": ["src/tespy/tools/document_models.py: document_model", "src/tespy/tools/document_models.py: document_connections", "src/tespy/tools/document_models.py: document_ude", "src/tespy/tools/document_models.py: document_components", "src/tespy/tools/document_models.py: get_component_specifications", "src/tespy/tools/document_models.py: document_busses", "src/tespy/connections/connection.py: Ref", "src/tespy/components/combustion/engine.py: CombustionEngine.get_mandatory_constraints"]}
{"id": "C111", "title": "The equations shown in the report are the equations that are solved", "statement": "Each equation printed in the LaTeX report for a component, a node or a connection is satisfied by a state exactly if the solver accepts that state for the corresponding specification, i.e. if the residual is zero. A user who checks a solution by hand with the printed formulas gets the same verdict as the solver.", "quantifier": "all states (mass flows, pressures, enthalpies, temperatures, volumes, compositions), all parameters and values of characteristic lines, any number of inlets and outlets of nodes, any set of fuels", "why_tests_cant": "A test can compare the printed text with a stored text, not its meaning; two formulas agree or not for all values of their symbols.", "anchors": ["src/tespy/components/component.py: Component.zeta_func_doc", "src/tespy/components/turbomachinery/turbine.py: Turbine.cone_func_doc", "src/tespy/components/heat_exchangers/base.py: HeatExchanger.kA_func_doc", "src/tespy/components/heat_exchangers/simple.py: SimpleHeatExchanger.hazen_williams_func_doc", "src/tespy/components/heat_exchangers/simple.py: SimpleHeatExchanger.kA_group_func_doc", "src/tespy/components/combustion/base.py: CombustionChamber.lambda_func_doc", "src/tespy/components/combustion/base.py: CombustionChamber.stoichiometry_func_doc", "src/tespy/components/combustion/engine.py: CombustionEngine.Q1_func_doc", "src/tespy/components/reactors/water_electrolyzer.py: WaterElectrolyzer.energy_balance_func_doc", "src/tespy/components/reactors/fuel_cell.py: FuelCell.mass_flow_func_doc", "src/tespy/components/nodes/separator.py: Separator.fluid_func_doc", "src/tespy/tools/global_vars.py: fluid_property_data", "src/tespy/tools/document_models.py: document_connection_ref"]}
{"id": "C112", "title": "Data for diagrams connect the states at the inlets and outlets of a component", "statement": "For every component a fluid flows through, get_plotting_data gives the lines of the changes of state in the component: each line starts and ends at the reported states of two connections of the component, the first level key is the number of the connector ('in1' -> 'out1' has the key 1, and so on), every inlet and outlet is the end of a line, and the property of the isoline has the same value at both ends where the equations of the component demand that.", "quantifier": "all networks that pass the checks, all component classes, any number of inlets of merges, any order in which connections were added, all results", "why_tests_cant": "The position of a connection depends on the names of all connectors as text; a test has a merge with two or three inlets, the keys are permuted from ten inlets on.", "anchors": ["src/tespy/components/turbomachinery/base.py: Turbomachine.get_plotting_data", "src/tespy/components/heat_exchangers/base.py: HeatExchanger.get_plotting_data", "src/tespy/components/heat_exchangers/simple.py: SimpleHeatExchanger.get_plotting_data", "src/tespy/components/piping/valve.py: Valve.get_plotting_data", "src/tespy/components/nodes/merge.py: Merge.get_plotting_data", "src/tespy/components/nodes/droplet_separator.py: DropletSeparator.get_plotting_data", "src/tespy/components/nodes/drum.py: Drum.get_plotting_data", "src/tespy/components/component.py: Component.get_plotting_data", "src/tespy/networks/network.py: Network.init_components"]}
{"id": "C113", "title": "The kind of fluid of a stream in the Grassmann diagram is that of the fluids it contains", "statement": "In the data of the Grassmann diagram every stream of matter has one of four kinds: it is a combustion gas exactly if it contains a fluid with the name of a fuel, incompressible exactly if it consists of one fluid which is incompressible, a two-phase fluid if it consists of one other fluid, and a gas which is no fuel otherwise. The kind does not depend on the order in which fluids were specified nor on fluids with a mass fraction below 0.000001.", "quantifier": "all compositions of any number of fluids, in any order, and all names CoolProp has for them", "why_tests_cant": "Compositions are unbounded and the loop over a mixture stops at the first fuel; tests have one composition per kind.", "anchors": ["src/tespy/tools/analyses.py: categorize_fluids", "src/tespy/tools/fluid_properties/helpers.py: single_fluid", "src/tespy/tools/helpers.py: fluidalias_in_list", "src/tespy/tools/global_vars.py: combustion_gases"]}
{"id": "C114", "title": "The cone law of a turbine determines the mass flow and the inlet pressure", "statement": "In an off-design calculation with the cone law every solved state of a turbine is on Stodola's ellipse through the design case: m\u00b2 p1 v1 / (p1\u00b2 - p2\u00b2) has the value of the design case. The flow is never backwards, is zero exactly at equal pressures, grows with the inlet pressure and falls with the outlet pressure at equal p1 v1, and for every mass flow and outlet pressure there is exactly one inlet pressure.", "quantifier": "all design cases with an expansion, all states with positive pressures and volumes, all mass flows", "why_tests_cant": "The equation contains roots and an absolute value of real numbers; a test checks one off-design point per turbine.", "anchors": ["src/tespy/components/turbomachinery/turbine.py: Turbine.cone_func"]}
{"id": "C115", "title": "Air ratio and thermal input of a combustion chamber fix the flows of air and fuel", "statement": "For given compositions, specifying lambda at a combustion chamber leaves exactly one flow of air for given fuel streams, and specifying the thermal input leaves exactly one flow of fuel. The equations and results do not depend on which inlet a stream is connected to, nor on whether streams are mixed before they enter.", "quantifier": "all reaction data, all numbers and compositions of inlet streams, all orders of the inlets, all specified values", "why_tests_cant": "The compositions, flows and numbers of fuels are unbounded; tests run a few mixtures with excess air and one order of inlets.", "anchors": ["src/tespy/components/combustion/base.py: CombustionChamber.calc_lambda", "src/tespy/components/combustion/base.py: CombustionChamber.lambda_func", "src/tespy/components/combustion/base.py: CombustionChamber.stoichiometry", "src/tespy/components/combustion/base.py: CombustionChamber.calc_ti"]}
{"id": "C116", "title": "Droplet separators and drums divide a flow by its vapour content", "statement": "In every solved state of a droplet separator the share of the inlet flow leaving as steam is the vapour content of the inlet and the rest leaves as saturated liquid, so that both outlets carry flow in flow direction. A drum releases as steam what its inlets bring above saturated liquid; with a circulation of constant flow it turns the whole feed into steam, the circulation comes back above saturated liquid exactly if the feed is below saturated steam, and its flow follows from the feed and the states.", "quantifier": "all fluid property functions, all solved states of the component, with own or shared mass flows of feed and circulation", "why_tests_cant": "The states and saturation properties are arbitrary real numbers; tests solve one example per component.", "anchors": ["src/tespy/components/nodes/droplet_separator.py: DropletSeparator.energy_balance_func", "src/tespy/components/nodes/droplet_separator.py: DropletSeparator.outlet_states_func", "src/tespy/components/nodes/drum.py: Drum.mass_flow_func", "src/tespy/components/nodes/drum.py: Drum.energy_balance_func"]}
{"id": "C117", "title": "A pump with a characteristic line has one operating point against a resistance", "statement": "A pump with a flow characteristic that feeds a component with a zeta value through one circuit has one operating point: all solved states with the same resistance, the same pressure to overcome and the same specific volumes have the same flow. A larger resistance or a higher pressure to overcome gives a smaller flow.", "quantifier": "all characteristic lines with at least one point, all resistances, pressures, specific volumes and flow directions, all pairs of solved states", "why_tests_cant": "Uniqueness compares all pairs of solved states over all lines; a test finds one solution from one starting point.", "anchors": ["src/tespy/components/turbomachinery/pump.py: Pump.flow_char_func", "src/tespy/components/component.py: Component.get_char_expr", "src/tespy/components/component.py: Component.zeta_func", "src/tespy/tools/characteristics.py: CharLine.evaluate"]}
{"id": "C118", "title": "The flow through parallel branches is distributed in one way", "statement": "If a flow divides into any number of parallel branches with zeta values between two nodes, the total flow determines the flow in every branch and the loss of pressure; with a larger total flow every branch carries more and the loss is larger. All branches flow towards the lower pressure, the squares of their flows in the inverse ratio of resistance times specific volume. Resistances in series add.", "quantifier": "any number of branches, all positive resistances, specific volumes, pressures and flow directions, all pairs of solved states", "why_tests_cant": "The number of branches is unbounded and uniqueness compares all pairs of solved states; tests solve one network from one starting point.", "anchors": ["src/tespy/components/component.py: Component.zeta_func", "src/tespy/components/nodes/splitter.py: Splitter", "src/tespy/components/nodes/merge.py: Merge", "src/tespy/components/nodes/base.py: NodeBase.pressure_equality_func"]}
{"id": "C119", "title": "Machines divided into stages", "statement": "A turbine, pump or compressor divided into stages has the efficiency of its stages: a series of any number of stages with one isentropic efficiency gives the outlet state and the total power of one machine with this efficiency between the same pressures.", "quantifier": "all fluids whose entropy rises with enthalpy and whose isentropes diverge, all numbers of stages, pressures, efficiencies from 0 to 1 and inlet states", "why_tests_cant": "The number of stages is unbounded and fluid, pressures and efficiency are arbitrary; tests compute single machines with one fluid.", "anchors": ["src/tespy/components/turbomachinery/turbine.py: Turbine.eta_s_func", "src/tespy/components/turbomachinery/pump.py: Pump.eta_s_func", "src/tespy/components/turbomachinery/compressor.py: Compressor.eta_s_func", "src/tespy/components/turbomachinery/base.py: Turbomachine.calc_parameters"]}
{"id": "C120", "title": "Pipes divided into sections", "statement": "A pipe may be modelled as a series of sections: any number of pipes in series with one diameter and friction, or in one environment, have the pressure loss and the heat loss of a single pipe with their total length and total heat transfer coefficient.", "quantifier": "any number of sections with any lengths and heat transfer coefficients, all states at their ends with one mass flow, one specific volume (pressure loss) or constant heat capacity (heat loss)", "why_tests_cant": "The number of sections is unbounded, lengths and states are arbitrary; tests compute single pipes.", "anchors": ["src/tespy/components/heat_exchangers/simple.py: SimpleHeatExchanger.darcy_func", "src/tespy/components/heat_exchangers/simple.py: SimpleHeatExchanger.hazen_williams_func", "src/tespy/components/heat_exchangers/simple.py: SimpleHeatExchanger.kA_group_func", "src/tespy/components/piping/pipe.py: Pipe"]}
{"id": "C121", "title": "No closed circuit is better than Carnot", "statement": "In every solved model of a closed circuit of pumps, compressors, turbines, valves, heaters and coolers the second law holds as a whole: the power delivered is at most the Carnot share of the heat taken up, and a heat pump or refrigerating circuit needs at least the corresponding power, whatever the number and order of the components.", "quantifier": "all fluids obeying the Gibbs relation, all circuits of any number of components in any order, all states, efficiencies and temperatures of sources and sinks", "why_tests_cant": "The number and order of the components and the fluid are arbitrary; tests compute single cycles.", "anchors": ["src/tespy/components/turbomachinery/turbine.py: Turbine.eta_s_func", "src/tespy/components/turbomachinery/pump.py: Pump.eta_s_func", "src/tespy/components/turbomachinery/compressor.py: Compressor.eta_s_func", "src/tespy/components/piping/valve.py: Valve", "src/tespy/components/heat_exchangers/simple.py: SimpleHeatExchanger.energy_balance_func"]}
