{
 "claims": [
  {
   "property": "C01",
   "status": "proved",
   "theorems": [
    "Tespy.C01_unit_roundtrip",
    "Tespy.C01_unlisted_rejected",
    "Tespy.C01_si_unit_identity",
    "Tespy.convertToSI_meaning",
    "Tespy.convertFromSI_meaning"
   ],
   "note": "all units of all properties, exact arithmetic"
  },
  {
   "property": "C02",
   "status": "proved",
   "theorems": [
    "Tespy.C02_order",
    "Tespy.C02_temperature_difference",
    "Tespy.C02_celsius_fahrenheit"
   ],
   "note": ""
  },
  {
   "property": "C04",
   "status": "proved",
   "theorems": [
    "Tespy.C04_support_points",
    "Tespy.C04_piecewise_linear"
   ],
   "note": ""
  },
  {
   "property": "C05",
   "status": "proved",
   "theorems": [
    "Tespy.C05_constant_outside",
    "Tespy.C05_bounded",
    "Tespy.C05_monotone",
    "Tespy.C05_antitone"
   ],
   "note": ""
  },
  {
   "property": "C06",
   "status": "proved",
   "theorems": [
    "Tespy.C06_extrapolation",
    "Tespy.C06_domain_errors",
    "Tespy.C06_warning_names_second_point"
   ],
   "note": "the warning text names the second support point as minimum (disagreement shown by C06_warning_names_second_point)"
  },
  {
   "property": "C03",
   "status": "partial",
   "theorems": [
    "Tespy.C03_ranges_consistent",
    "Tespy.C03_units_only_keep_SI",
    "Tespy.C03_range_as_given",
    "Tespy.C03_rejected_call_not_atomic"
   ],
   "note": "all accepted histories proved; atomicity of rejected calls is refuted (C03_rejected_call_not_atomic)"
  },
  {
   "property": "C07",
   "status": "proved",
   "theorems": [
    "Tespy.C07_bounded",
    "Tespy.C07_grid_points",
    "Tespy.C07_row_is_line",
    "Tespy.C07_domain_errors_x"
   ],
   "note": ""
  },
  {
   "property": "C08",
   "status": "proved",
   "theorems": [
    "Tespy.C08_newton_terminates",
    "Tespy.C08_newton_in_range",
    "Tespy.C08_newton_last_step",
    "Tespy.C08_newton_tolerance",
    "Tespy.C08_newton_affine",
    "Tespy.centralDifference_affine"
   ],
   "note": ""
  },
  {
   "property": "C09",
   "status": "partial",
   "theorems": [
    "Tespy.C09_state_restored",
    "Tespy.C09_invalid_name",
    "Tespy.C09_not_restored_on_exception"
   ],
   "note": "proved when the residual does not raise; refuted when it raises"
  },
  {
   "property": "C10",
   "status": "partial",
   "theorems": [
    "Tespy.C10_exact_properties",
    "Tespy.C10_exact_component",
    "Tespy.C10_fluid_partial",
    "Tespy.C10_half_slope_at_zero",
    "Tespy.C10_error",
    "Tespy.C10_error_sharp",
    "Tespy.C10_mean_value",
    "Tespy.C10_fraction_partial"
   ],
   "note": "Error bound for three times differentiable residuals and mean value property for all differentiable ones; the bound is sharp. Mass fractions: for fractions of at least 1e-5; below, the derivative is scaled by a factor between one half and one (C10_half_slope_at_zero). Exact arithmetic."
  },
  {
   "property": "C11",
   "status": "partial",
   "theorems": [
    "Tespy.C11_labels_unique",
    "Tespy.C11_components_exact_partial",
    "Tespy.C11_failed_add_leaves_orphan_connection",
    "Tespy.C11_failed_delete_leaves_orphan_component",
    "Tespy.C11_result_tables",
    "Tespy.C11_del_ude",
    "Tespy.C11_add_ude",
    "Tespy.C11_add_busses",
    "Tespy.C11_del_busses",
    "Tespy.C11_add_conns",
    "Tespy.C11_del_conns",
    "Tespy.C11_bus_label_false"
   ],
   "note": "label uniqueness for all histories; components = ends of connections for histories of successful calls, refuted after failing calls; what each call adds and removes, and when it raises; a bus with the name of a class of components shares and deletes the result table of the components (C11_bus_label_false)"
  },
  {
   "property": "C12",
   "status": "partial",
   "theorems": [
    "Tespy.C12_recheck_partial",
    "Tespy.C12_stale_check_after_failed_delete"
   ],
   "note": "proved unless a del_conns call raised; refuted in that case"
  },
  {
   "property": "C13",
   "status": "partial",
   "theorems": [
    "Tespy.C13_every_connector_once_partial",
    "Tespy.C13_double_use_rejected",
    "Tespy.C13_missing_connection_rejected",
    "Tespy.C13_undeclared_connector_accepted"
   ],
   "note": "proved if the connectors declared at check time are those declared when the connections were created; refuted if the number of connectors is changed in between"
  },
  {
   "property": "C14",
   "status": "proved",
   "theorems": [
    "Tespy.C14_same_number",
    "Tespy.C14_paired_outlet"
   ],
   "note": ""
  },
  {
   "property": "C15",
   "status": "proved",
   "theorems": [
    "Tespy.C15_branch_search",
    "Tespy.C15_no_source_rejected",
    "Tespy.C15_loop_without_closer_not_collected"
   ],
   "note": "all shipped component classes; the interpreter's own recursion limit is not modelled"
  },
  {
   "property": "C16",
   "status": "proved",
   "theorems": [
    "Tespy.C16_flatten_preorder"
   ],
   "note": ""
  },
  {
   "property": "C17",
   "status": "proved",
   "theorems": [
    "Tespy.MHeap.C17_one_mass_flow_per_branch",
    "Tespy.MHeap.C17_error_iff",
    "Tespy.MHeap.C17_shared_iff"
   ],
   "note": "Heap model of the shared containers, any number of disjoint branches."
  },
  {
   "property": "C18",
   "status": "proved",
   "theorems": [
    "Tespy.MHeap.C18_reset_restores",
    "Tespy.FlHeap.C18_fluid_reset_restores"
   ],
   "note": "Mass flow and fluid part; any values computed by the solver. See C51 for the dictionaries that stay shared."
  },
  {
   "property": "C19",
   "status": "partial",
   "theorems": [
    "Tespy.MHeap.C19_second_presolve_fails",
    "Tespy.MHeap.C19_containers_lost",
    "Tespy.MHeap.C19_reset_after_abort_partial"
   ],
   "note": "The property is false: without the reset, a second presolve raises an error (one specification in the branch) or loses containers (no specification). What is proved positively is C18: the state is restored whenever the reset is reached."
  },
  {
   "property": "C20",
   "status": "partial",
   "theorems": [
    "Tespy.C20_rejected",
    "Tespy.C20_completed_partial",
    "Tespy.C20_unspecified",
    "Tespy.C20_incomplete_accepted"
   ],
   "note": "All cases of the presolve. False part: a branch with all fractions specified but a sum below one is accepted; a demanded fluid balance is not considered."
  },
  {
   "property": "C51",
   "status": "partial",
   "theorems": [
    "Tespy.FlHeap.C51_branches_separate_partial",
    "Tespy.FlHeap.C51_compositions_stay_shared"
   ],
   "note": "The property is false: after a calculation the dictionaries of the mass fractions stay shared within the former branch."
  },
  {
   "property": "C21",
   "status": "proved",
   "theorems": [
    "Tespy.C21_columns"
   ],
   "note": "For any interleaving of connections and components."
  },
  {
   "property": "C22",
   "status": "proved",
   "theorems": [
    "Tespy.C22_square"
   ],
   "note": ""
  },
  {
   "property": "C23",
   "status": "proved",
   "theorems": [
    "Tespy.C23_terminates",
    "Tespy.C23_sound",
    "Tespy.C23_nan",
    "Tespy.C23_complete",
    "Tespy.C23_abort"
   ],
   "note": "Residual histories and matrix inversion results are arbitrary inputs."
  },
  {
   "property": "C24",
   "status": "partial",
   "theorems": [
    "Tespy.C24_rows_partial",
    "Tespy.C24_empty_jacobian_shifts_rows"
   ],
   "note": "False for a component or connection equation whose jacobian is empty (all its quantities fixed): its row is not reserved. Proved for all other systems."
  },
  {
   "property": "C25",
   "status": "proved",
   "theorems": [
    "Tespy.C25_update_bounds",
    "Tespy.C25_full_step"
   ],
   "note": ""
  },
  {
   "property": "C26",
   "status": "partial",
   "theorems": [
    "Tespy.C26_sum_iff",
    "Tespy.C26_sum_one_partial",
    "Tespy.C26_fixed_and_variable",
    "Tespy.C26_all_zero"
   ],
   "note": "False with fixed and variable fractions on one connection; C26_sum_iff says exactly when it holds."
  },
  {
   "property": "C27",
   "status": "partial",
   "theorems": [
    "Tespy.C27_call",
    "Tespy.C27_value",
    "Tespy.C27_start",
    "Tespy.C27_reference",
    "Tespy.C27_variable_iff_unset",
    "Tespy.C27_fluid",
    "Tespy.C27_fluid_consistent",
    "Tespy.C27_fluid_keywords",
    "Tespy.C27_settings",
    "Tespy.C27_error_unchanged",
    "Tespy.C27_nan_specifies",
    "Tespy.C27_internal_keyword",
    "Tespy.C27_not_atomic",
    "Tespy.C27_last_setting",
    "Tespy.C27_default_setting"
   ],
   "note": "All rules hold for all call sequences except: nan specifies the property instead of removing the specification, a failing call keeps the keywords before the failing one, and a number for m_ref etc. raises an error but activates the reference."
  },
  {
   "property": "C28",
   "status": "partial",
   "theorems": [
    "Tespy.C28_degrees_of_freedom",
    "Tespy.C28_rejected_iff",
    "Tespy.C28_values_partial",
    "Tespy.C28_boiling_difference_wrong",
    "Tespy.C28_overdetermined_accepted"
   ],
   "note": "Degrees of freedom and rejection proved; false: Td_bp is used in the display unit, three specifications of the state are accepted."
  },
  {
   "property": "C29",
   "status": "partial",
   "theorems": [
    "Tespy.C29_call",
    "Tespy.C29_parameter",
    "Tespy.C29_unknown_rejected",
    "Tespy.C29_wrong_type_partial",
    "Tespy.C29_group_ignored",
    "Tespy.C29_nan_specifies",
    "Tespy.C29_not_atomic"
   ],
   "note": "Effect of every keyword of Component.set_attr for every history. The full statement is false: values of the wrong kind are silently ignored for parameter groups, NaN specifies the parameter although the manual documents it as a way to unset it, and a failing call keeps the keywords before the failing one; these are proved as counterexamples."
  },
  {
   "property": "C30",
   "status": "partial",
   "theorems": [
    "Tespy.C30_groups",
    "Tespy.C30_announced",
    "Tespy.C30_rows",
    "Tespy.C30_mandatory",
    "Tespy.C30_mandatory_rows",
    "Tespy.C30_merge_iff",
    "Tespy.C30_merge_mismatch",
    "Tespy.C30_fuel_cell_error",
    "Tespy.C30_fuel_cell_rows"
   ],
   "note": "Proved for all components and specification patterns except merges with partly variable compositions and fuel cells with specified mass flows, for which it is false."
  },
  {
   "property": "C34",
   "status": "partial",
   "theorems": [
    "Tespy.C34_merge_balances",
    "Tespy.C30_merge_iff",
    "Tespy.C30_merge_mismatch",
    "Tespy.C34_mixture",
    "Tespy.C34_backflow_false"
   ],
   "note": "All balances proved for any number of inlets and fluids; the count of the fluid equations is right exactly under the condition of C30_merge_iff. The outlet is within the bounds of the inlets for flows into the merge (C34_mixture), not with backflow (C34_backflow_false)."
  },
  {
   "property": "C35",
   "status": "partial",
   "theorems": [
    "Tespy.C35_splitter",
    "Tespy.C35_separator_partial",
    "Tespy.C35_separator_all_partial",
    "Tespy.C35_separator_loses_species"
   ],
   "note": "Splitter proved; the separator conserves every species only if all but one fluid have an equation, counterexample with three fluids."
  },
  {
   "property": "C36",
   "status": "proved",
   "theorems": [
    "Tespy.C36_drum",
    "Tespy.C36_droplet_separator",
    "Tespy.C36_drum_network"
   ],
   "note": "Hypothesis: if the circulating inlet and outlet hold one mass flow, so do feed and steam outlet, which is what the branch search does."
  },
  {
   "property": "C38",
   "status": "partial",
   "theorems": [
    "Tespy.C38_electrolyzer_partial",
    "Tespy.C38_fuel_cell_partial",
    "Tespy.C38_electrolyzer_unbalanced",
    "Tespy.C30_fuel_cell_error",
    "Tespy.C30_fuel_cell_rows"
   ],
   "note": "False for the fuel cell with specified mass flows (error or duplicated equation) and for fully specified mass flows."
  },
  {
   "property": "C49",
   "status": "partial",
   "theorems": [
    "Tespy.C49_primary_partial",
    "Tespy.C49_primary_shared",
    "Tespy.C49_T_partial",
    "Tespy.C49_T_fluid",
    "Tespy.C49_v_partial",
    "Tespy.C49_v_same_branch"
   ],
   "note": "Correct for connections with containers of their own; false for v references within a branch (entry of the common mass flow overwritten), for T references to variable compositions (factor missing) and for self references. Property functions are parameters with their derivatives as hypotheses."
  },
  {
   "property": "C50",
   "status": "partial",
   "theorems": [
    "Tespy.C50_node_mass",
    "Tespy.C50_node_energy",
    "Tespy.C50_merge_energy",
    "Tespy.C50_merge_fluid",
    "Tespy.C50_separator_fluid",
    "Tespy.C50_node_pressure",
    "Tespy.C50_splitter_energy",
    "Tespy.C50_equality",
    "Tespy.C50_heat_exchanger_partial",
    "Tespy.C50_recuperator",
    "Tespy.C50_flow_energy",
    "Tespy.C50_drum",
    "Tespy.C50_pressure_ratio_partial",
    "Tespy.C50_pressure_ratio_error",
    "Tespy.C50_pressure_drop_partial",
    "Tespy.C50_pressure_drop_variable",
    "Tespy.C50_temperature",
    "Tespy.C50_volume_partial",
    "Tespy.C50_volume_fluid",
    "Tespy.C50_quality",
    "Tespy.C50_boiling_distance",
    "Tespy.C50_fluid_balance",
    "Tespy.C50_outlet_states",
    "Tespy.C50_separator_energy_partial",
    "Tespy.C50_separator_specified",
    "Tespy.C50_electrolyzer_mass"
   ],
   "note": "Proved for any number of connectors and any variability pattern where true; false for recuperators on one branch, variable pressure drop, variable pr1/pr2, separators with specified outlets, volumetric flow of variable compositions and the fluid balance."
  },
  {
   "property": "C32",
   "status": "partial",
   "theorems": [
    "Tespy.C32_residual",
    "Tespy.C32_derivatives",
    "Tespy.C32_rows",
    "Tespy.C32_set_attr",
    "Tespy.C32_reported",
    "Tespy.C32_specification_replaced"
   ],
   "note": "Residual, rows, specification and reported values proved for any number of components. A calculation that ends without convergence replaces the specified value by the sum (C32_specification_replaced)."
  },
  {
   "property": "C33",
   "status": "partial",
   "theorems": [
    "Tespy.C33_component",
    "Tespy.C33_bus",
    "Tespy.C33_numeric",
    "Tespy.C33_bus_numeric",
    "Tespy.C33_bus_load_partial",
    "Tespy.C33_bus_load_false",
    "Tespy.C33_design_point",
    "Tespy.C33_add_comps",
    "Tespy.C33_add_comps_not_atomic",
    "Tespy.C33_design_load",
    "Tespy.C33_determined_partial",
    "Tespy.C33_two_loads_false"
   ],
   "note": "Exact for base component and numeric factors; with base bus and a part load characteristic the relation holds up to the residual of an iteration whose derivative lacks a factor, and fails beyond its 15 passes (C33_bus_load_false)."
  },
  {
   "property": "C52",
   "status": "partial",
   "theorems": [
    "Tespy.C52_first_calculation_partial",
    "Tespy.C52_columns_kept",
    "Tespy.C52_stale_columns"
   ],
   "note": "True for the first calculation; false afterwards: columns of earlier calculations stay in the row and raise an IndexError if the system became smaller."
  },
  {
   "property": "C46",
   "status": "proved",
   "theorems": [
    "Tespy.C46_values",
    "Tespy.C46_completes",
    "Tespy.C46_empty_dictionary",
    "Tespy.C46_arguments_unmodified",
    "Tespy.C46_result_independent"
   ],
   "note": "Values on nested dictionaries of any depth; object identity on a heap model with deepcopy and its memo."
  },
  {
   "property": "C47",
   "status": "proved",
   "theorems": [
    "Tespy.C47_variables",
    "Tespy.C47_decision_vector",
    "Tespy.C47_length",
    "Tespy.C47_fitness",
    "Tespy.C47_constraint_names"
   ],
   "note": "For all dictionaries and all histories of fitness calls; the user's model is a parameter."
  },
  {
   "property": "C54",
   "status": "partial",
   "theorems": [
    "Tespy.C54_valid_partial",
    "Tespy.C54_limit_reached",
    "Tespy.C54_table",
    "Tespy.C54_valid"
   ],
   "note": "After a run over any number of generations every row of the table holds the decision values, the objective and the constraint values of that individual (C54_table), and is marked valid exactly if all limits are kept strictly (C54_valid). Refuted for limits met with equality (C54_limit_reached)."
  },
  {
   "property": "C43",
   "status": "proved",
   "theorems": [
    "Tespy.C43_molar_fractions",
    "Tespy.C43_condensation",
    "Tespy.C43_dry",
    "Tespy.C43_pure_water"
   ],
   "note": "For all compositions and pure fluid functions; pure water above its saturation pressure raises instead (C43_pure_water), which is outside the claim since single species never enter the mixture functions."
  },
  {
   "property": "C44",
   "status": "partial",
   "theorems": [
    "Tespy.C44_pure_fluid",
    "Tespy.C44_single_species",
    "Tespy.C44_incompressible_mean",
    "Tespy.C44_precision_incompressible",
    "Tespy.C44_absent_species_partial",
    "Tespy.C44_ideal_gas",
    "Tespy.C44_precision_ideal_false",
    "Tespy.C44_mixing_rules",
    "Tespy.C44_no_water",
    "Tespy.C44_unknown_rule"
   ],
   "note": "Species below the precision do change ideal mixtures through the mole fractions (refuted); proved for species with fraction zero."
  },
  {
   "property": "C55",
   "status": "partial",
   "theorems": [
    "Tespy.C55_enthalpy_partial",
    "Tespy.C55_entropy",
    "Tespy.C55_onset_false",
    "Tespy.C55_onset_value",
    "Tespy.C55_rule_partial"
   ],
   "note": "True for the entropy and for the enthalpy once the liquid fraction exceeds the precision; below, all water is evaluated as liquid."
  },
  {
   "property": "C56",
   "status": "partial",
   "theorems": [
    "Tespy.C56_densities",
    "Tespy.C56_value"
   ],
   "note": "False: densities instead of volumes are averaged; the computed formula and a witness are proved."
  },
  {
   "property": "C42",
   "status": "partial",
   "theorems": [
    "Tespy.C42_physical_exergy",
    "Tespy.C42_pump",
    "Tespy.C42_turbine",
    "Tespy.C42_valve",
    "Tespy.C42_gouy_stodola",
    "Tespy.C42_heat_exchanger",
    "Tespy.C42_heat_exchanger_gouy_stodola",
    "Tespy.C42_drum",
    "Tespy.C42_combustion",
    "Tespy.C42_merge_partial",
    "Tespy.C42_merge_gouy_stodola",
    "Tespy.C42_merge_ambient",
    "Tespy.C42_simple_partial",
    "Tespy.C42_simple_cold_partial",
    "Tespy.C42_simple_heated_partial",
    "Tespy.C42_simple_crossing_false",
    "Tespy.C42_simple_refrigeration_false",
    "Tespy.C42_electrolyzer",
    "Tespy.C42_efficiency",
    "Tespy.C42_dissipative",
    "Tespy.C42_efficiency_range"
   ],
   "note": "True for turbomachines, valves, heat exchangers, drums, combustion chambers and merges with an outlet off ambient temperature; simple heat exchangers cooled across or below ambient temperature, dissipative ones below it, and electrolyzers violate it."
  },
  {
   "property": "C57",
   "status": "partial",
   "theorems": [
    "Tespy.C57_balance_closes",
    "Tespy.C57_sign",
    "Tespy.C57_no_bus_dictionary"
   ],
   "note": "Proved for networks of any size when fuel and product exergy have the right sign; absolute values break the balance otherwise."
  },
  {
   "property": "C58",
   "status": "partial",
   "theorems": [
    "Tespy.C58_groups_partial",
    "Tespy.C58_groups_false"
   ],
   "note": "True if every component on a bus has an exergy destruction of its own; false for sources and sinks on busses with losses."
  },
  {
   "property": "C39",
   "status": "partial",
   "theorems": [
    "Tespy.C39_heat_exchanger",
    "Tespy.C39_results_exist",
    "Tespy.C39_ttd_min_partial",
    "Tespy.C39_zeta_partial",
    "Tespy.C39_kA_partial",
    "Tespy.C39_simple_kA_partial",
    "Tespy.C39_turbomachines",
    "Tespy.C39_eta_reported",
    "Tespy.C39_ttd_min_condenser_false",
    "Tespy.C39_kA_false",
    "Tespy.C39_zero_difference_false",
    "Tespy.C39_zeta_reverse",
    "Tespy.C39_zeta_standstill",
    "Tespy.C39_simple_kA_false"
   ],
   "note": "Proved in both directions for Q, P, pr, dp, ttd_u, ttd_l, eta_s, eff_hot, eff_cold and, with side conditions, ttd_min, zeta, kA. False and refuted: ttd_min of condensers with superheated inlet, kA with a negative or zero terminal difference (nan or exception), zeta with reversed flow, kA of simple heat exchangers across the ambient temperature (exception in postprocessing)."
  },
  {
   "property": "C40",
   "status": "partial",
   "theorems": [
    "Tespy.C40_heat_exchanger",
    "Tespy.C40_condenser_partial",
    "Tespy.C40_condenser_false",
    "Tespy.C40_simple",
    "Tespy.C40_simple_value",
    "Tespy.C40_simple_false"
   ],
   "note": "Holds for all temperatures for HeatExchanger. For Condenser it fails if both temperatures of one end are specified (math domain error, refuted); for simple heat exchangers it fails exactly if inlet or outlet has ambient temperature (refuted)."
  },
  {
   "property": "C41",
   "status": "proved",
   "theorems": [
    "Tespy.C41_load_one",
    "Tespy.C41_eta_s_char",
    "Tespy.C41_eta_s_design",
    "Tespy.C41_cone",
    "Tespy.C41_cone_design",
    "Tespy.C41_cone_no_drop",
    "Tespy.C41_kA_char",
    "Tespy.C41_kA_char_design",
    "Tespy.C41_zero_load"
   ],
   "note": "Also the meaning of the equations at every other load: reported efficiency/kA is the design value times the characteristic, and the cone law. Design data are assumed to be the exact state of the design calculation."
  },
  {
   "property": "C48",
   "status": "partial",
   "theorems": [
    "Tespy.C48_sections",
    "Tespy.C48_pinch_partial",
    "Tespy.C48_pinch_false",
    "Tespy.C48_UA_bounds",
    "Tespy.C48_UA_crossing",
    "Tespy.C48_UA_exact",
    "Tespy.C48_pinch_everywhere",
    "Tespy.C48_equations",
    "Tespy.C48_pinch_inside_false",
    "Tespy.C48_reversed_partial",
    "Tespy.C48_reversed_false"
   ],
   "note": "Sections hold in full for closed energy balances; the pinch bound holds without pressure losses and is refuted with pressure losses. With straight temperatures in every section UA is exactly the integral of the heat over the temperature difference and the pinch the smallest difference anywhere; with curved temperatures a smaller difference inside a section is missed (refuted). With reversed heat flow temperatures are calculated at states outside of the exchanger (C48_reversed_partial) and the pinch is not a bound (refuted)."
  },
  {
   "property": "C59",
   "status": "partial",
   "theorems": [
    "Tespy.C59_darcy",
    "Tespy.C59_zeta",
    "Tespy.C59_hazen_williams_partial",
    "Tespy.C59_hazen_williams_false",
    "Tespy.C59_zeta_meaning",
    "Tespy.C59_zeta_flow",
    "Tespy.C59_zeta_small_false",
    "Tespy.C59_hazen_meaning",
    "Tespy.C59_hazen_grows",
    "Tespy.C59_hazen_flow"
   ],
   "note": "Holds for Darcy and zeta; refuted for Hazen-Williams, where copysign drops the sign of the pressure difference. All solutions of the zeta and Hazen-Williams equations are determined: with a zeta value small differences of pressure have no flow (C59_zeta_small_false)."
  },
  {
   "property": "C37",
   "status": "partial",
   "theorems": [
    "Tespy.C37_element_balance",
    "Tespy.C37_elements_partial",
    "Tespy.C37_rich_false",
    "Tespy.C37_mass_balance",
    "Tespy.C37_mass_partial",
    "Tespy.C37_fractions",
    "Tespy.C37_rich_example"
   ],
   "note": "Holds for air ratios of at least 1; below 1 carbon, hydrogen and oxygen are lost (refuted)."
  },
  {
   "property": "C45",
   "status": "partial",
   "theorems": [
    "Tespy.C45_network_partial",
    "Tespy.C45_vol_unit_false",
    "Tespy.C45_connections_partial",
    "Tespy.C45_no_connections",
    "Tespy.C45_loaded_fluid_false",
    "Tespy.C45_reference_false",
    "Tespy.C45_local_offdesign_false",
    "Tespy.C45_component_partial",
    "Tespy.C45_components_partial",
    "Tespy.C45_group_false",
    "Tespy.C45_bus_partial",
    "Tespy.C45_bus_label_false",
    "Tespy.C45_save_overwrites_false",
    "Tespy.C45_characteristic_kind"
   ],
   "note": "Proved per file (network, connections, components, busses) with side conditions. Refuted: unit of specific volume, references between connections, local_offdesign of connections, groups of characteristics, later changes of fluids, labels \"P\", networks without connections, saving to the same path."
  },
  {
   "property": "C60",
   "status": "partial",
   "theorems": [
    "Tespy.C60_enthalpy_partial",
    "Tespy.C60_diabatic"
   ],
   "note": "For air ratios of at least 1, because below 1 the elements are not conserved (C37)."
  },
  {
   "property": "C31",
   "status": "partial",
   "theorems": [
    "Tespy.C31_offdesign_flags",
    "Tespy.C31_connections_partial",
    "Tespy.C31_components",
    "Tespy.C31_mass_flow_false",
    "Tespy.C31_reference_false",
    "Tespy.C31_unspecified_false",
    "Tespy.C31_offdesign_list_error",
    "Tespy.C31_value_false"
   ],
   "note": "Holds for components and, with conditions on lists, for connections. Refuted: mass flow in the list of a connection which is not the first of its branch, references to listed properties, lists naming unspecified properties; off-design lists with references make every off-design calculation fail; the value of a listed property after switching back is the off-design result."
  },
  {
   "property": "C53",
   "status": "partial",
   "theorems": [
    "Tespy.C53_specified_partial",
    "Tespy.C53_temperature_false"
   ],
   "note": "Holds for m, p, h, x, Td_bp (with conditions); refuted for temperature and volumetric flow. Components: C92, busses: C32."
  },
  {
   "property": "C61",
   "status": "partial",
   "theorems": [
    "Tespy.C61_first_partial",
    "Tespy.C61_kept_partial",
    "Tespy.C61_moved_false"
   ],
   "note": "Holds in the first off-design calculation and as long as mass flow containers stay the same; refuted if the mass flow specification is removed or moved between two off-design calculations."
  },
  {
   "property": "C62",
   "status": "partial",
   "theorems": [
    "Tespy.C62_variables_false"
   ],
   "note": "The documented behaviour is false: the variables are the same in both modes, for all components and lists."
  },
  {
   "property": "C63",
   "status": "partial",
   "theorems": [
    "Tespy.C63_residual",
    "Tespy.C63_unchanged_partial",
    "Tespy.C63_drift",
    "Tespy.C63_false",
    "Tespy.C63_derivative_false",
    "Tespy.C63_check_false",
    "Tespy.C63_derivative_partial"
   ],
   "note": "Holds within the range of speed lines or with guide vane angle 0; false at the edges of the map: every evaluation scales the outermost row in place (C63_drift gives the value of the n-th evaluation), derivatives for quantities without influence do not vanish, the check after a calculation scales the row once more."
  },
  {
   "property": "C64",
   "status": "partial",
   "theorems": [
    "Tespy.C64_search_partial",
    "Tespy.C64_groups_partial",
    "Tespy.C64_engine_false"
   ],
   "note": "Termination and soundness in all networks; completeness unless one fluid reaches the cooling and the combustion inlets of the same engine, where it is refuted."
  },
  {
   "property": "C65",
   "status": "partial",
   "theorems": [
    "Tespy.C65_disjoint_partial",
    "Tespy.C64_groups_partial",
    "Tespy.C65_overlap_false"
   ],
   "note": "Holds if the relation 'the fluids of two starts meet' is transitive; refuted for five sources, where merging stops too early."
  },
  {
   "property": "C66",
   "status": "partial",
   "theorems": [
    "Tespy.C66_same_fluids_partial",
    "Tespy.C66_known_partial",
    "Tespy.C66_values_partial",
    "Tespy.C66_accepted_iff",
    "Tespy.C66_rule_conflict",
    "Tespy.C66_single_false",
    "Tespy.C66_fluid0_false",
    "Tespy.C66_overlap_false"
   ],
   "note": "Proved for networks with disjoint groups (C65). Refuted: a specified fraction of a single fluid is replaced by 1, fluids with starting value only are not known, networks with overlapping groups."
  },
  {
   "property": "C67",
   "status": "partial",
   "theorems": [
    "Tespy.C67_first_partial",
    "Tespy.C67_engine_false",
    "Tespy.C67_rule_false"
   ],
   "note": "True for the first calculation; false afterwards: engines and back ends are kept, a changed mixing rule raises an error."
  },
  {
   "property": "C68",
   "status": "partial",
   "theorems": [
    "Tespy.C68_last_step_partial",
    "Tespy.C68_contracting_partial",
    "Tespy.C68_linear_partial",
    "Tespy.C68_false"
   ],
   "note": "The values before the last step satisfy the equations; the reported ones do if the last step does not enlarge the residual, exactly for linear equations. Refuted in general: an equation without solution is reported as converged with a residual above 2300."
  },
  {
   "property": "C69",
   "status": "proved",
   "theorems": [
    "Tespy.C69_fixed"
   ],
   "note": "For all networks of pure fluids and mixtures with turbomachines and combustions, including aborted checks."
  },
  {
   "property": "C70",
   "status": "partial",
   "theorems": [
    "Tespy.C70_mass_partial",
    "Tespy.C70_pure_partial",
    "Tespy.C70_mixture_partial",
    "Tespy.C70_unchanged_partial",
    "Tespy.C70_search_ends",
    "Tespy.C70_phase_partial",
    "Tespy.C70_temperature_partial",
    "Tespy.C70_range_false",
    "Tespy.C70_enthalpy_false",
    "Tespy.C70_late_false",
    "Tespy.C70_phase_false"
   ],
   "note": "Holds for mass flows in every iteration, for pressure and enthalpy of pure fluids with limits of the fluid (upper enthalpy limit not negative), for mixtures in the first four iterations. Refuted: ranges of the user for pure fluids, negative upper enthalpy limits, mixtures later on, phase checks with negative enthalpies."
  },
  {
   "property": "C71",
   "status": "partial",
   "theorems": [
    "Tespy.C71_compressor_partial",
    "Tespy.C71_turbine_partial",
    "Tespy.C71_pump_partial",
    "Tespy.C71_pump_flow_partial",
    "Tespy.C71_unchanged",
    "Tespy.C71_compressor_false",
    "Tespy.C71_pump_false",
    "Tespy.C71_turbine_false",
    "Tespy.C71_pump_flow_false"
   ],
   "note": "Holds for positive values if the quantity is variable at the side the check corrects. Refuted for negative enthalpies, pumps with variable outlet only, turbines with variable inlet only; flows in the first segment of a pump characteristic are changed."
  },
  {
   "property": "C72",
   "status": "partial",
   "theorems": [
    "Tespy.C72_valid_partial",
    "Tespy.C72_flow_partial",
    "Tespy.C72_lambda",
    "Tespy.C72_order_false",
    "Tespy.C72_crash_false",
    "Tespy.C72_fixed_false",
    "Tespy.C72_composition_partial"
   ],
   "note": "Valid compositions if all fractions of the flue gas are variable. Refuted: order of the inlets matters, exception if only the fuel lacks values of a former calculation, specified fractions of the flue gas."
  },
  {
   "property": "C73",
   "status": "partial",
   "theorems": [
    "Tespy.C73_fixed_partial",
    "Tespy.C73_reference_false"
   ],
   "note": "Holds if no connection has a reference of a property which has been found before the calculation. Refuted: a reference of the enthalpy overwrites the enthalpy found from specified pressure and temperature, the specified temperature is violated."
  },
  {
   "property": "C74",
   "status": "partial",
   "theorems": [
    "Tespy.C74_number",
    "Tespy.C74_user_partial",
    "Tespy.C74_generic_partial",
    "Tespy.C74_mass_partial",
    "Tespy.C74_reference_partial",
    "Tespy.C74_phase_partial",
    "Tespy.C74_outlet_partial",
    "Tespy.C74_inlet_partial",
    "Tespy.C74_documented_false",
    "Tespy.C74_mass_unit_false",
    "Tespy.C74_branch_false",
    "Tespy.C74_turbomachine_false"
   ],
   "note": "All variables get a number; values of the user and generic values are used if no other rule applies. Refuted: mass flows start between 1 and 2 in the unit of the network, not kg/s; starting values of mass flows at other than the first connection of a branch are ignored; documented values at the outlet of turbomachines are never used."
  },
  {
   "property": "C75",
   "status": "partial",
   "theorems": [
    "Tespy.C75_units_partial",
    "Tespy.C75_values_partial",
    "Tespy.C75_next_run_false"
   ],
   "note": "Holds if the file uses the units of the network. Refuted for other units: specified values are reported in the unit of the file and read in the unit of the network in the next calculation."
  },
  {
   "property": "C76",
   "status": "partial",
   "theorems": [
    "Tespy.C76_left_over_partial",
    "Tespy.C76_results_partial",
    "Tespy.C76_reference_partial",
    "Tespy.C76_previous_false"
   ],
   "note": "Values left over by an aborted calculation have no influence. Refuted for results: they replace the starting values of the user and are used with init_previous=False as well."
  },
  {
   "property": "C77",
   "status": "partial",
   "theorems": [
    "Tespy.C77_rows_partial",
    "Tespy.C77_current_partial",
    "Tespy.C77_derivatives_false",
    "Tespy.C77_rows_false",
    "Tespy.C77_abort_false"
   ],
   "note": "Every equation has its own row with the residuals of this iteration and the derivatives assigned last in this calculation, if every source with equations assigns a derivative in the first iteration. Refuted: derivatives which are no longer assigned stay in the matrix; an equation without derivatives in the first iteration is overwritten by the next one; derivatives left in a bus by an aborted calculation are added in the first iteration of the next one."
  },
  {
   "property": "C78",
   "status": "partial",
   "theorems": [
    "Tespy.C78_history",
    "Tespy.C78_values",
    "Tespy.C78_backends_partial",
    "Tespy.C78_isentropic",
    "Tespy.C78_phase_quality",
    "Tespy.C78_supercritical",
    "Tespy.C78_monotone_false",
    "Tespy.C78_psat_false",
    "Tespy.C78_phase_false",
    "Tespy.C78_incompressible_false",
    "Tespy.C78_pyromat_false"
   ],
   "note": "Proved: results of the CoolProp wrapper do not depend on earlier calls; iapws and CoolProp agree for every method except p_sat and for recognised phases; phase and vapour content agree; isentropic keeps the entropy. Refuted: p_sat of the iapws wrapper divides the temperature by 1e6 and raises for every temperature of water; the saturation temperature drops above the critical pressure; unrecognised phases have different names; p_sat raises for incompressible fluids; pyromat has no saturation values, phases and viscosities."
  },
  {
   "property": "C79",
   "status": "partial",
   "theorems": [
    "Tespy.C79_range",
    "Tespy.C79_inverse_partial",
    "Tespy.C79_roundtrip",
    "Tespy.C79_temperature_derivatives",
    "Tespy.C79_isentropic_partial",
    "Tespy.C79_pure",
    "Tespy.C79_no_rule",
    "Tespy.C79_volume_flow_false",
    "Tespy.C79_fraction_partial",
    "Tespy.C79_fraction_false",
    "Tespy.C79_out_of_range_false",
    "Tespy.C79_volume_start_false",
    "Tespy.C79_start",
    "Tespy.C79_difference_error",
    "Tespy.C79_saturation",
    "Tespy.C79_saturation_error"
   ],
   "note": "Proved: temperatures are within the range of the mixture, belong to the enthalpy within the tolerance unless the iteration limit is reached, and are exact for constant heat capacities from any starting value. Refuted: a volumetric flow cannot be specified for a mixture with variable pressure or enthalpy, as the mixing rule is not passed to the derivative (KeyError); enthalpies outside of the range yield a limit of the range without exception; derivatives of the volume start the second iteration at the value of the volume; an exception leaves the mass fraction changed."
  },
  {
   "property": "C80",
   "status": "partial",
   "theorems": [
    "Tespy.C80_positive",
    "Tespy.C80_explicit",
    "Tespy.C80_smooth_partial",
    "Tespy.C80_rough_partial",
    "Tespy.C80_pipe",
    "Tespy.C80_monotone_false",
    "Tespy.C80_zero_false",
    "Tespy.C80_documented_false",
    "Tespy.C80_large_false",
    "Tespy.C80_rough",
    "Tespy.C80_smooth",
    "Tespy.C80_rough_tolerance_false",
    "Tespy.C80_smooth_false",
    "Tespy.C80_flow_partial",
    "Tespy.C80_no_flow_false",
    "Tespy.C80_two_flows_false"
   ],
   "note": "Proved: up to a Reynolds number of 10^12 the friction factor exists, is positive and the Darcy equation lets the pressure fall in flow direction; explicit regimes follow their laws; iterated values are never above the unique solution and at most 0.4 % (rough, roughness up to a tenth of the diameter) or 0.5 % (smooth) below it, within 10^-12 if the run meets its tolerance. Refuted: the run never meets its tolerance for rough pipes with friction factors of 0.02 and more; for smooth pipes at Reynolds numbers from 10^7 to 10^8 the value is more than 0.07 % too small; exception at very large Reynolds numbers with extremely smooth pipes and at zero, the coefficient 0.03164 in the documentation, monotonicity. The flow does not follow from the pressures: within the laminar range and within that of Blasius it does (C80_flow_partial), but every smooth pipe has pressure differences without any mass flow (C80_no_flow_false) and a pipe can have two mass flows for the same pressures (C80_two_flows_false), because the factor jumps at Reynolds numbers of 2320 and 10000."
  },
  {
   "property": "C81",
   "status": "partial",
   "theorems": [
    "Tespy.C81_energy",
    "Tespy.C81_shares",
    "Tespy.C81_reported",
    "Tespy.C81_bus",
    "Tespy.C81_bus_params",
    "Tespy.C81_derivative_partial",
    "Tespy.C81_series_false",
    "Tespy.C81_direct_false",
    "Tespy.C81_composition_false",
    "Tespy.C81_entropy_partial",
    "Tespy.C81_entropy_internal_false",
    "Tespy.C81_entropy_heater_false",
    "Tespy.C81_exergy_false",
    "Tespy.C81_exergy_numbers",
    "Tespy.C81_exergy_type"
   ],
   "note": "Proved: first law, shares, reported values and busses for all engines; the Jacobian row for loops with mass flows of their own and fixed compositions. Refuted: the Jacobian row for cooling loops in series (the entry of the first loop is overwritten), for a loop feeding the other directly and for variable flue gas compositions; the entropy balance has the wrong sign for internal irreversibility and for the heat given to the loops; the exergy balance always raises TypeError."
  },
  {
   "property": "C82",
   "status": "partial",
   "theorems": [
    "Tespy.C82_registry",
    "Tespy.C82_create",
    "Tespy.C82_add",
    "Tespy.C82_add_taken",
    "Tespy.C82_add_not_atomic_false",
    "Tespy.C82_del",
    "Tespy.C82_del_other_false",
    "Tespy.C82_connections",
    "Tespy.C82_connections_kept",
    "Tespy.C82_connections_missing",
    "Tespy.C82_connections_replaced_false",
    "Tespy.C82_lists_kept",
    "Tespy.C82_params_partial",
    "Tespy.C82_params_false"
   ],
   "note": "Proved: labels are unique after every history, effect of successful calls, connections of every calculation, KeyError exactly for connections which are not in the network, lists of the user are not changed. Refuted: failing calls keep the equations before the failing one; deleting an equation which was not added deletes another one with its label; a connection replaced by one with the same label is silently used; equations created without parameters share one dictionary."
  },
  {
   "property": "C83",
   "status": "partial",
   "theorems": [
    "Tespy.C83_elec_energy",
    "Tespy.C83_elec_reported",
    "Tespy.C83_elec_char",
    "Tespy.C83_elec_bus",
    "Tespy.C83_elec_derivative_partial",
    "Tespy.C83_cell_energy_partial",
    "Tespy.C83_cell_energy_false",
    "Tespy.C83_cell_no_power",
    "Tespy.C83_cell_reported",
    "Tespy.C83_cell_bus_false",
    "Tespy.C83_cell_derivative_partial",
    "Tespy.C83_preheat_false",
    "Tespy.C83_rows",
    "Tespy.C83_bus_power_partial",
    "Tespy.C83_bus_heat_false",
    "Tespy.C83_bus_preheat_false"
   ],
   "note": "Proved: first law, reported values, efficiency characteristic and bus values of electrolyzers; reported values of fuel cells; Jacobian rows with separate mass flows. Refuted: the energy balance of fuel cells counts the (negative) power with the wrong sign, so every solved cell with positive efficiency releases (1 + eta) times the energy of the hydrogen as heat in addition to its power; fuel cells contribute 0 to busses and raise AttributeError on busses with a value; the heat bus of electrolyzers doubles one derivative and lacks another; derivatives are wrong if the cooling water becomes the feed water."
  },
  {
   "property": "C84",
   "status": "partial",
   "theorems": [
    "Tespy.C84_balance",
    "Tespy.C84_reported",
    "Tespy.C84_reported_trough",
    "Tespy.C84_limit",
    "Tespy.C84_limit_trough",
    "Tespy.C84_iam_partial",
    "Tespy.C84_iam_false",
    "Tespy.C84_loss_direction",
    "Tespy.C84_cold_false",
    "Tespy.C84_stagnation",
    "Tespy.C84_area",
    "Tespy.C84_derivative_partial",
    "Tespy.C84_composition_false",
    "Tespy.C84_brighter",
    "Tespy.C84_outlet_partial",
    "Tespy.C84_outlet_trough_partial",
    "Tespy.C84_second_outlet_false"
   ],
   "note": "Proved: heat balance, reported values, upper limits, stagnation temperature, unique area, exact entries of mass flow and parameters. Refuted: heat flows from cold to hot in the model for collectors more than lkf_lin / lkf_quad colder than the ambient; the incidence angle modifier exceeds 1 for negative iam_1 (as documented) and is negative for large coefficients; entries of variable compositions are missing. The entries of pressure and enthalpy are central differences. One outlet temperature for given flow, inlet and radiation if the collector is not colder than the ambient; without that condition the quadratic loss leaves a second solution (C84_second_outlet_false)."
  },
  {
   "property": "C85",
   "status": "partial",
   "theorems": [
    "Tespy.C85_throttle",
    "Tespy.C85_heat_exchanger",
    "Tespy.C85_combustion",
    "Tespy.C85_merge_count",
    "Tespy.C85_merge_pure",
    "Tespy.C85_merge_same_composition_false"
   ],
   "note": "Proved as equivalences for all these components. Refuted for merges of mixtures whose composition is specified and equal at all connections: the equations of the fluids are proportional, so all but one are redundant. Energy and stoichiometry of combustion are parameters here (see C37, C60)."
  },
  {
   "property": "C86",
   "status": "partial",
   "theorems": [
    "Tespy.C86_meaning",
    "Tespy.C86_wet_inlet",
    "Tespy.C86_unique",
    "Tespy.C86_exists",
    "Tespy.C86_second_law",
    "Tespy.C86_power_partial",
    "Tespy.C86_power_false",
    "Tespy.C86_reported",
    "Tespy.C86_iterate_false",
    "Tespy.C86_liquid_false",
    "Tespy.C86_supercritical_false",
    "Tespy.C86_pure",
    "Tespy.C86_documented_false",
    "Tespy.C86_variable_false"
   ],
   "note": "Meaning, existence, uniqueness, second law and reported efficiency proved. Refuted: ValueError if the dry expansion ends superheated but the outlet of an iterate is wet, for subcooled inlets and for supercritical inlet pressures; negative efficiency (power consumption) within the bounds of alpha; the documented equation is not the one solved when saturation is crossed; alpha and eta_s_dry as variables make the system singular."
  },
  {
   "property": "C87",
   "status": "partial",
   "theorems": [
    "Tespy.C87_groups",
    "Tespy.C87_closed",
    "Tespy.C87_busses",
    "Tespy.C87_diagram",
    "Tespy.C87_two_fluids_false",
    "Tespy.C87_source_false",
    "Tespy.C87_negative_false"
   ],
   "note": "Results, bus flows, termination and conservation of the diagram proved for all networks. Refuted: if one group delivers fluids of two categories to another the analysis raises; so it does with a source on a bus with the default base; negative flows are left out of the diagram, so its nodes need not be balanced."
  },
  {
   "property": "C88",
   "status": "partial",
   "theorems": [
    "Tespy.C88_ttd_unique",
    "Tespy.C88_eff_unique",
    "Tespy.C88_kA_unique_partial",
    "Tespy.C88_kA_exists",
    "Tespy.C88_eff_feasible",
    "Tespy.C88_eff_derivs",
    "Tespy.C88_eff_second_law_false",
    "Tespy.C88_kA_unique_false",
    "Tespy.C88_pinch_false",
    "Tespy.C88_simple_kA_partial",
    "Tespy.C88_simple_kA_second_law",
    "Tespy.C88_simple_kA_false",
    "Tespy.C88_simple_ambient_false",
    "Tespy.C88_condenser_partial",
    "Tespy.C88_condenser_better",
    "Tespy.C88_condenser_false",
    "Tespy.C88_series"
   ],
   "note": "Uniqueness proved for the terminal temperature differences, effectiveness and, among states with positive terminal differences, kA; existence for every positive kA. Refuted: kA has a second solution with negative terminal differences, because these are replaced by 0.01 and 0.02 K; eff_cold of 0.9 may cool the hot stream below the cold inlet; positive terminal differences do not exclude crossing temperatures where a stream evaporates. For pipes and simple heat exchangers with kA and Tamb all solutions at constant heat capacity are determined: the exponential approach to the ambient temperature and, for kA above twice the heat capacity flow, a second one beyond it (refuted); an inlet at ambient temperature raises an error. Condensers without subcooling: among saturation temperatures above the outlet of the cooling water kA has exactly one solution, given in closed form, which falls with kA; a second one below that temperature exists (refuted)."
  },
  {
   "property": "C89",
   "status": "partial",
   "theorems": [
    "Tespy.C89_pure",
    "Tespy.C89_dry",
    "Tespy.C89_condensing",
    "Tespy.C89_nonnegative",
    "Tespy.C89_mixing_loss",
    "Tespy.C89_merge",
    "Tespy.C89_available",
    "Tespy.C89_unavailable",
    "Tespy.C89_connection",
    "Tespy.C89_negative_false"
   ],
   "note": "Values, loss by mixing, exact availability and sign under the condition that the table implies an environment at the ambient temperature proved. Refuted: humid air at 40 degC has a negative chemical exergy with the values of Szargut (2007), because the values for 25 degC are used at every ambient temperature; mixtures with other rules than ideal-cond have none; a row without reference phase raises TypeError, a missing name IndexError. Mixing of streams is proved without condensation only."
  },
  {
   "property": "C90",
   "status": "partial",
   "theorems": [
    "Tespy.C90_complete_partial",
    "Tespy.C90_named_partial",
    "Tespy.C90_entries_partial",
    "Tespy.C90_zero_partial",
    "Tespy.C90_dp_char_false",
    "Tespy.C90_eta_char_false",
    "Tespy.C90_composition_false",
    "Tespy.C90_parameter_false",
    "Tespy.C90_parameter_named_partial",
    "Tespy.C90_moving_fluid"
   ],
   "note": "Complete for mass flow, pressure and enthalpy of all 29 equations with the characteristic parameters of the covered list; entries right for all but valves linked to the pressure ratio. Refuted: dp_char linked to pr has wrong entries for both pressures; eta_char linked to another mass flow than that of hydrogen has no entry for it; mass fractions are never named, so rows are incomplete with variable compositions; component parameters other than those listed are accepted as variables but have no entry in any row."
  },
  {
   "property": "C91",
   "status": "partial",
   "theorems": [
    "Tespy.C91_complete_partial",
    "Tespy.C91_named_partial",
    "Tespy.C91_stoich_exact_partial",
    "Tespy.C91_ti_exact_partial",
    "Tespy.C91_energy_exact_partial",
    "Tespy.C91_edge_partial",
    "Tespy.C91_bus_partial",
    "Tespy.C91_energy_fractions",
    "Tespy.C91_energy_composition_false",
    "Tespy.C91_ti_shared_false",
    "Tespy.C91_bus_shared_false"
   ],
   "note": "Complete for all variables apart from mass fractions in the energy balance; exact for the thermal input, the energy balance (mass flow, pressure, enthalpy) and the reaction balance unless fuel is left for lack of oxygen. Refuted: the energy balance has no entries for mass fractions although it depends on them; mass fractions at zero have half of the derivative; with two inlets sharing one composition the thermal input holds the entry of the last inlet only and a bus counts the derivative twice."
  },
  {
   "property": "C92",
   "status": "partial",
   "theorems": [
    "Tespy.C92_kept_partial",
    "Tespy.C92_drift_partial",
    "Tespy.C92_selfconsistent_partial",
    "Tespy.C92_others",
    "Tespy.C92_history",
    "Tespy.C92_lost_false",
    "Tespy.C92_converged_false",
    "Tespy.C92_nan_false",
    "Tespy.C92_zeta_false",
    "Tespy.C92_abs_false"
   ],
   "note": "Refuted: results overwrite specified values. Proved instead: a specified value survives exactly if the end state satisfies its equation exactly; otherwise it changes by residual over sensitivity and the stored value satisfies its equation in the end state; flags and parameters without equation never change; after any history the values are those of the last calculation with results. Also lost in converged calculations: ttd_min of condensers with superheated inlet, zeta with reversed flow, negative kA of simple heat exchangers; kA becomes nan with a negative terminal temperature difference."
  },
  {
   "property": "C93",
   "status": "partial",
   "theorems": [
    "Tespy.C93_load",
    "Tespy.C93_flow_char",
    "Tespy.C93_dp_char",
    "Tespy.C93_pump_eta_char",
    "Tespy.C93_turbine_eta_char",
    "Tespy.C93_kA_char",
    "Tespy.C93_simple_kA_char",
    "Tespy.C93_eta_char",
    "Tespy.C93_maps",
    "Tespy.C93_boundaries",
    "Tespy.C93_invalid_false",
    "Tespy.C93_standstill_false",
    "Tespy.C93_cone"
   ],
   "note": "Proved for valid parameters and defined loads. Refuted: an invalid parameter with type abs silently evaluates flow and heat transfer characteristics at zero; at standstill the efficiency and pressure loss characteristics raise an error."
  },
  {
   "property": "C94",
   "status": "partial",
   "theorems": [
    "Tespy.C94_describes_partial",
    "Tespy.C94_rows_owned_partial",
    "Tespy.C94_no_exception_partial",
    "Tespy.C94_class_name_false",
    "Tespy.C94_no_results_false",
    "Tespy.C94_bus_total_false",
    "Tespy.C94_bus_name_false",
    "Tespy.C94_failed_add_false"
   ],
   "note": "Proved for histories in which additions and deletions succeed and no bus has the name of a class or the name Connection. Refuted: a bus with such a name makes every calculation raise, or its removal takes the table of the class along; a failed addition followed by the removal leaves a stale row; without postprocessing the table of connections is empty beside former values; two components with the same label on a bus share one row and the total is that of the last."
  },
  {
   "property": "C95",
   "status": "partial",
   "theorems": [
    "Tespy.C95_mass_partial",
    "Tespy.C95_energy_partial",
    "Tespy.C95_cycle_closer_partial",
    "Tespy.C95_first_law_partial",
    "Tespy.C95_species_partial",
    "Tespy.C95_cycle_fluid_partial",
    "Tespy.C95_two_closers_false",
    "Tespy.C95_separator_false",
    "Tespy.C95_reduced",
    "Tespy.C95_network_partial"
   ],
   "note": "Proved under the conditions of C34 (merges with complete compositions) and C38 (enough variable mass flows at electrolyzers and fuel cells). Refuted: with two cycle closers in a cycle a solution may have different mass flows in the two halves and violate the first law; a separator does not conserve energy if the enthalpy of the mixture is not that of the fluids at equal temperature. For reactions the energy received is the change of the energy flow, its relation to the heating value is C37/C38."
  },
  {
   "property": "C96",
   "status": "partial",
   "theorems": [
    "Tespy.C96_pure_partial",
    "Tespy.C96_mixture_partial",
    "Tespy.C96_mixture_linear_partial",
    "Tespy.C96_units",
    "Tespy.C96_next_start_partial",
    "Tespy.C96_boiling_false",
    "Tespy.C96_stale_false",
    "Tespy.C96_specified_nan_false",
    "Tespy.C96_two_temperatures_false",
    "Tespy.C96_unit_change_false"
   ],
   "note": "Refuted: without boiling temperature (ValueError) the quality becomes nan, even a specified one, and the former distance to the boiling point stays; mixtures keep quality, distance to the boiling point and phase of a former pure fluid; specified temperature and volumetric flow of a mixture become nan if no temperature fits; the volume of a mixture may belong to another temperature than the one reported; changing the unit of the network between calculations reinterprets the former results used as starting values. Quality and phase of the CoolProp wrapper: C78."
  },
  {
   "property": "C97",
   "status": "partial",
   "theorems": [
    "Tespy.C97_repeat_partial",
    "Tespy.C97_min_iter_false",
    "Tespy.C97_combustion_false",
    "Tespy.C97_pump_false",
    "Tespy.C97_trace_false"
   ],
   "note": "Proved if the checks of the components find the values in order and the minimum number of iterations is at most 42. Refuted otherwise: with a minimum of 43 or more iterations the calculation is aborted for lack of progress at a solution; a flue gas with 15 % carbon dioxide is moved by the check of the combustion chamber; a flow in the first segment of a pump characteristic is moved; a mass fraction of 1e-7 is reported as 0. Exact arithmetic; residuals and jacobian raise no exception."
  },
  {
   "property": "C98",
   "status": "partial",
   "theorems": [
    "Tespy.C98_order_partial",
    "Tespy.C98_scale_partial",
    "Tespy.C98_linear_partial",
    "Tespy.C98_scale_false",
    "Tespy.C98_check_order_false",
    "Tespy.C98_singular",
    "Tespy.C98_exception"
   ],
   "note": "Order of equations and variables: values, result and verdict, for norms which do not depend on the order. Scale: the values of every iteration. Linear systems: if the first step is not limited, the checks find nothing to correct and 3 to 42 iterations are demanded. Refuted: the verdict depends on the scale (m^2 = 1 times 1e-8 is reported as converged above 60 kg/s); values depend on the order in which components have been added (two compressors in series). Exact arithmetic."
  },
  {
   "property": "C99",
   "status": "partial",
   "theorems": [
    "Tespy.C99_formula",
    "Tespy.C99_fuels",
    "Tespy.C99_accepted_partial",
    "Tespy.C99_heating_value_positive",
    "Tespy.C99_amounts_partial",
    "Tespy.C99_other_name_raises",
    "Tespy.C99_other_name_false",
    "Tespy.C99_coolant_false",
    "Tespy.C99_oxyfuel_false",
    "Tespy.C99_products",
    "Tespy.C99_two_waters_false"
   ],
   "note": "Recognition, formulas and heating values proved for all tables. Acceptance is decided as stated if every name is known to the property library and the first combustion inlet knows the fuels. Refuted: oxygen under another name than O2 is accepted and then raises KeyError in the equations; the coolant of an engine is searched for fuels as well and raises KeyError or ValueError; combustion with pure oxygen is rejected for lack of nitrogen; water under another name stands beside the product H2O. int() is modelled for decimal digits, the arbitrary order of Python sets by a fixed one."
  },
  {
   "property": "C100",
   "status": "partial",
   "theorems": [
    "Tespy.C100_step",
    "Tespy.C100_converges",
    "Tespy.C100_unique",
    "Tespy.C100_far_false",
    "Tespy.C100_neighbourhood"
   ],
   "note": "Proved with explicit constants: distance, change of the derivatives, error of the jacobian, norm of its inverse. Hypotheses: exact arithmetic, fixed columns, starting values of an earlier calculation (the checks for fresh starting values may change values, C97) and a rate with which the tolerance is reached by iteration 42 at the latest, because the loop may give up afterwards. C100_neighbourhood: for exact derivatives such a distance exists around every regular solution, and the error is halved in every iteration. Refuted without closeness: a mass flow with a regular solution alternates between two values for ever."
  },
  {
   "property": "C101",
   "status": "partial",
   "theorems": [
    "Tespy.C101_created",
    "Tespy.C101_component_label",
    "Tespy.C101_default_label_partial",
    "Tespy.C101_connector_names",
    "Tespy.C101_default_label_false",
    "Tespy.C101_get_conn",
    "Tespy.C101_added",
    "Tespy.C101_deleted",
    "Tespy.C101_get_comp_partial",
    "Tespy.C101_get_comp_false",
    "Tespy.C101_subsystems"
   ],
   "note": "Creation, get_conn, additions, deletions and subsystems proved for all histories; get_comp for histories of successful calls. Refuted: component labels may contain colons and underscores, so that connections between different components can have the same default label and the second one is rejected; after a failed addition get_comp returns another component than the one at the end of the connection. Labels which are changed after the object was added are not modelled."
  },
  {
   "property": "C102",
   "status": "partial",
   "theorems": [
    "Tespy.C102_complete",
    "Tespy.C102_quotient",
    "Tespy.C102_exact",
    "Tespy.C102_bus_complete",
    "Tespy.C102_bus_partial",
    "Tespy.C102_bus_series_false",
    "Tespy.C102_edge_false"
   ],
   "note": "Rows of equations: complete, and exact for mass fractions inside (1e-5, 1 - 1e-5) and loads whose increment contains no support point; at a mass fraction of 0 the entry is half of the derivative (C102_edge_false). Busses: proved if the connections do not share variables; refuted for the total heat of cooling loops in series, whose mass flow gets twice its derivative (C102_bus_series_false)."
  },
  {
   "property": "C103",
   "status": "partial",
   "theorems": [
    "Tespy.C103_history",
    "Tespy.C103_value",
    "Tespy.C103_reference",
    "Tespy.C103_release",
    "Tespy.C103_entropy_ignored_false"
   ],
   "note": "Proved for mass flow, pressure, enthalpy, temperature, volumetric flow, steam quality, boiling temperature difference, their references and the fluid balance. Refuted for entropy and specific volume: set_attr accepts both, marks them as specified, and no equation enforces them (C103_entropy_ignored_false)."
  },
  {
   "property": "C104",
   "status": "partial",
   "theorems": [
    "Tespy.C104_value",
    "Tespy.C104_variable",
    "Tespy.C104_own_equation",
    "Tespy.C104_power",
    "Tespy.C104_takes_part",
    "Tespy.C104_subcooling",
    "Tespy.C104_line",
    "Tespy.C104_ignored_false",
    "Tespy.C104_cone_false"
   ],
   "note": "Refuted in two points: numbers for td_log, Q_loss, the deviations of the cycle closer, and heat transfer coefficients and area of the moving boundary heat exchanger are accepted and ignored (C104_ignored_false; C104_takes_part shows that there are no others); cone=False switches the cone law of a turbine on (C104_cone_false). A member of a group without the other members is ignored as well, as C104_value says."
  },
  {
   "property": "C105",
   "status": "partial",
   "theorems": [
    "Tespy.C105_prints_partial",
    "Tespy.C105_connection_values",
    "Tespy.C105_later_false",
    "Tespy.C105_total_false",
    "Tespy.C105_never_solved_false",
    "Tespy.C105_failed_false",
    "Tespy.C105_specified_false"
   ],
   "note": "Refuted in five points: specifications changed after the calculation are printed as results of connections (C105_later_false; C105_connection_values shows that otherwise the values are the calculated ones); a component called total is missing in the table of its bus (C105_total_false); a network without results ends with a KeyError instead of the announced TESPyNetworkError (C105_never_solved_false); after a calculation without results the former values of components and busses are printed without a message (C105_failed_false); specified values beyond their limits are not coloured as specified (C105_specified_false)."
  },
  {
   "property": "C106",
   "status": "partial",
   "theorems": [
    "Tespy.C106_range",
    "Tespy.C106_monotone",
    "Tespy.C106_hundred",
    "Tespy.C106_lines",
    "Tespy.C106_converged",
    "Tespy.C106_columns",
    "Tespy.C106_component_column",
    "Tespy.C106_silent",
    "Tespy.C106_hundred_converged_false",
    "Tespy.C106_hundred_regular_false",
    "Tespy.C106_warning_false",
    "Tespy.C106_warning",
    "Tespy.C106_total_partial",
    "Tespy.C106_total_false"
   ],
   "note": "Refuted in three points: every line may show 100 % although the calculation does not converge, with linearly dependent equations (C106_hundred_converged_false) or a residual equal to the tolerance (C106_hundred_regular_false); the converse holds (C106_converged). The warning about the maximum number of iterations also appears if the calculation converges in the last permitted iteration (C106_warning_false); without warning and convergence the calculation stopped for another reason (C106_silent). With max_iter=0 one iteration is counted although there is none, and the warning does not appear (C106_total_false). Rounding to the printed decimals and times are not modelled."
  },
  {
   "property": "C107",
   "status": "partial",
   "theorems": [
    "Tespy.C107_machine",
    "Tespy.C107_compressor",
    "Tespy.C107_turbine",
    "Tespy.C107_valve",
    "Tespy.C107_stream",
    "Tespy.C107_heat_exchanger",
    "Tespy.C107_merge",
    "Tespy.C107_merge_mixing_false",
    "Tespy.C107_chamber_false",
    "Tespy.C107_sides"
   ],
   "note": "Refuted in two points: merges of different fluids leave out the entropy production by mixing, because the reference entropy of the mixture contains it (C107_merge_mixing_false); the balance of combustion chambers raises AttributeError for every state, since the attribute S_Qcomb is reduced before it is created (C107_chamber_false). Combustion engines: C81. The attribute S_Qirr in the documentation of heat exchangers does not exist; with its sign the sum would not be the entropy production. Temperatures along a heat exchanger are those at the mean pressures, as in the code."
  },
  {
   "property": "C108",
   "status": "partial",
   "theorems": [
    "Tespy.C108_components",
    "Tespy.C108_local_design",
    "Tespy.C108_passed_over",
    "Tespy.C108_removed",
    "Tespy.C108_connections",
    "Tespy.C108_missing_connection",
    "Tespy.C108_busses",
    "Tespy.C108_saved",
    "Tespy.C108_local_offdesign",
    "Tespy.C108_design_removes",
    "Tespy.C108_local_connection",
    "Tespy.C108_new_component_false",
    "Tespy.C108_class_false",
    "Tespy.C108_zero_label_false",
    "Tespy.C108_bus_row_false",
    "Tespy.C108_local_number_false",
    "Tespy.C108_local_no_path_false"
   ],
   "note": "Refuted in six points: a component that the files of the network's design path do not list is passed over, although its own design_path lists it, and its parameters become nan (C108_new_component_false); when labels are exchanged between classes, each takes the values of the other class (C108_class_false); labels with leading zeros raise KeyError (C108_zero_label_false); values of components that are not on a bus add rows to it, one for None for unknown labels (C108_bus_row_false); with local_offdesign labels that all are numbers raise KeyError (C108_local_number_false), and without a design_path the former design values are kept silently (C108_local_no_path_false). Reading and writing floats in the files is taken as exact; rows are found by label with unique labels."
  },
  {
   "property": "C109",
   "status": "partial",
   "theorems": [
    "Tespy.C109_given",
    "Tespy.C109_usable",
    "Tespy.C109_design_point",
    "Tespy.C109_efficiency",
    "Tespy.C109_kA",
    "Tespy.C109_absolute",
    "Tespy.C109_file_lines",
    "Tespy.C109_repeated_points",
    "Tespy.C109_repeated_map_points",
    "Tespy.C109_design_state",
    "Tespy.C109_design_state_kA",
    "Tespy.C109_kA_range",
    "Tespy.C109_maps",
    "Tespy.C109_design_state_maps",
    "Tespy.C109_engine",
    "Tespy.C109_custom",
    "Tespy.C109_map_efficiency_false",
    "Tespy.C109_inherited_false",
    "Tespy.C109_map_fallback_false",
    "Tespy.C109_wrong_kind_false"
   ],
   "note": "Refuted in four points: steam turbines and moving boundary heat exchangers do not use the default characteristics of turbines and heat exchangers but a constant (C109_inherited_false); the default map of the efficiency of compressors exceeds the design value by up to 1.5 % (C109_map_efficiency_false); a class with a name of its own gets a line in place of a map, which cannot be evaluated (C109_map_fallback_false); a map given for a line, or a line for a map, is accepted and fails later (C109_wrong_kind_false). The characteristics of the combustion engine are not 1 at the design load by their nature; for them C109_engine is proved. The numbers of the files are exact fractions here, floating point numbers in the code."
  },
  {
   "property": "C110",
   "status": "partial",
   "theorems": [
    "Tespy.Report.C110_made_partial",
    "Tespy.Report.C110_ref_false",
    "Tespy.Report.C110_bus_false",
    "Tespy.Report.C110_constraint_false",
    "Tespy.Report.C110_bus_figure_false",
    "Tespy.Report.C110_connection",
    "Tespy.Report.C110_connection_result",
    "Tespy.Report.C110_connection_bold",
    "Tespy.Report.C110_fluid",
    "Tespy.Report.C110_balance_false",
    "Tespy.Report.C110_component_partial",
    "Tespy.Report.C110_component_style",
    "Tespy.Report.C110_hidden_false",
    "Tespy.Report.C110_heat_exchanger_false",
    "Tespy.Report.C110_simple_false",
    "Tespy.Report.C110_links",
    "Tespy.Report.C110_figures_partial",
    "Tespy.Report.C110_unused_figure_false",
    "Tespy.Report.C110_bus_total",
    "Tespy.Report.C110_bus_equation",
    "Tespy.Report.C110_bus_value",
    "Tespy.Report.C110_overwrite_false",
    "Tespy.Report.C110_figures_false",
    "Tespy.Report.C110_duplicate_label_false",
    "Tespy.Report.C110_slash_false",
    "Tespy.Report.C110_figures_only",
    "Tespy.Report.C110_bus_figure_partial",
    "Tespy.Report.C110_component_result",
    "Tespy.Report.C110_group_element"
   ],
   "note": "Refuted in many points, each with its condition: a reference anywhere in the network (C110_ref_false), a component without documented bus function or an empty bus (C110_bus_false) end the report with an error; with a path that does not end with a slash, such as the default one, figures of combustion engines, of user defined equations and of busses are written to another folder, so that there is no report or a figure is missing (C110_constraint_false, C110_bus_figure_false, C110_figures_false); labels with a slash fail (C110_slash_false); the fluid balance and parameters without a formula, such as the minimum terminal temperature difference, are left out (C110_balance_false, C110_hidden_false, C110_heat_exchanger_false, C110_simple_false); figures are made for components that do not use the characteristic and overwrite each other (C110_unused_figure_false, C110_overwrite_false); labels of equations repeat (C110_duplicate_label_false). The text of equations, the number format and the tables of LaTeX are not modelled."
  },
  {
   "property": "C111",
   "status": "partial",
   "theorems": [
    "Tespy.C111_turbo",
    "Tespy.C111_cone_partial",
    "Tespy.C111_cone_false",
    "Tespy.C111_hex",
    "Tespy.C111_kA_partial",
    "Tespy.C111_kA_false",
    "Tespy.C111_simple_partial",
    "Tespy.C111_hazen_false",
    "Tespy.C111_darcy_false",
    "Tespy.C111_simpleKA_partial",
    "Tespy.C111_simpleKA_false",
    "Tespy.C111_combustion",
    "Tespy.C111_engine_heat_partial",
    "Tespy.C111_engine_heat_false",
    "Tespy.C111_stoich_partial",
    "Tespy.C111_stoich_false",
    "Tespy.C111_lambda_partial",
    "Tespy.C111_lambda_false",
    "Tespy.C111_reactors",
    "Tespy.C111_elec_energy_partial",
    "Tespy.C111_elec_energy_false",
    "Tespy.C111_cell_mass_partial",
    "Tespy.C111_cell_mass_false",
    "Tespy.C111_nodes",
    "Tespy.C111_separator_partial",
    "Tespy.C111_connections",
    "Tespy.C111_connections_partial",
    "Tespy.C111_connections_false",
    "Tespy.C111_char_argument",
    "Tespy.C111_pressure_lines",
    "Tespy.C111_map_partial",
    "Tespy.C111_map_false",
    "Tespy.C111_pressures",
    "Tespy.C111_bus",
    "Tespy.C111_bus_false"
   ],
   "note": "Holds for most equations. Refuted, with the exact set of states that satisfy both, for: the ellipse law of turbines (quotient of volumes upside down), the specified heat of a cooling loop of an engine (sum instead of difference of enthalpies), the air ratio (upside down), the reaction with too little oxygen, the energy balance of water electrolyzers (sign of the hydrogen term), the mass balance of fuel cells (outlet 1 instead of 2), the fluid balance of separators (for each outlet instead of the sum), the difference to boiling (temperature missing), references (sign of delta), Hazen-Williams with reversed flow or rising pressure, Darcy-Weisbach at very small flows, logarithmic differences at equal or crossed temperatures. Compressor maps from the second evaluation on outside of the map (the solved equation drifts, C63). What components add to busses agrees in solved states."
  },
  {
   "property": "C112",
   "status": "partial",
   "theorems": [
    "Tespy.Plotting.C112_single",
    "Tespy.Plotting.C112_exchanger",
    "Tespy.Plotting.C112_separator",
    "Tespy.Plotting.C112_merge",
    "Tespy.Plotting.C112_merge_partial",
    "Tespy.Plotting.C112_merge_false",
    "Tespy.Plotting.C112_drum_false",
    "Tespy.Plotting.C112_none_false",
    "Tespy.Plotting.C112_isoline"
   ],
   "note": "Proved for turbomachines, heat exchangers, pipes, collectors, valves, droplet separators and merges with at most nine inlets. With ten or more inlets the key 2 of a merge is inlet 10 (C112_merge_false), the keys of a drum are not its inlets (C112_drum_false; documented in the code, with a warning), and splitters, separators, combustion chambers, engines, fuel cells and electrolyzers give no data (C112_none_false)."
  },
  {
   "property": "C113",
   "status": "partial",
   "theorems": [
    "Tespy.C113_kinds",
    "Tespy.C113_order",
    "Tespy.C113_words_false"
   ],
   "note": "Proved for all compositions. The words are not always those for the fluid: carbon monoxide is no combustion gas, a mixture of two heat transfer fluids is a gas, and two millionths of methane make nitrogen a combustion gas (C113_words_false)."
  },
  {
   "property": "C114",
   "status": "partial",
   "theorems": [
    "Tespy.C114_ellipse_partial",
    "Tespy.C114_flow",
    "Tespy.C114_pressure",
    "Tespy.C114_rising_false"
   ],
   "note": "Proved for states with the inlet pressure not below the outlet pressure. Refuted without that condition: because of the absolute value the mirror image of the ellipse satisfies the equation as well, so that a turbine may be solved with rising pressure (C114_rising_false); C114_ellipse_partial gives all solutions."
  },
  {
   "property": "C115",
   "status": "partial",
   "theorems": [
    "Tespy.C115_mixed",
    "Tespy.C115_inlet_order",
    "Tespy.C115_lambda",
    "Tespy.C115_thermal_input",
    "Tespy.C115_ti_partial",
    "Tespy.C115_ti_rich_false",
    "Tespy.C115_two_fuel_flows_false",
    "Tespy.C115_outlet",
    "Tespy.C115_more_air",
    "Tespy.C115_efficiency"
   ],
   "note": "Proved for lambda, for the order and mixing of the inlets, and for the thermal input with an air ratio of at least one. Refuted for the thermal input with less air: for a single fuel it is fixed by the oxygen supplied (C115_ti_rich_false), and two fuel flows with the same air have the same thermal input (C115_two_fuel_flows_false)."
  },
  {
   "property": "C116",
   "status": "partial",
   "theorems": [
    "Tespy.C116_lever",
    "Tespy.C116_content",
    "Tespy.C116_two_phase_partial",
    "Tespy.C116_drum_steam",
    "Tespy.C116_drum_circulation",
    "Tespy.C116_drum_heated",
    "Tespy.C116_circulation_flow",
    "Tespy.C116_superheated_false"
   ],
   "note": "Proved except for the direction of the flows at the outlets of a separator: they are in flow direction exactly for saturated and two-phase inlets (C116_two_phase_partial); a separator fed with superheated steam is solved with negative liquid flow (C116_superheated_false). The saturation enthalpies are functions of composition and pressure and not modelled further."
  },
  {
   "property": "C117",
   "status": "partial",
   "theorems": [
    "Tespy.C117_operating_point_partial",
    "Tespy.C117_throttle",
    "Tespy.C117_head",
    "Tespy.C117_rising_false",
    "Tespy.C117_small_flow_false"
   ],
   "note": "Proved for characteristics that do not rise, without extrapolation and over the volumetric flow (the preset), if one of the states has a flow of at least 0.0001; refuted for rising characteristics (two flows solve one circuit) and for flows below 0.0001, which have no loss in the model. Existence of a solution is not claimed."
  },
  {
   "property": "C118",
   "status": "partial",
   "theorems": [
    "Tespy.C118_distribution_partial",
    "Tespy.C118_more_flow",
    "Tespy.C118_share",
    "Tespy.C118_series",
    "Tespy.C118_small_flow_false",
    "Tespy.C118_throttle"
   ],
   "note": "Proved for equal specific volumes in the two states if one branch has a flow of at least 0.0001; below that flow the model has no loss and the distribution is not determined (C118_small_flow_false). Series for equal specific volumes."
  },
  {
   "property": "C119",
   "status": "partial",
   "theorems": [
    "Tespy.C119_turbine",
    "Tespy.C119_compressor",
    "Tespy.C119_ideal",
    "Tespy.C119_stage_efficiency_false",
    "Tespy.C119_intercooling",
    "Tespy.C119_reheating"
   ],
   "note": "Refuted as stated (C119_stage_efficiency_false: two turbine stages of one half reach a lower enthalpy than one turbine); it holds for isentropic stages (C119_ideal). Proved instead for all efficiencies: staged turbines deliver at least the power of one machine and at most the isentropic power, staged pumps and compressors need at least the power of one machine. Fluid properties are hypotheses."
  },
  {
   "property": "C120",
   "status": "partial",
   "theorems": [
    "Tespy.C120_darcy",
    "Tespy.C120_hazen_partial",
    "Tespy.C120_kA_partial",
    "Tespy.C120_hazen_false",
    "Tespy.C120_ambient_false"
   ],
   "note": "Proved for Darcy-Weisbach. For Hazen-Williams proved if the pressure falls along the pipe (the equation also accepts a rise, C120_hazen_false); for heat losses if the ambient temperature is not passed (solutions beyond the ambient temperature exist for large kA, C120_ambient_false)."
  },
  {
   "property": "C121",
   "status": "partial",
   "theorems": [
    "Tespy.C121_clausius",
    "Tespy.C121_carnot",
    "Tespy.C121_heat_pump",
    "Tespy.C121_efficiency_false",
    "Tespy.C121_internal",
    "Tespy.C121_internal_carnot"
   ],
   "note": "Proved for isentropic efficiencies up to one and pressures that do not rise in valves and heat exchangers, for circuits of one fluid without branches, with any number of internal heat exchangers (C121_internal). Refuted for specified efficiencies above one, which the equations accept: a circuit turns all heat into power (C121_efficiency_false)."
  }
 ]
}