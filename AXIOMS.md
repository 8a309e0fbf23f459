# Axioms each theorem of the manifest depends on

Generated from `#print axioms`.

| theorem | axioms |
|---|---|
| `Tespy.C01_unit_roundtrip` | Classical.choice, Quot.sound, propext |
| `Tespy.C01_unlisted_rejected` | Classical.choice, Quot.sound, propext |
| `Tespy.C01_si_unit_identity` | Classical.choice, Quot.sound, propext |
| `Tespy.convertToSI_meaning` | Classical.choice, Quot.sound, propext |
| `Tespy.convertFromSI_meaning` | Classical.choice, Quot.sound, propext |
| `Tespy.C02_order` | Classical.choice, Quot.sound, propext |
| `Tespy.C02_temperature_difference` | Classical.choice, Quot.sound, propext |
| `Tespy.C02_celsius_fahrenheit` | Classical.choice, Quot.sound, propext |
| `Tespy.C04_support_points` | Classical.choice, Quot.sound, propext |
| `Tespy.C04_piecewise_linear` | Classical.choice, Quot.sound, propext |
| `Tespy.C05_constant_outside` | Classical.choice, Quot.sound, propext |
| `Tespy.C05_bounded` | Classical.choice, Quot.sound, propext |
| `Tespy.C05_monotone` | Classical.choice, Quot.sound, propext |
| `Tespy.C05_antitone` | Classical.choice, Quot.sound, propext |
| `Tespy.C06_extrapolation` | Classical.choice, Quot.sound, propext |
| `Tespy.C06_domain_errors` | Classical.choice, Quot.sound, propext |
| `Tespy.C06_warning_names_second_point` | Classical.choice, Quot.sound, propext |
| `Tespy.C03_ranges_consistent` | Classical.choice, Quot.sound, propext |
| `Tespy.C03_units_only_keep_SI` | Classical.choice, Quot.sound, propext |
| `Tespy.C03_range_as_given` | Classical.choice, Quot.sound, propext |
| `Tespy.C03_rejected_call_not_atomic` | Classical.choice, Quot.sound, propext |
| `Tespy.C07_bounded` | Classical.choice, Quot.sound, propext |
| `Tespy.C07_grid_points` | Classical.choice, Quot.sound, propext |
| `Tespy.C07_row_is_line` | Classical.choice, Quot.sound, propext |
| `Tespy.C07_domain_errors_x` | Classical.choice, Quot.sound, propext |
| `Tespy.C08_newton_terminates` | Classical.choice, Quot.sound, propext |
| `Tespy.C08_newton_in_range` | Quot.sound, propext |
| `Tespy.C08_newton_last_step` | Classical.choice, Quot.sound, propext |
| `Tespy.C08_newton_tolerance` | Classical.choice, Quot.sound, propext |
| `Tespy.C08_newton_affine` | Classical.choice, Quot.sound, propext |
| `Tespy.centralDifference_affine` | Classical.choice, Quot.sound, propext |
| `Tespy.C09_state_restored` | Classical.choice, Quot.sound, propext |
| `Tespy.C09_invalid_name` | Quot.sound, propext |
| `Tespy.C09_not_restored_on_exception` | Classical.choice, Quot.sound, propext |
| `Tespy.C10_exact_properties` | Classical.choice, Quot.sound, propext |
| `Tespy.C10_exact_component` | Classical.choice, Quot.sound, propext |
| `Tespy.C10_fluid_partial` | Classical.choice, Quot.sound, propext |
| `Tespy.C10_half_slope_at_zero` | Classical.choice, Quot.sound, propext |
| `Tespy.C10_error` | Classical.choice, Quot.sound, propext |
| `Tespy.C10_error_sharp` | Classical.choice, Quot.sound, propext |
| `Tespy.C10_mean_value` | Classical.choice, Quot.sound, propext |
| `Tespy.C10_fraction_partial` | Classical.choice, Quot.sound, propext |
| `Tespy.C11_labels_unique` | Classical.choice, Quot.sound, propext |
| `Tespy.C11_components_exact_partial` | Classical.choice, Quot.sound, propext |
| `Tespy.C11_failed_add_leaves_orphan_connection` | propext |
| `Tespy.C11_failed_delete_leaves_orphan_component` | propext |
| `Tespy.C11_result_tables` | Classical.choice, Quot.sound, propext |
| `Tespy.C11_del_ude` | Quot.sound, propext |
| `Tespy.C11_add_ude` | Quot.sound, propext |
| `Tespy.C11_add_busses` | Classical.choice, Quot.sound, propext |
| `Tespy.C11_del_busses` | Classical.choice, Quot.sound, propext |
| `Tespy.C11_add_conns` | Classical.choice, Quot.sound, propext |
| `Tespy.C11_del_conns` | Classical.choice, Quot.sound, propext |
| `Tespy.C11_bus_label_false` | Quot.sound, propext |
| `Tespy.C12_recheck_partial` | Quot.sound, propext |
| `Tespy.C12_stale_check_after_failed_delete` | propext |
| `Tespy.C13_every_connector_once_partial` | Classical.choice, Quot.sound, propext |
| `Tespy.C13_double_use_rejected` | Classical.choice, Quot.sound, propext |
| `Tespy.C13_missing_connection_rejected` | Classical.choice, Quot.sound, propext |
| `Tespy.C13_undeclared_connector_accepted` | propext |
| `Tespy.C14_same_number` | Classical.choice, Quot.sound, propext |
| `Tespy.C14_paired_outlet` | Classical.choice, Quot.sound, propext |
| `Tespy.C15_branch_search` | Classical.choice, Quot.sound, propext |
| `Tespy.C15_no_source_rejected` | Classical.choice, Quot.sound, propext |
| `Tespy.C15_loop_without_closer_not_collected` | Classical.choice, Quot.sound, propext |
| `Tespy.C16_flatten_preorder` | Classical.choice, Quot.sound, propext |
| `Tespy.MHeap.C17_one_mass_flow_per_branch` | Classical.choice, Quot.sound, propext |
| `Tespy.MHeap.C17_error_iff` | Classical.choice, Quot.sound, propext |
| `Tespy.MHeap.C17_shared_iff` | Classical.choice, Quot.sound, propext |
| `Tespy.MHeap.C18_reset_restores` | Classical.choice, Quot.sound, propext |
| `Tespy.FlHeap.C18_fluid_reset_restores` | Quot.sound, propext |
| `Tespy.MHeap.C19_second_presolve_fails` | Classical.choice, Quot.sound, propext |
| `Tespy.MHeap.C19_containers_lost` | Classical.choice, Quot.sound, propext |
| `Tespy.MHeap.C19_reset_after_abort_partial` | Classical.choice, Quot.sound, propext |
| `Tespy.C20_rejected` | Classical.choice, Quot.sound, propext |
| `Tespy.C20_completed_partial` | Classical.choice, Quot.sound, propext |
| `Tespy.C20_unspecified` | Quot.sound, propext |
| `Tespy.C20_incomplete_accepted` | Classical.choice, Quot.sound, propext |
| `Tespy.FlHeap.C51_branches_separate_partial` | Quot.sound, propext |
| `Tespy.FlHeap.C51_compositions_stay_shared` | Quot.sound, propext |
| `Tespy.C21_columns` | Quot.sound, propext |
| `Tespy.C22_square` | Quot.sound, propext |
| `Tespy.C23_terminates` | Classical.choice, Quot.sound, propext |
| `Tespy.C23_sound` | Classical.choice, Quot.sound, propext |
| `Tespy.C23_nan` | Classical.choice, Quot.sound, propext |
| `Tespy.C23_complete` | Classical.choice, Quot.sound, propext |
| `Tespy.C23_abort` | Classical.choice, Quot.sound, propext |
| `Tespy.C24_rows_partial` | Quot.sound, propext |
| `Tespy.C24_empty_jacobian_shifts_rows` | propext |
| `Tespy.C25_update_bounds` | Classical.choice, Quot.sound, propext |
| `Tespy.C25_full_step` | Classical.choice, Quot.sound, propext |
| `Tespy.C26_sum_iff` | Classical.choice, Quot.sound, propext |
| `Tespy.C26_sum_one_partial` | Classical.choice, Quot.sound, propext |
| `Tespy.C26_fixed_and_variable` | Classical.choice, Quot.sound, propext |
| `Tespy.C26_all_zero` | Classical.choice, Quot.sound, propext |
| `Tespy.C27_call` | Classical.choice, Quot.sound, propext |
| `Tespy.C27_value` | Classical.choice, Quot.sound, propext |
| `Tespy.C27_start` | Classical.choice, Quot.sound, propext |
| `Tespy.C27_reference` | Classical.choice, Quot.sound, propext |
| `Tespy.C27_variable_iff_unset` | Classical.choice, Quot.sound, propext |
| `Tespy.C27_fluid` | Classical.choice, Quot.sound, propext |
| `Tespy.C27_fluid_consistent` | Classical.choice, Quot.sound, propext |
| `Tespy.C27_fluid_keywords` | Classical.choice, Quot.sound, propext |
| `Tespy.C27_settings` | Classical.choice, Quot.sound, propext |
| `Tespy.C27_error_unchanged` | Classical.choice, Quot.sound, propext |
| `Tespy.C27_nan_specifies` | Classical.choice, Quot.sound, propext |
| `Tespy.C27_internal_keyword` | Classical.choice, Quot.sound, propext |
| `Tespy.C27_not_atomic` | Classical.choice, Quot.sound, propext |
| `Tespy.C27_last_setting` | Classical.choice, Quot.sound, propext |
| `Tespy.C27_default_setting` | Classical.choice, Quot.sound, propext |
| `Tespy.C28_degrees_of_freedom` | Quot.sound, propext |
| `Tespy.C28_rejected_iff` | Quot.sound, propext |
| `Tespy.C28_values_partial` | Quot.sound, propext |
| `Tespy.C28_boiling_difference_wrong` | Classical.choice, Quot.sound, propext |
| `Tespy.C28_overdetermined_accepted` | Classical.choice, Quot.sound, propext |
| `Tespy.C29_call` | Quot.sound, propext |
| `Tespy.C29_parameter` | Classical.choice, Quot.sound, propext |
| `Tespy.C29_unknown_rejected` | propext |
| `Tespy.C29_wrong_type_partial` | Quot.sound, propext |
| `Tespy.C29_group_ignored` | propext |
| `Tespy.C29_nan_specifies` | Classical.choice, Quot.sound, propext |
| `Tespy.C29_not_atomic` | Quot.sound, propext |
| `Tespy.C30_groups` | Quot.sound, propext |
| `Tespy.C30_announced` | Classical.choice, Quot.sound, propext |
| `Tespy.C30_rows` | Quot.sound, propext |
| `Tespy.C30_mandatory` | Classical.choice, Quot.sound, propext |
| `Tespy.C30_mandatory_rows` | Classical.choice, Quot.sound, propext |
| `Tespy.C30_merge_iff` | Classical.choice, Quot.sound, propext |
| `Tespy.C30_merge_mismatch` | Classical.choice, Quot.sound, propext |
| `Tespy.C30_fuel_cell_error` | propext |
| `Tespy.C30_fuel_cell_rows` | Classical.choice, Quot.sound, propext |
| `Tespy.C34_merge_balances` | Classical.choice, Quot.sound, propext |
| `Tespy.C34_mixture` | Classical.choice, Quot.sound, propext |
| `Tespy.C34_backflow_false` | Classical.choice, Quot.sound, propext |
| `Tespy.C35_splitter` | Classical.choice, Quot.sound, propext |
| `Tespy.C35_separator_partial` | Classical.choice, Quot.sound, propext |
| `Tespy.C35_separator_all_partial` | Classical.choice, Quot.sound, propext |
| `Tespy.C35_separator_loses_species` | Classical.choice, Quot.sound, propext |
| `Tespy.C36_drum` | Classical.choice, Quot.sound, propext |
| `Tespy.C36_droplet_separator` | Classical.choice, Quot.sound, propext |
| `Tespy.C36_drum_network` | Classical.choice, Quot.sound, propext |
| `Tespy.C38_electrolyzer_partial` | Classical.choice, Quot.sound, propext |
| `Tespy.C38_fuel_cell_partial` | Classical.choice, Quot.sound, propext |
| `Tespy.C38_electrolyzer_unbalanced` | Classical.choice, Quot.sound, propext |
| `Tespy.C49_primary_partial` | Classical.choice, Quot.sound, propext |
| `Tespy.C49_primary_shared` | Classical.choice, Quot.sound, propext |
| `Tespy.C49_T_partial` | Classical.choice, Quot.sound, propext |
| `Tespy.C49_T_fluid` | Classical.choice, Quot.sound, propext |
| `Tespy.C49_v_partial` | Classical.choice, Quot.sound, propext |
| `Tespy.C49_v_same_branch` | Classical.choice, Quot.sound, propext |
| `Tespy.C50_node_mass` | Classical.choice, Quot.sound, propext |
| `Tespy.C50_node_energy` | Classical.choice, Quot.sound, propext |
| `Tespy.C50_merge_energy` | Classical.choice, Quot.sound, propext |
| `Tespy.C50_merge_fluid` | Classical.choice, Quot.sound, propext |
| `Tespy.C50_separator_fluid` | Classical.choice, Quot.sound, propext |
| `Tespy.C50_node_pressure` | Classical.choice, Quot.sound, propext |
| `Tespy.C50_splitter_energy` | Classical.choice, Quot.sound, propext |
| `Tespy.C50_equality` | Classical.choice, Quot.sound, propext |
| `Tespy.C50_heat_exchanger_partial` | Classical.choice, Quot.sound, propext |
| `Tespy.C50_recuperator` | Classical.choice, Quot.sound, propext |
| `Tespy.C50_flow_energy` | Classical.choice, Quot.sound, propext |
| `Tespy.C50_drum` | Classical.choice, Quot.sound, propext |
| `Tespy.C50_pressure_ratio_partial` | Classical.choice, Quot.sound, propext |
| `Tespy.C50_pressure_ratio_error` | Classical.choice, Quot.sound, propext |
| `Tespy.C50_pressure_drop_partial` | Classical.choice, Quot.sound, propext |
| `Tespy.C50_pressure_drop_variable` | Classical.choice, Quot.sound, propext |
| `Tespy.C50_temperature` | Classical.choice, Quot.sound, propext |
| `Tespy.C50_volume_partial` | Classical.choice, Quot.sound, propext |
| `Tespy.C50_volume_fluid` | Classical.choice, Quot.sound, propext |
| `Tespy.C50_quality` | Classical.choice, Quot.sound, propext |
| `Tespy.C50_boiling_distance` | Classical.choice, Quot.sound, propext |
| `Tespy.C50_fluid_balance` | Classical.choice, Quot.sound, propext |
| `Tespy.C50_outlet_states` | Classical.choice, Quot.sound, propext |
| `Tespy.C50_separator_energy_partial` | Classical.choice, Quot.sound, propext |
| `Tespy.C50_separator_specified` | Classical.choice, Quot.sound, propext |
| `Tespy.C50_electrolyzer_mass` | Classical.choice, Quot.sound, propext |
| `Tespy.C32_residual` | Quot.sound, propext |
| `Tespy.C32_derivatives` | Quot.sound, propext |
| `Tespy.C32_rows` | Quot.sound, propext |
| `Tespy.C32_set_attr` | Quot.sound, propext |
| `Tespy.C32_reported` | Quot.sound, propext |
| `Tespy.C32_specification_replaced` | Classical.choice, Quot.sound, propext |
| `Tespy.C33_component` | Classical.choice, Quot.sound, propext |
| `Tespy.C33_bus` | Classical.choice, Quot.sound, propext |
| `Tespy.C33_numeric` | Classical.choice, Quot.sound, propext |
| `Tespy.C33_bus_numeric` | Classical.choice, Quot.sound, propext |
| `Tespy.C33_bus_load_partial` | Classical.choice, Quot.sound, propext |
| `Tespy.C33_bus_load_false` | Classical.choice, Quot.sound, propext |
| `Tespy.C33_design_point` | Classical.choice, Quot.sound, propext |
| `Tespy.C33_add_comps` | Quot.sound, propext |
| `Tespy.C33_add_comps_not_atomic` | Quot.sound, propext |
| `Tespy.C33_design_load` | Quot.sound, propext |
| `Tespy.C33_determined_partial` | Classical.choice, Quot.sound, propext |
| `Tespy.C33_two_loads_false` | Classical.choice, Quot.sound, propext |
| `Tespy.C52_first_calculation_partial` | Classical.choice, Quot.sound, propext |
| `Tespy.C52_columns_kept` | Classical.choice, Quot.sound, propext |
| `Tespy.C52_stale_columns` | Classical.choice, Quot.sound, propext |
| `Tespy.C46_values` | Quot.sound, propext |
| `Tespy.C46_completes` | Quot.sound, propext |
| `Tespy.C46_empty_dictionary` | none |
| `Tespy.C46_arguments_unmodified` | Quot.sound, propext |
| `Tespy.C46_result_independent` | Quot.sound, propext |
| `Tespy.C47_variables` | Quot.sound, propext |
| `Tespy.C47_decision_vector` | Classical.choice, Quot.sound, propext |
| `Tespy.C47_length` | Classical.choice, Quot.sound, propext |
| `Tespy.C47_fitness` | Classical.choice, Quot.sound, propext |
| `Tespy.C47_constraint_names` | Classical.choice, Quot.sound, propext |
| `Tespy.C54_valid_partial` | Classical.choice, Quot.sound, propext |
| `Tespy.C54_limit_reached` | Classical.choice, Quot.sound, propext |
| `Tespy.C54_table` | Classical.choice, Quot.sound, propext |
| `Tespy.C54_valid` | Classical.choice, Quot.sound, propext |
| `Tespy.C43_molar_fractions` | Classical.choice, Quot.sound, propext |
| `Tespy.C43_condensation` | Classical.choice, Quot.sound, propext |
| `Tespy.C43_dry` | Quot.sound, propext |
| `Tespy.C43_pure_water` | Classical.choice, Quot.sound, propext |
| `Tespy.C44_pure_fluid` | Classical.choice, Quot.sound, propext |
| `Tespy.C44_single_species` | Classical.choice, Quot.sound, propext |
| `Tespy.C44_incompressible_mean` | Classical.choice, Quot.sound, propext |
| `Tespy.C44_precision_incompressible` | Quot.sound, propext |
| `Tespy.C44_absent_species_partial` | Classical.choice, Quot.sound, propext |
| `Tespy.C44_ideal_gas` | Classical.choice, Quot.sound, propext |
| `Tespy.C44_precision_ideal_false` | Classical.choice, Quot.sound, propext |
| `Tespy.C44_mixing_rules` | Classical.choice, Quot.sound, propext |
| `Tespy.C44_no_water` | Quot.sound, propext |
| `Tespy.C44_unknown_rule` | Quot.sound, propext |
| `Tespy.C55_enthalpy_partial` | Classical.choice, Quot.sound, propext |
| `Tespy.C55_entropy` | Classical.choice, Quot.sound, propext |
| `Tespy.C55_onset_false` | Classical.choice, Quot.sound, propext |
| `Tespy.C55_onset_value` | Classical.choice, Quot.sound, propext |
| `Tespy.C55_rule_partial` | Classical.choice, Quot.sound, propext |
| `Tespy.C56_densities` | Classical.choice, Quot.sound, propext |
| `Tespy.C56_value` | Classical.choice, Quot.sound, propext |
| `Tespy.C42_physical_exergy` | Quot.sound, propext |
| `Tespy.C42_pump` | Quot.sound, propext |
| `Tespy.C42_turbine` | Quot.sound, propext |
| `Tespy.C42_valve` | Quot.sound, propext |
| `Tespy.C42_gouy_stodola` | Quot.sound, propext |
| `Tespy.C42_heat_exchanger` | Quot.sound, propext |
| `Tespy.C42_heat_exchanger_gouy_stodola` | Classical.choice, Quot.sound, propext |
| `Tespy.C42_drum` | Quot.sound, propext |
| `Tespy.C42_combustion` | Quot.sound, propext |
| `Tespy.C42_merge_partial` | Quot.sound, propext |
| `Tespy.C42_merge_gouy_stodola` | Quot.sound, propext |
| `Tespy.C42_merge_ambient` | Classical.choice, Quot.sound, propext |
| `Tespy.C42_simple_partial` | Classical.choice, Quot.sound, propext |
| `Tespy.C42_simple_cold_partial` | Classical.choice, Quot.sound, propext |
| `Tespy.C42_simple_heated_partial` | Classical.choice, Quot.sound, propext |
| `Tespy.C42_simple_crossing_false` | Classical.choice, Quot.sound, propext |
| `Tespy.C42_simple_refrigeration_false` | Classical.choice, Quot.sound, propext |
| `Tespy.C42_electrolyzer` | Quot.sound, propext |
| `Tespy.C42_efficiency` | Quot.sound, propext |
| `Tespy.C42_dissipative` | Quot.sound, propext |
| `Tespy.C42_efficiency_range` | Classical.choice, Quot.sound, propext |
| `Tespy.C57_balance_closes` | Classical.choice, Quot.sound, propext |
| `Tespy.C57_sign` | Classical.choice, Quot.sound, propext |
| `Tespy.C57_no_bus_dictionary` | Quot.sound, propext |
| `Tespy.C58_groups_partial` | Quot.sound, propext |
| `Tespy.C58_groups_false` | Classical.choice, Quot.sound, propext |
| `Tespy.C39_heat_exchanger` | Classical.choice, Quot.sound, propext |
| `Tespy.C39_results_exist` | Classical.choice, Quot.sound, propext |
| `Tespy.C39_ttd_min_partial` | Classical.choice, Quot.sound, propext |
| `Tespy.C39_zeta_partial` | Classical.choice, Quot.sound, propext |
| `Tespy.C39_kA_partial` | Classical.choice, Quot.sound, propext |
| `Tespy.C39_simple_kA_partial` | Classical.choice, Quot.sound, propext |
| `Tespy.C39_turbomachines` | Classical.choice, Quot.sound, propext |
| `Tespy.C39_eta_reported` | Classical.choice, Quot.sound, propext |
| `Tespy.C39_ttd_min_condenser_false` | Classical.choice, Quot.sound, propext |
| `Tespy.C39_kA_false` | Classical.choice, Quot.sound, propext |
| `Tespy.C39_zero_difference_false` | Classical.choice, Quot.sound, propext |
| `Tespy.C39_zeta_reverse` | Classical.choice, Quot.sound, propext |
| `Tespy.C39_zeta_standstill` | Classical.choice, Quot.sound, propext |
| `Tespy.C39_simple_kA_false` | Classical.choice, Quot.sound, propext |
| `Tespy.C40_heat_exchanger` | Classical.choice, Quot.sound, propext |
| `Tespy.C40_condenser_partial` | Classical.choice, Quot.sound, propext |
| `Tespy.C40_condenser_false` | Classical.choice, Quot.sound, propext |
| `Tespy.C40_simple` | Classical.choice, Quot.sound, propext |
| `Tespy.C40_simple_value` | Classical.choice, Quot.sound, propext |
| `Tespy.C40_simple_false` | Classical.choice, Quot.sound, propext |
| `Tespy.C41_load_one` | Classical.choice, Quot.sound, propext |
| `Tespy.C41_eta_s_char` | Classical.choice, Quot.sound, propext |
| `Tespy.C41_eta_s_design` | Classical.choice, Quot.sound, propext |
| `Tespy.C41_cone` | Classical.choice, Quot.sound, propext |
| `Tespy.C41_cone_design` | Classical.choice, Quot.sound, propext |
| `Tespy.C41_cone_no_drop` | Classical.choice, Quot.sound, propext |
| `Tespy.C41_kA_char` | Classical.choice, Quot.sound, propext |
| `Tespy.C41_kA_char_design` | Classical.choice, Quot.sound, propext |
| `Tespy.C41_zero_load` | Classical.choice, Quot.sound, propext |
| `Tespy.C48_sections` | Classical.choice, Quot.sound, propext |
| `Tespy.C48_pinch_partial` | Classical.choice, Quot.sound, propext |
| `Tespy.C48_pinch_false` | Classical.choice, Quot.sound, propext |
| `Tespy.C48_UA_bounds` | Classical.choice, Quot.sound, propext |
| `Tespy.C48_UA_crossing` | Classical.choice, Quot.sound, propext |
| `Tespy.C48_UA_exact` | Classical.choice, Quot.sound, propext |
| `Tespy.C48_pinch_everywhere` | Classical.choice, Quot.sound, propext |
| `Tespy.C48_equations` | Classical.choice, Quot.sound, propext |
| `Tespy.C48_pinch_inside_false` | Classical.choice, Quot.sound, propext |
| `Tespy.C48_reversed_partial` | Classical.choice, Quot.sound, propext |
| `Tespy.C48_reversed_false` | Classical.choice, Quot.sound, propext |
| `Tespy.C59_darcy` | Classical.choice, Quot.sound, propext |
| `Tespy.C59_zeta` | Classical.choice, Quot.sound, propext |
| `Tespy.C59_hazen_williams_partial` | Classical.choice, Quot.sound, propext |
| `Tespy.C59_hazen_williams_false` | Classical.choice, Quot.sound, propext |
| `Tespy.C59_zeta_meaning` | Classical.choice, Quot.sound, propext |
| `Tespy.C59_zeta_flow` | Classical.choice, Quot.sound, propext |
| `Tespy.C59_zeta_small_false` | Classical.choice, Quot.sound, propext |
| `Tespy.C59_hazen_meaning` | Classical.choice, Quot.sound, propext |
| `Tespy.C59_hazen_grows` | Classical.choice, Quot.sound, propext |
| `Tespy.C59_hazen_flow` | Classical.choice, Quot.sound, propext |
| `Tespy.C37_element_balance` | Classical.choice, Quot.sound, propext |
| `Tespy.C37_elements_partial` | Classical.choice, Quot.sound, propext |
| `Tespy.C37_rich_false` | Classical.choice, Quot.sound, propext |
| `Tespy.C37_mass_balance` | Classical.choice, Quot.sound, propext |
| `Tespy.C37_mass_partial` | Classical.choice, Quot.sound, propext |
| `Tespy.C37_fractions` | Classical.choice, Quot.sound, propext |
| `Tespy.C37_rich_example` | Classical.choice, Quot.sound, propext |
| `Tespy.C45_network_partial` | Classical.choice, Quot.sound, propext |
| `Tespy.C45_vol_unit_false` | Classical.choice, Quot.sound, propext |
| `Tespy.C45_connections_partial` | Classical.choice, Quot.sound, propext |
| `Tespy.C45_no_connections` | Classical.choice, Quot.sound, propext |
| `Tespy.C45_loaded_fluid_false` | Classical.choice, Quot.sound, propext |
| `Tespy.C45_reference_false` | Classical.choice, Quot.sound, propext |
| `Tespy.C45_local_offdesign_false` | Classical.choice, Quot.sound, propext |
| `Tespy.C45_component_partial` | Classical.choice, Quot.sound, propext |
| `Tespy.C45_components_partial` | Classical.choice, Quot.sound, propext |
| `Tespy.C45_group_false` | Classical.choice, Quot.sound, propext |
| `Tespy.C45_bus_partial` | Quot.sound, propext |
| `Tespy.C45_bus_label_false` | Quot.sound, propext |
| `Tespy.C45_save_overwrites_false` | Quot.sound, propext |
| `Tespy.C45_characteristic_kind` | propext |
| `Tespy.C60_enthalpy_partial` | Classical.choice, Quot.sound, propext |
| `Tespy.C60_diabatic` | Classical.choice, Quot.sound, propext |
| `Tespy.C31_offdesign_flags` | Classical.choice, Quot.sound, propext |
| `Tespy.C31_connections_partial` | Classical.choice, Quot.sound, propext |
| `Tespy.C31_components` | Quot.sound, propext |
| `Tespy.C31_mass_flow_false` | Quot.sound, propext |
| `Tespy.C31_reference_false` | Quot.sound, propext |
| `Tespy.C31_unspecified_false` | Quot.sound, propext |
| `Tespy.C31_offdesign_list_error` | Quot.sound, propext |
| `Tespy.C31_value_false` | Classical.choice, Quot.sound, propext |
| `Tespy.C53_specified_partial` | Classical.choice, Quot.sound, propext |
| `Tespy.C53_temperature_false` | Classical.choice, Quot.sound, propext |
| `Tespy.C61_first_partial` | Classical.choice, Quot.sound, propext |
| `Tespy.C61_kept_partial` | Quot.sound, propext |
| `Tespy.C61_moved_false` | Quot.sound, propext |
| `Tespy.C62_variables_false` | Quot.sound, propext |
| `Tespy.C63_residual` | Classical.choice, Quot.sound, propext |
| `Tespy.C63_unchanged_partial` | Classical.choice, Quot.sound, propext |
| `Tespy.C63_drift` | Classical.choice, Quot.sound, propext |
| `Tespy.C63_false` | Classical.choice, Quot.sound, propext |
| `Tespy.C63_derivative_false` | Classical.choice, Quot.sound, propext |
| `Tespy.C63_check_false` | Classical.choice, Quot.sound, propext |
| `Tespy.C63_derivative_partial` | Classical.choice, Quot.sound, propext |
| `Tespy.C64_search_partial` | Classical.choice, Quot.sound, propext |
| `Tespy.C64_groups_partial` | Classical.choice, Quot.sound, propext |
| `Tespy.C64_engine_false` | Classical.choice, Quot.sound, propext |
| `Tespy.C65_disjoint_partial` | Classical.choice, Quot.sound, propext |
| `Tespy.C65_overlap_false` | Classical.choice, Quot.sound, propext |
| `Tespy.C66_same_fluids_partial` | Classical.choice, Quot.sound, propext |
| `Tespy.C66_known_partial` | Classical.choice, Quot.sound, propext |
| `Tespy.C66_values_partial` | Classical.choice, Quot.sound, propext |
| `Tespy.C66_accepted_iff` | Classical.choice, Quot.sound, propext |
| `Tespy.C66_rule_conflict` | Classical.choice, Quot.sound, propext |
| `Tespy.C66_single_false` | Classical.choice, Quot.sound, propext |
| `Tespy.C66_fluid0_false` | Classical.choice, Quot.sound, propext |
| `Tespy.C66_overlap_false` | Classical.choice, Quot.sound, propext |
| `Tespy.C67_first_partial` | Classical.choice, Quot.sound, propext |
| `Tespy.C67_engine_false` | Classical.choice, Quot.sound, propext |
| `Tespy.C67_rule_false` | Classical.choice, Quot.sound, propext |
| `Tespy.C68_last_step_partial` | Classical.choice, Quot.sound, propext |
| `Tespy.C68_contracting_partial` | Classical.choice, Quot.sound, propext |
| `Tespy.C68_linear_partial` | Classical.choice, Quot.sound, propext |
| `Tespy.C68_false` | Classical.choice, Quot.sound, propext |
| `Tespy.C69_fixed` | Quot.sound, propext |
| `Tespy.C70_mass_partial` | Quot.sound, propext |
| `Tespy.C70_pure_partial` | Classical.choice, Quot.sound, propext |
| `Tespy.C70_mixture_partial` | Quot.sound, propext |
| `Tespy.C70_unchanged_partial` | Classical.choice, Quot.sound, propext |
| `Tespy.C70_search_ends` | Classical.choice, Quot.sound, propext |
| `Tespy.C70_phase_partial` | Classical.choice, Quot.sound, propext |
| `Tespy.C70_temperature_partial` | Quot.sound, propext |
| `Tespy.C70_range_false` | Classical.choice, Quot.sound, propext |
| `Tespy.C70_enthalpy_false` | Classical.choice, Quot.sound, propext |
| `Tespy.C70_late_false` | Classical.choice, Quot.sound, propext |
| `Tespy.C70_phase_false` | Classical.choice, Quot.sound, propext |
| `Tespy.C71_compressor_partial` | Classical.choice, Quot.sound, propext |
| `Tespy.C71_turbine_partial` | Classical.choice, Quot.sound, propext |
| `Tespy.C71_pump_partial` | Classical.choice, Quot.sound, propext |
| `Tespy.C71_pump_flow_partial` | Classical.choice, Quot.sound, propext |
| `Tespy.C71_unchanged` | Quot.sound, propext |
| `Tespy.C71_compressor_false` | Classical.choice, Quot.sound, propext |
| `Tespy.C71_pump_false` | Classical.choice, Quot.sound, propext |
| `Tespy.C71_turbine_false` | Classical.choice, Quot.sound, propext |
| `Tespy.C71_pump_flow_false` | Classical.choice, Quot.sound, propext |
| `Tespy.C72_valid_partial` | Classical.choice, Quot.sound, propext |
| `Tespy.C72_flow_partial` | Classical.choice, Quot.sound, propext |
| `Tespy.C72_lambda` | Quot.sound, propext |
| `Tespy.C72_order_false` | Classical.choice, Quot.sound, propext |
| `Tespy.C72_crash_false` | Classical.choice, Quot.sound, propext |
| `Tespy.C72_fixed_false` | Classical.choice, Quot.sound, propext |
| `Tespy.C72_composition_partial` | Classical.choice, Quot.sound, propext |
| `Tespy.C73_fixed_partial` | Quot.sound, propext |
| `Tespy.C73_reference_false` | Classical.choice, Quot.sound, propext |
| `Tespy.C74_number` | Quot.sound, propext |
| `Tespy.C74_user_partial` | Quot.sound, propext |
| `Tespy.C74_generic_partial` | Classical.choice, Quot.sound, propext |
| `Tespy.C74_mass_partial` | Quot.sound, propext |
| `Tespy.C74_reference_partial` | Classical.choice, Quot.sound, propext |
| `Tespy.C74_phase_partial` | Classical.choice, Quot.sound, propext |
| `Tespy.C74_outlet_partial` | Classical.choice, Quot.sound, propext |
| `Tespy.C74_inlet_partial` | Classical.choice, Quot.sound, propext |
| `Tespy.C74_documented_false` | Classical.choice, Quot.sound, propext |
| `Tespy.C74_mass_unit_false` | Classical.choice, Quot.sound, propext |
| `Tespy.C74_branch_false` | Classical.choice, Quot.sound, propext |
| `Tespy.C74_turbomachine_false` | Classical.choice, Quot.sound, propext |
| `Tespy.C75_units_partial` | Quot.sound, propext |
| `Tespy.C75_values_partial` | Quot.sound, propext |
| `Tespy.C75_next_run_false` | Classical.choice, Quot.sound, propext |
| `Tespy.C76_left_over_partial` | Quot.sound, propext |
| `Tespy.C76_results_partial` | Classical.choice, Quot.sound, propext |
| `Tespy.C76_reference_partial` | Classical.choice, Quot.sound, propext |
| `Tespy.C76_previous_false` | Classical.choice, Quot.sound, propext |
| `Tespy.C77_rows_partial` | Classical.choice, Quot.sound, propext |
| `Tespy.C77_current_partial` | Quot.sound, propext |
| `Tespy.C77_derivatives_false` | Classical.choice, Quot.sound, propext |
| `Tespy.C77_rows_false` | Classical.choice, Quot.sound, propext |
| `Tespy.C77_abort_false` | Classical.choice, Quot.sound, propext |
| `Tespy.C78_history` | Quot.sound, propext |
| `Tespy.C78_values` | Quot.sound, propext |
| `Tespy.C78_backends_partial` | Quot.sound, propext |
| `Tespy.C78_isentropic` | Quot.sound, propext |
| `Tespy.C78_phase_quality` | Quot.sound, propext |
| `Tespy.C78_supercritical` | Classical.choice, Quot.sound, propext |
| `Tespy.C78_monotone_false` | Classical.choice, Quot.sound, propext |
| `Tespy.C78_psat_false` | Classical.choice, Quot.sound, propext |
| `Tespy.C78_phase_false` | none |
| `Tespy.C78_incompressible_false` | Quot.sound, propext |
| `Tespy.C78_pyromat_false` | none |
| `Tespy.C79_range` | Classical.choice, Quot.sound, propext |
| `Tespy.C79_inverse_partial` | Classical.choice, Quot.sound, propext |
| `Tespy.C79_roundtrip` | Classical.choice, Quot.sound, propext |
| `Tespy.C79_temperature_derivatives` | Classical.choice, Quot.sound, propext |
| `Tespy.C79_isentropic_partial` | Classical.choice, Quot.sound, propext |
| `Tespy.C79_pure` | Quot.sound, propext |
| `Tespy.C79_no_rule` | Classical.choice, Quot.sound, propext |
| `Tespy.C79_volume_flow_false` | Classical.choice, Quot.sound, propext |
| `Tespy.C79_fraction_partial` | Classical.choice, Quot.sound, propext |
| `Tespy.C79_fraction_false` | Classical.choice, Quot.sound, propext |
| `Tespy.C79_out_of_range_false` | Classical.choice, Quot.sound, propext |
| `Tespy.C79_volume_start_false` | Classical.choice, Quot.sound, propext |
| `Tespy.C79_start` | Quot.sound, propext |
| `Tespy.C79_difference_error` | Classical.choice, Quot.sound, propext |
| `Tespy.C79_saturation` | Classical.choice, Quot.sound, propext |
| `Tespy.C79_saturation_error` | Classical.choice, Quot.sound, propext |
| `Tespy.C80_positive` | Classical.choice, Quot.sound, propext |
| `Tespy.C80_explicit` | Classical.choice, Quot.sound, propext |
| `Tespy.C80_smooth_partial` | Classical.choice, Quot.sound, propext |
| `Tespy.C80_rough_partial` | Classical.choice, Quot.sound, propext |
| `Tespy.C80_pipe` | Classical.choice, Quot.sound, propext |
| `Tespy.C80_monotone_false` | Classical.choice, Quot.sound, propext |
| `Tespy.C80_zero_false` | Classical.choice, Quot.sound, propext |
| `Tespy.C80_documented_false` | Classical.choice, Quot.sound, propext |
| `Tespy.C80_large_false` | Classical.choice, Quot.sound, propext |
| `Tespy.C80_rough` | Classical.choice, Quot.sound, propext |
| `Tespy.C80_smooth` | Classical.choice, Quot.sound, propext |
| `Tespy.C80_rough_tolerance_false` | Classical.choice, Quot.sound, propext |
| `Tespy.C80_smooth_false` | Classical.choice, Quot.sound, propext |
| `Tespy.C80_flow_partial` | Classical.choice, Quot.sound, propext |
| `Tespy.C80_no_flow_false` | Classical.choice, Quot.sound, propext |
| `Tespy.C80_two_flows_false` | Classical.choice, Quot.sound, propext |
| `Tespy.C81_energy` | Quot.sound, propext |
| `Tespy.C81_shares` | Classical.choice, Quot.sound, propext |
| `Tespy.C81_reported` | Classical.choice, Quot.sound, propext |
| `Tespy.C81_bus` | Classical.choice, Quot.sound, propext |
| `Tespy.C81_bus_params` | Quot.sound, propext |
| `Tespy.C81_derivative_partial` | Classical.choice, Quot.sound, propext |
| `Tespy.C81_series_false` | Classical.choice, Quot.sound, propext |
| `Tespy.C81_direct_false` | Classical.choice, Quot.sound, propext |
| `Tespy.C81_composition_false` | Classical.choice, Quot.sound, propext |
| `Tespy.C81_entropy_partial` | Classical.choice, Quot.sound, propext |
| `Tespy.C81_entropy_internal_false` | Classical.choice, Quot.sound, propext |
| `Tespy.C81_entropy_heater_false` | Classical.choice, Quot.sound, propext |
| `Tespy.C81_exergy_false` | Quot.sound, propext |
| `Tespy.C81_exergy_numbers` | Quot.sound, propext |
| `Tespy.C81_exergy_type` | Quot.sound, propext |
| `Tespy.C82_registry` | Quot.sound, propext |
| `Tespy.C82_create` | Quot.sound, propext |
| `Tespy.C82_add` | Quot.sound, propext |
| `Tespy.C82_add_taken` | propext |
| `Tespy.C82_add_not_atomic_false` | Quot.sound, propext |
| `Tespy.C82_del` | Classical.choice, Quot.sound, propext |
| `Tespy.C82_del_other_false` | Quot.sound, propext |
| `Tespy.C82_connections` | Quot.sound, propext |
| `Tespy.C82_connections_kept` | Quot.sound, propext |
| `Tespy.C82_connections_missing` | Quot.sound, propext |
| `Tespy.C82_connections_replaced_false` | Quot.sound, propext |
| `Tespy.C82_lists_kept` | Quot.sound, propext |
| `Tespy.C82_params_partial` | Classical.choice, Quot.sound, propext |
| `Tespy.C82_params_false` | Classical.choice, Quot.sound, propext |
| `Tespy.C83_elec_energy` | Classical.choice, Quot.sound, propext |
| `Tespy.C83_elec_reported` | Classical.choice, Quot.sound, propext |
| `Tespy.C83_elec_char` | Classical.choice, Quot.sound, propext |
| `Tespy.C83_elec_bus` | Classical.choice, Quot.sound, propext |
| `Tespy.C83_elec_derivative_partial` | Classical.choice, Quot.sound, propext |
| `Tespy.C83_cell_energy_partial` | Classical.choice, Quot.sound, propext |
| `Tespy.C83_cell_energy_false` | Classical.choice, Quot.sound, propext |
| `Tespy.C83_cell_no_power` | Classical.choice, Quot.sound, propext |
| `Tespy.C83_cell_reported` | Classical.choice, Quot.sound, propext |
| `Tespy.C83_cell_bus_false` | Quot.sound, propext |
| `Tespy.C83_cell_derivative_partial` | Classical.choice, Quot.sound, propext |
| `Tespy.C83_preheat_false` | Classical.choice, Quot.sound, propext |
| `Tespy.C83_rows` | Classical.choice, Quot.sound, propext |
| `Tespy.C83_bus_power_partial` | Classical.choice, Quot.sound, propext |
| `Tespy.C83_bus_heat_false` | Classical.choice, Quot.sound, propext |
| `Tespy.C83_bus_preheat_false` | Classical.choice, Quot.sound, propext |
| `Tespy.C84_balance` | Classical.choice, Quot.sound, propext |
| `Tespy.C84_reported` | Classical.choice, Quot.sound, propext |
| `Tespy.C84_reported_trough` | Classical.choice, Quot.sound, propext |
| `Tespy.C84_limit` | Classical.choice, Quot.sound, propext |
| `Tespy.C84_limit_trough` | Classical.choice, Quot.sound, propext |
| `Tespy.C84_iam_partial` | Classical.choice, Quot.sound, propext |
| `Tespy.C84_iam_false` | Classical.choice, Quot.sound, propext |
| `Tespy.C84_loss_direction` | Classical.choice, Quot.sound, propext |
| `Tespy.C84_cold_false` | Classical.choice, Quot.sound, propext |
| `Tespy.C84_stagnation` | Classical.choice, Quot.sound, propext |
| `Tespy.C84_area` | Classical.choice, Quot.sound, propext |
| `Tespy.C84_derivative_partial` | Classical.choice, Quot.sound, propext |
| `Tespy.C84_composition_false` | Classical.choice, Quot.sound, propext |
| `Tespy.C84_brighter` | Classical.choice, Quot.sound, propext |
| `Tespy.C84_outlet_partial` | Classical.choice, Quot.sound, propext |
| `Tespy.C84_outlet_trough_partial` | Classical.choice, Quot.sound, propext |
| `Tespy.C84_second_outlet_false` | Classical.choice, Quot.sound, propext |
| `Tespy.C85_throttle` | Classical.choice, Quot.sound, propext |
| `Tespy.C85_heat_exchanger` | Classical.choice, Quot.sound, propext |
| `Tespy.C85_combustion` | Classical.choice, Quot.sound, propext |
| `Tespy.C85_merge_count` | Quot.sound, propext |
| `Tespy.C85_merge_pure` | Classical.choice, Quot.sound, propext |
| `Tespy.C85_merge_same_composition_false` | Quot.sound, propext |
| `Tespy.C86_meaning` | Classical.choice, Quot.sound, propext |
| `Tespy.C86_wet_inlet` | Classical.choice, Quot.sound, propext |
| `Tespy.C86_unique` | Classical.choice, Quot.sound, propext |
| `Tespy.C86_exists` | Classical.choice, Quot.sound, propext |
| `Tespy.C86_second_law` | Classical.choice, Quot.sound, propext |
| `Tespy.C86_power_partial` | Classical.choice, Quot.sound, propext |
| `Tespy.C86_power_false` | Classical.choice, Quot.sound, propext |
| `Tespy.C86_reported` | Classical.choice, Quot.sound, propext |
| `Tespy.C86_iterate_false` | Classical.choice, Quot.sound, propext |
| `Tespy.C86_liquid_false` | Classical.choice, Quot.sound, propext |
| `Tespy.C86_supercritical_false` | Classical.choice, Quot.sound, propext |
| `Tespy.C86_pure` | Classical.choice, Quot.sound, propext |
| `Tespy.C86_documented_false` | Classical.choice, Quot.sound, propext |
| `Tespy.C86_variable_false` | Classical.choice, Quot.sound, propext |
| `Tespy.C87_groups` | Classical.choice, Quot.sound, propext |
| `Tespy.C87_closed` | Classical.choice, Quot.sound, propext |
| `Tespy.C87_busses` | Classical.choice, Quot.sound, propext |
| `Tespy.C87_diagram` | Classical.choice, Quot.sound, propext |
| `Tespy.C87_two_fluids_false` | Classical.choice, Quot.sound, propext |
| `Tespy.C87_source_false` | Classical.choice, Quot.sound, propext |
| `Tespy.C87_negative_false` | Classical.choice, Quot.sound, propext |
| `Tespy.C88_ttd_unique` | Classical.choice, Quot.sound, propext |
| `Tespy.C88_eff_unique` | Classical.choice, Quot.sound, propext |
| `Tespy.C88_kA_unique_partial` | Classical.choice, Quot.sound, propext |
| `Tespy.C88_kA_exists` | Classical.choice, Quot.sound, propext |
| `Tespy.C88_eff_feasible` | Classical.choice, Quot.sound, propext |
| `Tespy.C88_eff_derivs` | Classical.choice, Quot.sound, propext |
| `Tespy.C88_eff_second_law_false` | Classical.choice, Quot.sound, propext |
| `Tespy.C88_kA_unique_false` | Classical.choice, Quot.sound, propext |
| `Tespy.C88_pinch_false` | Classical.choice, Quot.sound, propext |
| `Tespy.C88_simple_kA_partial` | Classical.choice, Quot.sound, propext |
| `Tespy.C88_simple_kA_second_law` | Classical.choice, Quot.sound, propext |
| `Tespy.C88_simple_kA_false` | Classical.choice, Quot.sound, propext |
| `Tespy.C88_simple_ambient_false` | Classical.choice, Quot.sound, propext |
| `Tespy.C88_condenser_partial` | Classical.choice, Quot.sound, propext |
| `Tespy.C88_condenser_better` | Classical.choice, Quot.sound, propext |
| `Tespy.C88_condenser_false` | Classical.choice, Quot.sound, propext |
| `Tespy.C88_series` | Classical.choice, Quot.sound, propext |
| `Tespy.C89_pure` | Classical.choice, Quot.sound, propext |
| `Tespy.C89_dry` | Classical.choice, Quot.sound, propext |
| `Tespy.C89_condensing` | Classical.choice, Quot.sound, propext |
| `Tespy.C89_nonnegative` | Classical.choice, Quot.sound, propext |
| `Tespy.C89_mixing_loss` | Classical.choice, Quot.sound, propext |
| `Tespy.C89_merge` | Classical.choice, Quot.sound, propext |
| `Tespy.C89_available` | Classical.choice, Quot.sound, propext |
| `Tespy.C89_unavailable` | Classical.choice, Quot.sound, propext |
| `Tespy.C89_connection` | Classical.choice, Quot.sound, propext |
| `Tespy.C89_negative_false` | Classical.choice, Quot.sound, propext |
| `Tespy.C90_complete_partial` | Classical.choice, Quot.sound, propext |
| `Tespy.C90_named_partial` | Classical.choice, Quot.sound, propext |
| `Tespy.C90_entries_partial` | Classical.choice, Quot.sound, propext |
| `Tespy.C90_zero_partial` | Classical.choice, Quot.sound, propext |
| `Tespy.C90_dp_char_false` | Classical.choice, Quot.sound, propext |
| `Tespy.C90_eta_char_false` | Classical.choice, Quot.sound, propext |
| `Tespy.C90_composition_false` | Classical.choice, Quot.sound, propext |
| `Tespy.C90_parameter_false` | Classical.choice, Quot.sound, propext |
| `Tespy.C90_parameter_named_partial` | Classical.choice, Quot.sound, propext |
| `Tespy.C90_moving_fluid` | Classical.choice, Quot.sound, propext |
| `Tespy.C91_complete_partial` | Classical.choice, Quot.sound, propext |
| `Tespy.C91_named_partial` | Classical.choice, Quot.sound, propext |
| `Tespy.C91_stoich_exact_partial` | Classical.choice, Quot.sound, propext |
| `Tespy.C91_ti_exact_partial` | Classical.choice, Quot.sound, propext |
| `Tespy.C91_energy_exact_partial` | Classical.choice, Quot.sound, propext |
| `Tespy.C91_edge_partial` | Classical.choice, Quot.sound, propext |
| `Tespy.C91_bus_partial` | Classical.choice, Quot.sound, propext |
| `Tespy.C91_energy_fractions` | Classical.choice, Quot.sound, propext |
| `Tespy.C91_energy_composition_false` | Classical.choice, Quot.sound, propext |
| `Tespy.C91_ti_shared_false` | Classical.choice, Quot.sound, propext |
| `Tespy.C91_bus_shared_false` | Classical.choice, Quot.sound, propext |
| `Tespy.C92_kept_partial` | Classical.choice, Quot.sound, propext |
| `Tespy.C92_drift_partial` | Classical.choice, Quot.sound, propext |
| `Tespy.C92_selfconsistent_partial` | Classical.choice, Quot.sound, propext |
| `Tespy.C92_others` | Classical.choice, Quot.sound, propext |
| `Tespy.C92_history` | Classical.choice, Quot.sound, propext |
| `Tespy.C92_lost_false` | Classical.choice, Quot.sound, propext |
| `Tespy.C92_converged_false` | Classical.choice, Quot.sound, propext |
| `Tespy.C92_nan_false` | Classical.choice, Quot.sound, propext |
| `Tespy.C92_zeta_false` | Classical.choice, Quot.sound, propext |
| `Tespy.C92_abs_false` | Classical.choice, Quot.sound, propext |
| `Tespy.C93_load` | Classical.choice, Quot.sound, propext |
| `Tespy.C93_flow_char` | Classical.choice, Quot.sound, propext |
| `Tespy.C93_dp_char` | Classical.choice, Quot.sound, propext |
| `Tespy.C93_pump_eta_char` | Classical.choice, Quot.sound, propext |
| `Tespy.C93_turbine_eta_char` | Classical.choice, Quot.sound, propext |
| `Tespy.C93_kA_char` | Classical.choice, Quot.sound, propext |
| `Tespy.C93_simple_kA_char` | Classical.choice, Quot.sound, propext |
| `Tespy.C93_eta_char` | Classical.choice, Quot.sound, propext |
| `Tespy.C93_maps` | Classical.choice, Quot.sound, propext |
| `Tespy.C93_boundaries` | Classical.choice, Quot.sound, propext |
| `Tespy.C93_invalid_false` | Classical.choice, Quot.sound, propext |
| `Tespy.C93_standstill_false` | Classical.choice, Quot.sound, propext |
| `Tespy.C93_cone` | Classical.choice, Quot.sound, propext |
| `Tespy.C94_describes_partial` | Classical.choice, Quot.sound, propext |
| `Tespy.C94_rows_owned_partial` | Classical.choice, Quot.sound, propext |
| `Tespy.C94_no_exception_partial` | Classical.choice, Quot.sound, propext |
| `Tespy.C94_class_name_false` | Classical.choice, Quot.sound, propext |
| `Tespy.C94_no_results_false` | Quot.sound, propext |
| `Tespy.C94_bus_total_false` | Classical.choice, Quot.sound, propext |
| `Tespy.C94_bus_name_false` | propext |
| `Tespy.C94_failed_add_false` | propext |
| `Tespy.C95_mass_partial` | Classical.choice, Quot.sound, propext |
| `Tespy.C95_energy_partial` | Classical.choice, Quot.sound, propext |
| `Tespy.C95_cycle_closer_partial` | Classical.choice, Quot.sound, propext |
| `Tespy.C95_first_law_partial` | Classical.choice, Quot.sound, propext |
| `Tespy.C95_species_partial` | Classical.choice, Quot.sound, propext |
| `Tespy.C95_cycle_fluid_partial` | Classical.choice, Quot.sound, propext |
| `Tespy.C95_two_closers_false` | Classical.choice, Quot.sound, propext |
| `Tespy.C95_separator_false` | Classical.choice, Quot.sound, propext |
| `Tespy.C95_reduced` | Classical.choice, Quot.sound, propext |
| `Tespy.C95_network_partial` | Classical.choice, Quot.sound, propext |
| `Tespy.C96_pure_partial` | Classical.choice, Quot.sound, propext |
| `Tespy.C96_mixture_partial` | Classical.choice, Quot.sound, propext |
| `Tespy.C96_mixture_linear_partial` | Classical.choice, Quot.sound, propext |
| `Tespy.C96_units` | Classical.choice, Quot.sound, propext |
| `Tespy.C96_next_start_partial` | Classical.choice, Quot.sound, propext |
| `Tespy.C96_boiling_false` | Classical.choice, Quot.sound, propext |
| `Tespy.C96_stale_false` | Classical.choice, Quot.sound, propext |
| `Tespy.C96_specified_nan_false` | Classical.choice, Quot.sound, propext |
| `Tespy.C96_two_temperatures_false` | Classical.choice, Quot.sound, propext |
| `Tespy.C96_unit_change_false` | Classical.choice, Quot.sound, propext |
| `Tespy.C97_repeat_partial` | Classical.choice, Quot.sound, propext |
| `Tespy.C97_min_iter_false` | Classical.choice, Quot.sound, propext |
| `Tespy.C97_combustion_false` | Classical.choice, Quot.sound, propext |
| `Tespy.C97_pump_false` | Classical.choice, Quot.sound, propext |
| `Tespy.C97_trace_false` | Classical.choice, Quot.sound, propext |
| `Tespy.C98_order_partial` | Classical.choice, Quot.sound, propext |
| `Tespy.C98_scale_partial` | Classical.choice, Quot.sound, propext |
| `Tespy.C98_linear_partial` | Classical.choice, Quot.sound, propext |
| `Tespy.C98_scale_false` | Classical.choice, Quot.sound, propext |
| `Tespy.C98_check_order_false` | Classical.choice, Quot.sound, propext |
| `Tespy.C98_singular` | Classical.choice, Quot.sound, propext |
| `Tespy.C98_exception` | Classical.choice, Quot.sound, propext |
| `Tespy.C99_formula` | Classical.choice, Quot.sound, propext |
| `Tespy.C99_fuels` | Classical.choice, Quot.sound, propext |
| `Tespy.C99_accepted_partial` | Classical.choice, Quot.sound, propext |
| `Tespy.C99_heating_value_positive` | Classical.choice, Quot.sound, propext |
| `Tespy.C99_amounts_partial` | Quot.sound, propext |
| `Tespy.C99_other_name_raises` | Classical.choice, Quot.sound, propext |
| `Tespy.C99_other_name_false` | Classical.choice, Quot.sound, propext |
| `Tespy.C99_coolant_false` | Classical.choice, Quot.sound, propext |
| `Tespy.C99_oxyfuel_false` | Classical.choice, Quot.sound, propext |
| `Tespy.C99_products` | Classical.choice, Quot.sound, propext |
| `Tespy.C99_two_waters_false` | Classical.choice, Quot.sound, propext |
| `Tespy.C100_step` | Classical.choice, Quot.sound, propext |
| `Tespy.C100_converges` | Classical.choice, Quot.sound, propext |
| `Tespy.C100_unique` | Classical.choice, Quot.sound, propext |
| `Tespy.C100_far_false` | Classical.choice, Quot.sound, propext |
| `Tespy.C100_neighbourhood` | Classical.choice, Quot.sound, propext |
| `Tespy.C101_created` | Classical.choice, Quot.sound, propext |
| `Tespy.C101_component_label` | Classical.choice, Quot.sound, propext |
| `Tespy.C101_default_label_partial` | Classical.choice, Quot.sound, propext |
| `Tespy.C101_connector_names` | Classical.choice, Quot.sound, propext |
| `Tespy.C101_default_label_false` | Classical.choice, Quot.sound, propext |
| `Tespy.C101_get_conn` | Classical.choice, Quot.sound, propext |
| `Tespy.C101_added` | Classical.choice, Quot.sound, propext |
| `Tespy.C101_deleted` | Classical.choice, Quot.sound, propext |
| `Tespy.C101_get_comp_partial` | Classical.choice, Quot.sound, propext |
| `Tespy.C101_get_comp_false` | propext |
| `Tespy.C101_subsystems` | propext |
| `Tespy.C102_complete` | Classical.choice, Quot.sound, propext |
| `Tespy.C102_quotient` | Classical.choice, Quot.sound, propext |
| `Tespy.C102_exact` | Classical.choice, Quot.sound, propext |
| `Tespy.C102_bus_complete` | Classical.choice, Quot.sound, propext |
| `Tespy.C102_bus_partial` | Classical.choice, Quot.sound, propext |
| `Tespy.C102_bus_series_false` | Classical.choice, Quot.sound, propext |
| `Tespy.C102_edge_false` | Classical.choice, Quot.sound, propext |
| `Tespy.C103_history` | Classical.choice, Quot.sound, propext |
| `Tespy.C103_value` | Classical.choice, Quot.sound, propext |
| `Tespy.C103_reference` | Classical.choice, Quot.sound, propext |
| `Tespy.C103_release` | Classical.choice, Quot.sound, propext |
| `Tespy.C103_entropy_ignored_false` | Classical.choice, Quot.sound, propext |
| `Tespy.C104_value` | Classical.choice, Quot.sound, propext |
| `Tespy.C104_variable` | Classical.choice, Quot.sound, propext |
| `Tespy.C104_own_equation` | Quot.sound, propext |
| `Tespy.C104_power` | Classical.choice, Quot.sound, propext |
| `Tespy.C104_takes_part` | Quot.sound, propext |
| `Tespy.C104_subcooling` | Classical.choice, Quot.sound, propext |
| `Tespy.C104_line` | Quot.sound, propext |
| `Tespy.C104_ignored_false` | Classical.choice, Quot.sound, propext |
| `Tespy.C104_cone_false` | Classical.choice, Quot.sound, propext |
| `Tespy.C105_prints_partial` | Classical.choice, Quot.sound, propext |
| `Tespy.C105_connection_values` | Classical.choice, Quot.sound, propext |
| `Tespy.C105_later_false` | Classical.choice, Quot.sound, propext |
| `Tespy.C105_total_false` | Classical.choice, Quot.sound, propext |
| `Tespy.C105_never_solved_false` | propext |
| `Tespy.C105_failed_false` | Classical.choice, Quot.sound, propext |
| `Tespy.C105_specified_false` | propext |
| `Tespy.C106_range` | Classical.choice, Quot.sound, propext |
| `Tespy.C106_monotone` | Classical.choice, Quot.sound, propext |
| `Tespy.C106_hundred` | Classical.choice, Quot.sound, propext |
| `Tespy.C106_lines` | Classical.choice, Quot.sound, propext |
| `Tespy.C106_converged` | Classical.choice, Quot.sound, propext |
| `Tespy.C106_columns` | Classical.choice, Quot.sound, propext |
| `Tespy.C106_component_column` | Quot.sound, propext |
| `Tespy.C106_silent` | Classical.choice, Quot.sound, propext |
| `Tespy.C106_hundred_converged_false` | Classical.choice, Quot.sound, propext |
| `Tespy.C106_hundred_regular_false` | Classical.choice, Quot.sound, propext |
| `Tespy.C106_warning_false` | Classical.choice, Quot.sound, propext |
| `Tespy.C106_warning` | Classical.choice, Quot.sound, propext |
| `Tespy.C106_total_partial` | Classical.choice, Quot.sound, propext |
| `Tespy.C106_total_false` | Classical.choice, Quot.sound, propext |
| `Tespy.C107_machine` | Classical.choice, Quot.sound, propext |
| `Tespy.C107_compressor` | Classical.choice, Quot.sound, propext |
| `Tespy.C107_turbine` | Classical.choice, Quot.sound, propext |
| `Tespy.C107_valve` | Classical.choice, Quot.sound, propext |
| `Tespy.C107_stream` | Classical.choice, Quot.sound, propext |
| `Tespy.C107_heat_exchanger` | Classical.choice, Quot.sound, propext |
| `Tespy.C107_merge` | Classical.choice, Quot.sound, propext |
| `Tespy.C107_merge_mixing_false` | Classical.choice, Quot.sound, propext |
| `Tespy.C107_chamber_false` | Classical.choice, Quot.sound, propext |
| `Tespy.C107_sides` | Classical.choice, Quot.sound, propext |
| `Tespy.C108_components` | Classical.choice, Quot.sound, propext |
| `Tespy.C108_local_design` | Classical.choice, Quot.sound, propext |
| `Tespy.C108_passed_over` | Quot.sound, propext |
| `Tespy.C108_removed` | Quot.sound, propext |
| `Tespy.C108_connections` | Classical.choice, Quot.sound, propext |
| `Tespy.C108_missing_connection` | Classical.choice, Quot.sound, propext |
| `Tespy.C108_busses` | Quot.sound, propext |
| `Tespy.C108_saved` | Classical.choice, Quot.sound, propext |
| `Tespy.C108_local_offdesign` | Quot.sound, propext |
| `Tespy.C108_design_removes` | propext |
| `Tespy.C108_local_connection` | Classical.choice, Quot.sound, propext |
| `Tespy.C108_new_component_false` | Classical.choice, Quot.sound, propext |
| `Tespy.C108_class_false` | Classical.choice, Quot.sound, propext |
| `Tespy.C108_zero_label_false` | Classical.choice, Quot.sound, propext |
| `Tespy.C108_bus_row_false` | Classical.choice, Quot.sound, propext |
| `Tespy.C108_local_number_false` | Quot.sound, propext |
| `Tespy.C108_local_no_path_false` | propext |
| `Tespy.C109_given` | Quot.sound, propext |
| `Tespy.C109_usable` | Classical.choice, Quot.sound, propext |
| `Tespy.C109_design_point` | Classical.choice, Quot.sound, propext |
| `Tespy.C109_efficiency` | Classical.choice, Quot.sound, propext |
| `Tespy.C109_kA` | Classical.choice, Quot.sound, propext |
| `Tespy.C109_absolute` | Classical.choice, Quot.sound, propext |
| `Tespy.C109_file_lines` | Classical.choice, Quot.sound, propext |
| `Tespy.C109_repeated_points` | Classical.choice, Quot.sound, propext |
| `Tespy.C109_repeated_map_points` | Classical.choice, Quot.sound, propext |
| `Tespy.C109_design_state` | Classical.choice, Quot.sound, propext |
| `Tespy.C109_design_state_kA` | Classical.choice, Quot.sound, propext |
| `Tespy.C109_kA_range` | Classical.choice, Quot.sound, propext |
| `Tespy.C109_maps` | Classical.choice, Quot.sound, propext |
| `Tespy.C109_design_state_maps` | Classical.choice, Quot.sound, propext |
| `Tespy.C109_engine` | Classical.choice, Quot.sound, propext |
| `Tespy.C109_custom` | Classical.choice, Quot.sound, propext |
| `Tespy.C109_map_efficiency_false` | Classical.choice, Quot.sound, propext |
| `Tespy.C109_inherited_false` | Classical.choice, Quot.sound, propext |
| `Tespy.C109_map_fallback_false` | Classical.choice, Quot.sound, propext |
| `Tespy.C109_wrong_kind_false` | Quot.sound, propext |
| `Tespy.Report.C110_made_partial` | Classical.choice, Quot.sound, propext |
| `Tespy.Report.C110_ref_false` | Classical.choice, Quot.sound, propext |
| `Tespy.Report.C110_bus_false` | Classical.choice, Quot.sound, propext |
| `Tespy.Report.C110_constraint_false` | Classical.choice, Quot.sound, propext |
| `Tespy.Report.C110_bus_figure_false` | Classical.choice, Quot.sound, propext |
| `Tespy.Report.C110_connection` | Classical.choice, Quot.sound, propext |
| `Tespy.Report.C110_connection_result` | Classical.choice, Quot.sound, propext |
| `Tespy.Report.C110_connection_bold` | Classical.choice, Quot.sound, propext |
| `Tespy.Report.C110_fluid` | Classical.choice, Quot.sound, propext |
| `Tespy.Report.C110_balance_false` | Classical.choice, Quot.sound, propext |
| `Tespy.Report.C110_component_partial` | Classical.choice, Quot.sound, propext |
| `Tespy.Report.C110_component_style` | Classical.choice, Quot.sound, propext |
| `Tespy.Report.C110_hidden_false` | Classical.choice, Quot.sound, propext |
| `Tespy.Report.C110_heat_exchanger_false` | Classical.choice, Quot.sound, propext |
| `Tespy.Report.C110_simple_false` | Classical.choice, Quot.sound, propext |
| `Tespy.Report.C110_links` | Classical.choice, Quot.sound, propext |
| `Tespy.Report.C110_figures_partial` | Classical.choice, Quot.sound, propext |
| `Tespy.Report.C110_unused_figure_false` | Classical.choice, Quot.sound, propext |
| `Tespy.Report.C110_bus_total` | Classical.choice, Quot.sound, propext |
| `Tespy.Report.C110_bus_equation` | Classical.choice, Quot.sound, propext |
| `Tespy.Report.C110_bus_value` | Quot.sound, propext |
| `Tespy.Report.C110_overwrite_false` | Classical.choice, Quot.sound, propext |
| `Tespy.Report.C110_figures_false` | Classical.choice, Quot.sound, propext |
| `Tespy.Report.C110_duplicate_label_false` | Classical.choice, Quot.sound, propext |
| `Tespy.Report.C110_slash_false` | Classical.choice, Quot.sound, propext |
| `Tespy.Report.C110_figures_only` | Classical.choice, Quot.sound, propext |
| `Tespy.Report.C110_bus_figure_partial` | Classical.choice, Quot.sound, propext |
| `Tespy.Report.C110_component_result` | Classical.choice, Quot.sound, propext |
| `Tespy.Report.C110_group_element` | Classical.choice, Quot.sound, propext |
| `Tespy.C111_turbo` | Classical.choice, Quot.sound, propext |
| `Tespy.C111_cone_partial` | Classical.choice, Quot.sound, propext |
| `Tespy.C111_cone_false` | Classical.choice, Quot.sound, propext |
| `Tespy.C111_hex` | Classical.choice, Quot.sound, propext |
| `Tespy.C111_kA_partial` | Classical.choice, Quot.sound, propext |
| `Tespy.C111_kA_false` | Classical.choice, Quot.sound, propext |
| `Tespy.C111_simple_partial` | Classical.choice, Quot.sound, propext |
| `Tespy.C111_hazen_false` | Classical.choice, Quot.sound, propext |
| `Tespy.C111_darcy_false` | Classical.choice, Quot.sound, propext |
| `Tespy.C111_simpleKA_partial` | Classical.choice, Quot.sound, propext |
| `Tespy.C111_simpleKA_false` | Classical.choice, Quot.sound, propext |
| `Tespy.C111_combustion` | Classical.choice, Quot.sound, propext |
| `Tespy.C111_engine_heat_partial` | Classical.choice, Quot.sound, propext |
| `Tespy.C111_engine_heat_false` | Classical.choice, Quot.sound, propext |
| `Tespy.C111_stoich_partial` | Classical.choice, Quot.sound, propext |
| `Tespy.C111_stoich_false` | Classical.choice, Quot.sound, propext |
| `Tespy.C111_lambda_partial` | Classical.choice, Quot.sound, propext |
| `Tespy.C111_lambda_false` | Classical.choice, Quot.sound, propext |
| `Tespy.C111_reactors` | Quot.sound, propext |
| `Tespy.C111_elec_energy_partial` | Classical.choice, Quot.sound, propext |
| `Tespy.C111_elec_energy_false` | Classical.choice, Quot.sound, propext |
| `Tespy.C111_cell_mass_partial` | Classical.choice, Quot.sound, propext |
| `Tespy.C111_cell_mass_false` | Classical.choice, Quot.sound, propext |
| `Tespy.C111_nodes` | Quot.sound, propext |
| `Tespy.C111_separator_partial` | Quot.sound, propext |
| `Tespy.C111_connections` | propext |
| `Tespy.C111_connections_partial` | propext |
| `Tespy.C111_connections_false` | Classical.choice, Quot.sound, propext |
| `Tespy.C111_char_argument` | Classical.choice, Quot.sound, propext |
| `Tespy.C111_pressure_lines` | Classical.choice, Quot.sound, propext |
| `Tespy.C111_map_partial` | Classical.choice, Quot.sound, propext |
| `Tespy.C111_map_false` | Classical.choice, Quot.sound, propext |
| `Tespy.C111_pressures` | Quot.sound, propext |
| `Tespy.C111_bus` | Classical.choice, Quot.sound, propext |
| `Tespy.C111_bus_false` | Classical.choice, Quot.sound, propext |
| `Tespy.Plotting.C112_single` | Classical.choice, Quot.sound, propext |
| `Tespy.Plotting.C112_exchanger` | Classical.choice, Quot.sound, propext |
| `Tespy.Plotting.C112_separator` | Classical.choice, Quot.sound, propext |
| `Tespy.Plotting.C112_merge` | Classical.choice, Quot.sound, propext |
| `Tespy.Plotting.C112_merge_partial` | Classical.choice, Quot.sound, propext |
| `Tespy.Plotting.C112_merge_false` | Classical.choice, Quot.sound, propext |
| `Tespy.Plotting.C112_drum_false` | Classical.choice, Quot.sound, propext |
| `Tespy.Plotting.C112_none_false` | Classical.choice, Quot.sound, propext |
| `Tespy.Plotting.C112_isoline` | Quot.sound, propext |
| `Tespy.C113_kinds` | Classical.choice, Quot.sound, propext |
| `Tespy.C113_order` | Classical.choice, Quot.sound, propext |
| `Tespy.C113_words_false` | Classical.choice, Quot.sound, propext |
| `Tespy.C114_ellipse_partial` | Classical.choice, Quot.sound, propext |
| `Tespy.C114_flow` | Classical.choice, Quot.sound, propext |
| `Tespy.C114_pressure` | Classical.choice, Quot.sound, propext |
| `Tespy.C114_rising_false` | Classical.choice, Quot.sound, propext |
| `Tespy.C115_mixed` | Classical.choice, Quot.sound, propext |
| `Tespy.C115_inlet_order` | Classical.choice, Quot.sound, propext |
| `Tespy.C115_lambda` | Classical.choice, Quot.sound, propext |
| `Tespy.C115_thermal_input` | Classical.choice, Quot.sound, propext |
| `Tespy.C115_ti_partial` | Classical.choice, Quot.sound, propext |
| `Tespy.C115_ti_rich_false` | Classical.choice, Quot.sound, propext |
| `Tespy.C115_two_fuel_flows_false` | Classical.choice, Quot.sound, propext |
| `Tespy.C115_outlet` | Classical.choice, Quot.sound, propext |
| `Tespy.C115_more_air` | Classical.choice, Quot.sound, propext |
| `Tespy.C115_efficiency` | Classical.choice, Quot.sound, propext |
| `Tespy.C116_lever` | Classical.choice, Quot.sound, propext |
| `Tespy.C116_content` | Classical.choice, Quot.sound, propext |
| `Tespy.C116_two_phase_partial` | Classical.choice, Quot.sound, propext |
| `Tespy.C116_drum_steam` | Classical.choice, Quot.sound, propext |
| `Tespy.C116_drum_circulation` | Classical.choice, Quot.sound, propext |
| `Tespy.C116_drum_heated` | Classical.choice, Quot.sound, propext |
| `Tespy.C116_circulation_flow` | Classical.choice, Quot.sound, propext |
| `Tespy.C116_superheated_false` | Classical.choice, Quot.sound, propext |
| `Tespy.C117_operating_point_partial` | Classical.choice, Quot.sound, propext |
| `Tespy.C117_throttle` | Classical.choice, Quot.sound, propext |
| `Tespy.C117_head` | Classical.choice, Quot.sound, propext |
| `Tespy.C117_rising_false` | Classical.choice, Quot.sound, propext |
| `Tespy.C117_small_flow_false` | Classical.choice, Quot.sound, propext |
| `Tespy.C118_distribution_partial` | Classical.choice, Quot.sound, propext |
| `Tespy.C118_more_flow` | Classical.choice, Quot.sound, propext |
| `Tespy.C118_share` | Classical.choice, Quot.sound, propext |
| `Tespy.C118_series` | Classical.choice, Quot.sound, propext |
| `Tespy.C118_small_flow_false` | Classical.choice, Quot.sound, propext |
| `Tespy.C118_throttle` | Classical.choice, Quot.sound, propext |
| `Tespy.C119_turbine` | Classical.choice, Quot.sound, propext |
| `Tespy.C119_compressor` | Classical.choice, Quot.sound, propext |
| `Tespy.C119_ideal` | Classical.choice, Quot.sound, propext |
| `Tespy.C119_stage_efficiency_false` | Classical.choice, Quot.sound, propext |
| `Tespy.C119_intercooling` | Classical.choice, Quot.sound, propext |
| `Tespy.C119_reheating` | Classical.choice, Quot.sound, propext |
| `Tespy.C120_darcy` | Classical.choice, Quot.sound, propext |
| `Tespy.C120_hazen_partial` | Classical.choice, Quot.sound, propext |
| `Tespy.C120_kA_partial` | Classical.choice, Quot.sound, propext |
| `Tespy.C120_hazen_false` | Classical.choice, Quot.sound, propext |
| `Tespy.C120_ambient_false` | Classical.choice, Quot.sound, propext |
| `Tespy.C121_clausius` | Classical.choice, Quot.sound, propext |
| `Tespy.C121_carnot` | Classical.choice, Quot.sound, propext |
| `Tespy.C121_heat_pump` | Classical.choice, Quot.sound, propext |
| `Tespy.C121_efficiency_false` | Classical.choice, Quot.sound, propext |
| `Tespy.C121_internal` | Classical.choice, Quot.sound, propext |
| `Tespy.C121_internal_carnot` | Classical.choice, Quot.sound, propext |
