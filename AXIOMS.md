# Axioms per theorem

Output of `#print axioms` for every theorem of `MANIFEST.json` (`tools/axioms.py`).

## Classical.choice, Quot.sound, propext (698 theorems)

* C03: `Resdx.Props.C03_findNearest_spec`
* C04: `Resdx.Props.C04_exponential`, `Resdx.Props.C04_rSquared_le_one`, `Resdx.Props.C04_rSquared_mean`, `Resdx.Props.C04_rSquared_undefined_iff`
* C05: `Resdx.Props.C05_reads_are_pure`, `Resdx.Props.C05_reads_from_wetbulb`, `Resdx.Props.C05_reads_from_others`
* C06: `Resdx.Props.C06_constructor_rejects`, `Resdx.Props.C06_constructor_accepts`, `Resdx.Props.C06_supplied_value_is_read_back`
* C07: `Resdx.Props.C07_rh_reads_humidity_ratio`, `Resdx.Props.C07_refuted`, `Resdx.Props.C07_rh_partial`
* C08: `Resdx.Props.C08_stale_after_setWb`, `Resdx.Props.C08_refuted`, `Resdx.Props.C08_fresh_setWb_partial`
* C09: `Resdx.Props.C09_consistent_after_any_history`, `Resdx.Props.C09_sets_what_was_asked`, `Resdx.Props.C09_no_exceptions`
* C10: `Resdx.Props.C10_refuted`, `Resdx.Props.C10_wrong_everywhere_else`, `Resdx.Props.C10_setMassAirflow_partial`
* C11: `Resdx.Props.C11_init`
* C12: `Resdx.Props.C12_credit_not_demand`, `Resdx.Props.C12_credit_bounds_partial`, `Resdx.Props.C12_credit_linear`, `Resdx.Props.C12_credit_antitone`, `Resdx.Props.C12_refuted`, `Resdx.Props.C12_credit_singular`
* C13: `Resdx.Props.C13_resnet_aligned`, `Resdx.Props.C13_psc_aligned`, `Resdx.Props.C13_ecm_aligned`, `Resdx.Props.C13_eere_aligned`, `Resdx.Props.C13_failed_remove_changes_nothing`, `Resdx.Props.C13_resnet_constructs`, `Resdx.Props.C13_constEff_misaligned`, `Resdx.Props.C13_refuted`, `Resdx.Props.C13_constEff_partial`, `Resdx.Props.C13_constEff_init_unchecked`
* C14: `Resdx.Props.C14_resnet`, `Resdx.Props.C14_psc`, `Resdx.Props.C14_ecm`, `Resdx.Props.C14_eere`, `Resdx.Props.C14_first_removed_stale`
* C15: `Resdx.Props.C15_check_power_returns`, `Resdx.Props.C15_eere_default_pressure_fails`, `Resdx.Props.C15_constEff_always_fails`, `Resdx.Props.C15_refuted`, `Resdx.Props.C15_resnetPSC_partial`
* C16: `Resdx.Props.C16_flow_of_pressure`, `Resdx.Props.C16_pressure_of_flow`, `Resdx.Props.C16_negative_pressure`, `Resdx.Props.C16_increasing`, `Resdx.Props.C16_curve_fixed`, `Resdx.Props.C16_design_point`
* C17: `Resdx.Props.C17_airflow_curve`, `Resdx.Props.C17_requested_airflow`, `Resdx.Props.C17_constructs`
* C18: `Resdx.Props.C18_rotational_speed_partial`, `Resdx.Props.C18_faster_setting_exceeds_limit`, `Resdx.Props.C18_refuted`
* C19: `Resdx.Props.C19_power_limit`, `Resdx.Props.C19_limit_fixed`, `Resdx.Props.C19_airflow_limited`, `Resdx.Props.C19_zero_power_fails`, `Resdx.Props.C19_power_product`, `Resdx.Props.C19_design_point`, `Resdx.Props.C19_rejects_small_limit`, `Resdx.Props.C19_free_delivery_unlimited`
* C20: `Resdx.Props.C20_interpolation`, `Resdx.Props.C20_below`, `Resdx.Props.C20_above`, `Resdx.Props.C20_two_tons_fails`, `Resdx.Props.C20_construct`, `Resdx.Props.C20_refuted`, `Resdx.Props.C20_construct_partial`, `Resdx.Props.C20_efficacy_between`, `Resdx.Props.C20_table_reproduced`
* C21: `Resdx.Props.C21_requested_airflow`
* C22: `Resdx.Props.C22_psc_bounds`, `Resdx.Props.C22_psc_power_mono`, `Resdx.Props.C22_bpm_linear`, `Resdx.Props.C22_bpm_ends`, `Resdx.Props.C22_bpm_below_psc`, `Resdx.Props.C22_bpm_power_mono_ducted`, `Resdx.Props.C22_bpm_power_mono_fixed`
* C23: `Resdx.Props.C23_operating_pressure`, `Resdx.Props.C23_no_operating_point`
* C24: `Resdx.Props.C24_order_map`, `Resdx.Props.C24_order_design`, `Resdx.Props.C24_order_design_psc`, `Resdx.Props.C24_representation`
* C25: `Resdx.Props.C25_set_get`, `Resdx.Props.C25_missing_temperature`, `Resdx.Props.C25_speed_too_high`, `Resdx.Props.C25_speed_wraps`
* C26: `Resdx.Props.C26_ratio`, `Resdx.Props.C26_ratio_max`, `Resdx.Props.C26_maintenance`, `Resdx.Props.C26_interpolation`, `Resdx.Props.C26_interpolation_between`
* C27: `Resdx.Props.C27_add_temperature_wf`, `Resdx.Props.C27_histories_wf`
* C28: `Resdx.Props.C28_below`, `Resdx.Props.C28_above`, `Resdx.Props.C28_below_copy`, `Resdx.Props.C28_above_copy`, `Resdx.Props.C28_single_row`
* C29: `Resdx.Props.C29_interior_refuted`, `Resdx.Props.C29_first_gap_partial`, `Resdx.Props.C29_second_gap_partial`, `Resdx.Props.C29_exact_partial`
* C30: `Resdx.Props.C30_set_interpolator`, `Resdx.Props.C30_node`, `Resdx.Props.C30_linear_in_temperature`, `Resdx.Props.C30_linear_in_speed`, `Resdx.Props.C30_no_overshoot`, `Resdx.Props.C30_snapshot`
* C31: `Resdx.Props.C31_correction_returns`, `Resdx.Props.C31_correction`, `Resdx.Props.C31_make_gross`, `Resdx.Props.C31_make_gross_returns`
* C32: `Resdx.Props.C32_single_speed`, `Resdx.Props.C32_two_speed`, `Resdx.Props.C32_variable_speed`, `Resdx.Props.C32_single_speed_returns`, `Resdx.Props.C32_two_speed_returns`
* C33: `Resdx.Props.C33_refuted`, `Resdx.Props.C33_second_call_raises`
* C34: `Resdx.BaseModel.C34_net_cop`, `Resdx.BaseModel.C34_gross_cop`, `Resdx.BaseModel.C34_round_trip_gross`, `Resdx.BaseModel.C34_round_trip_net`, `Resdx.BaseModel.C34_refuted`
* C35: `Resdx.BaseModel.C35_refuted`, `Resdx.BaseModel.C35_partial`
* C36: `Resdx.BaseModel.C36_base`, `Resdx.BaseModel.C36_base_zero`, `Resdx.ResnetFan.C36_resnet`, `Resdx.ResnetFan.C36_resnet_psc_made`, `Resdx.ResnetFan.C36_resnet_bpm_made`
* C37: `Resdx.BaseModel.C37_roles_iff`, `Resdx.BaseModel.C37_default_roles`
* C38: `Resdx.DX.Performance.C38_cooling_cop`, `Resdx.DX.Performance.C38_sensible_cop`, `Resdx.DX.Performance.C38_shr`, `Resdx.DX.Performance.C38_steady_heating_cop`, `Resdx.DX.Performance.C38_integrated_heating_cop`
* C39: `Resdx.DX.Performance.C39_cooling`, `Resdx.DX.Performance.C39_shr_rejects`, `Resdx.C39_heating_refuted`
* C40: `Resdx.C40_capacity_law`, `Resdx.C40_capacity_bounds`, `Resdx.C40_power_law`, `Resdx.C40_power_and_cop`
* C41: `Resdx.C41_resnet_capacity_partial`, `Resdx.C41_nrel_partial`, `Resdx.C41_constant_partial`, `Resdx.C41_resnet_power`, `Resdx.C41_refuted`
* C42: `Resdx.C42_nominal`, `Resdx.C42_rated_airflow`
* C43: `Resdx.DX.C43_bypass`, `Resdx.DX.C43_invalid`
* C44: `Resdx.DX.Performance.C44_line`, `Resdx.DX.Performance.C44_interpolate`, `Resdx.DX.Performance.C44_between`
* C45: `Resdx.Build.C45_cooling`, `Resdx.Build.C45_heating`
* C46: `Resdx.DX.C46_two_stage_bin`, `Resdx.DX.C46_two_stage_seer`, `Resdx.DX.C46_variable_speed_seer`, `Resdx.DX.C46_single_stage`
* C47: `Resdx.DX.C47_intermediate`, `Resdx.DX.C47_intermediate_between`, `Resdx.DX.C47_two_stage_continuous`, `Resdx.DX.C47_variable_speed_continuous`, `Resdx.DX.C47_off_full`
* C48: `Resdx.DX.C48_scale_invariant`, `Resdx.DX.C48_scaled`
* C49: `Resdx.DX.C49_two_stage`, `Resdx.DX.C49_variable_speed`, `Resdx.DX.C49_single_stage`
* C50: `Resdx.DX.C50_load_2023`, `Resdx.DX.C50_load_2017`, `Resdx.DX.C50_design_requirements`, `Resdx.DX.C50_single`, `Resdx.DX.C50_two_stage_partial`, `Resdx.DX.C50_variable_speed_partial`, `Resdx.DX.C50_full_speed`, `Resdx.DX.C50_single_hspf`, `Resdx.DX.C50_two_stage_refuted`, `Resdx.DX.C50_variable_speed_refuted`, `Resdx.DX.C50_low_speed_two`, `Resdx.DX.C50_low_speed_variable`, `Resdx.DX.C50_intermediate`, `Resdx.DX.C50_two_stage_hspf_partial`, `Resdx.DX.C50_variable_speed_hspf_partial`
* C51: `Resdx.DX.C51_single`, `Resdx.DX.C51_variable_speed`, `Resdx.DX.C51_two_stage_partial`, `Resdx.DX.C51_all_resistance`, `Resdx.DX.C51_two_stage_refuted`
* C52: `Resdx.DX.C52_2023`, `Resdx.DX.C52_2017_partial`, `Resdx.DX.C52_2017_refuted`
* C53: `Resdx.DX.C53_single`, `Resdx.DX.C53_two_stage_partial`, `Resdx.DX.C53_variable_speed_partial`, `Resdx.DX.C53_two_stage_refuted`, `Resdx.DX.C53_variable_speed_refuted`
* C54: `Resdx.DX.C54_default_partial`, `Resdx.DX.C54_off_temperature`, `Resdx.DX.C54_supplied`, `Resdx.DX.C54_refuted`
* C55: `Resdx.DX.C55_accepted`, `Resdx.DX.C55_accepts`, `Resdx.DX.C55_known_regions`, `Resdx.DX.C55_regions`, `Resdx.DX.C55_cooling`, `Resdx.DX.C55_heating_temperatures`, `Resdx.DX.C55_climates`
* C56: `Resdx.C56_fraction_bounds`, `Resdx.C56_tabulated`, `Resdx.C56_integrated`
* C57: `Resdx.Title24.C57_partial`, `Resdx.Title24.C57_strict`, `Resdx.Title24.C57_refuted`
* C58: `Resdx.Title24.C58_range`, `Resdx.Title24.C58_degradation`, `Resdx.Title24.C58_ratio_partial`, `Resdx.Title24.C58_ratio_range`, `Resdx.Title24.C58_ratio_refuted`
* C59: `Resdx.Title24.C59_capacities`, `Resdx.Title24.C59_repeatable`, `Resdx.Title24.C59_first_query`, `Resdx.Title24.C59_single_speed_partial`, `Resdx.Title24.C59_other_speed_power`, `Resdx.Title24.C59_refuted`
* C60: `Resdx.C60_time_fraction`, `Resdx.C60_multipliers`, `Resdx.C60_capacity_reduced`, `Resdx.C60_capacity`, `Resdx.C60_power_formula_partial`, `Resdx.C60_no_frost`, `Resdx.C60_power_partial`, `Resdx.C60_reverse_cycle_never_returns`, `Resdx.C60_refuted`
* C61: `Resdx.Idf.C61_round_trip`, `Resdx.Idf.C61_no_fields`, `Resdx.Idf.C61_file`
* C62: `Resdx.Idf.C62_names`, `Resdx.Idf.C62_references`
* C63: `Resdx.Idf.C63_air_path`
* C64: `Resdx.Idf.C64_cooling`, `Resdx.Idf.C64_heating`, `Resdx.Idf.C64_nominal`
* C65: `Resdx.Props.C65_row_major`, `Resdx.Props.C65_sequence_numbers`, `Resdx.Props.C65_returns_iff`
* C66: `Resdx.Ratings.C66_partial`, `Resdx.Ratings.C66_two_stage_refuted`
* C67: `Resdx.Build.C67_hspf`, `Resdx.Build.C67_seer_staged`, `Resdx.Build.C67_seer_single`, `Resdx.Build.C67_difference_partial`, `Resdx.Build.C67_fraction_single`, `Resdx.Build.C67_fraction_default`, `Resdx.Build.C67_attained`, `Resdx.Build.C67_refuted`, `Resdx.Build.C67_two_attained`, `Resdx.Build.C67_two_stage`, `Resdx.Build.C67_variable_seer`, `Resdx.Build.C67_variable_hspf`, `Resdx.Build.C67_variable_attained`
* C68: `Resdx.Props.C68_resnet`, `Resdx.Props.C68_ecm`, `Resdx.Props.C68_psc_partial`, `Resdx.Props.C68_psc_trial_differs`
* C69: `Resdx.Props.C69_resnetPSC`, `Resdx.Props.C69_ecm_finite`, `Resdx.Props.C69_ecm_unlimited`, `Resdx.Props.C69_ecm_records`, `Resdx.Props.C69_psc`, `Resdx.Props.C69_refuted`, `Resdx.Props.C69_psc_records`
* C70: `Resdx.Props.C70_measured_reproduced`
* C71: `Resdx.C71_heating_capacity`, `Resdx.C71_cycling`, `Resdx.C71_airflow_per_capacity`
* C72: `Resdx.C72_full_flow`, `Resdx.C72_monotone`, `Resdx.C72_square_law`
* C73: `Resdx.C73_correction`, `Resdx.C73_lookup`, `Resdx.C73_rated_cooling`, `Resdx.C73_rated_heating`
* C74: `Resdx.C74_cooling_capacity`, `Resdx.C74_cooling_power`, `Resdx.C74_heating`, `Resdx.C74_rated`, `Resdx.C74_cooling_outdoor`, `Resdx.C74_cooling_positive`, `Resdx.C74_wet_bulb_partial`, `Resdx.C74_wet_bulb_refuted`, `Resdx.C74_heating_capacity`, `Resdx.C74_heating_eir`, `Resdx.C74_airflow`
* C75: `Resdx.Title24.C75_partial`, `Resdx.Title24.C75_refuted`
* C76: `Resdx.Title24.C76_closed_form`, `Resdx.Title24.C76_agrees`
* C77: `Resdx.Title24.C77_capacity`, `Resdx.Title24.C77_rated_points`, `Resdx.Title24.C77_frost_costs`, `Resdx.Title24.C77_power`, `Resdx.Title24.C77_integrated_power`
* C78: `Resdx.Title24.C78_sensible`, `Resdx.Title24.C78_positive`
* C79: `Resdx.Title24.C79_power`, `Resdx.Title24.C79_rated_partial`, `Resdx.Title24.C79_excess`, `Resdx.Title24.C79_refuted`
* C80: `Resdx.Title24.C80_single_speed_partial`, `Resdx.Title24.C80_multi_speed_refuted`, `Resdx.Title24.C80_supplied_refuted`
* C81: `Resdx.Ratings.C81_tests`, `Resdx.Ratings.C81_total`, `Resdx.Ratings.C81_states`
* C82: `Resdx.Ratings.C82_partial`, `Resdx.Ratings.C82_pressure_refuted`, `Resdx.Ratings.C82_boost_refuted`, `Resdx.Ratings.C82_constant_efficacy_refuted`
* C83: `Resdx.Ratings.C83_last_standard`, `Resdx.Ratings.C83_pressure_only`
* C84: `Resdx.Idf.C84_axes_increasing_partial`, `Resdx.Idf.C84_axes_increasing_refuted`
* C85: `Resdx.Idf.C85_cooling`, `Resdx.Idf.C85_heating`
* C86: `Resdx.Idf.C86_cut_in_refuted`, `Resdx.Idf.C86_written`
* C87: `Resdx.Idf.C87_fan`, `Resdx.Idf.C87_ascending`
* C88: `Resdx.Build.C88_cooling_any`, `Resdx.Build.C88_fan_as_rated`, `Resdx.Build.C88_fan_bpm`, `Resdx.Build.C88_fan_power`, `Resdx.Build.C88_cooling`, `Resdx.Build.C88_heating`, `Resdx.Build.C88_cooling_intermediate`, `Resdx.Build.C88_heating_intermediate`, `Resdx.Build.C88_cooling_bpm`, `Resdx.Build.C88_heating_bpm`
* C89: `Resdx.Sample.C89_refuted`, `Resdx.Build.C89_cooling_partial`, `Resdx.Build.C89_heating_partial`, `Resdx.Build.C89_cooling_bpm`, `Resdx.Build.C89_heating_bpm`
* C90: `Resdx.Build.C90_single_range`, `Resdx.Build.C90_two_range`, `Resdx.Build.C90_variable_range`, `Resdx.Build.C90_single`, `Resdx.Build.C90_two`, `Resdx.Build.C90_variable`, `Resdx.Build.C90_published`, `Resdx.Build.C90_tables`, `Resdx.Build.C90_ratings`, `Resdx.Build.C90_variable_cop`, `Resdx.Build.C90_variable_any`
* C91: `Resdx.Props.C91_stored_condition`, `Resdx.Props.C91_nrel_reversed`, `Resdx.Props.C91_refuted`
* C92: `Resdx.Props.C92_axes`, `Resdx.Props.C92_axis_of_accepted_unit`, `Resdx.Props.C92_scalars`
* C94: `Resdx.Build.C94_cooling_performance`, `Resdx.Build.C94_cooling_ratings`, `Resdx.Build.C94_heating_capacity`
* C95: `Resdx.Tabular.C95_single`, `Resdx.Tabular.C95_two`, `Resdx.Tabular.C95_variable`, `Resdx.Tabular.C95_variable_default`, `Resdx.Tabular.C95_variable_lowest`
* C96: `Resdx.Build.C96_integrated_any`, `Resdx.Build.C96_full_tests_any`, `Resdx.Build.C96_integrated`, `Resdx.Build.C96_full_tests`, `Resdx.Build.C96_low_tests`, `Resdx.Build.C96_single_hspf`, `Resdx.Build.C96_single_hspf_2017`, `Resdx.Build.C96_single_2017`, `Resdx.Build.C96_single_ratings`, `Resdx.Build.C96_cop`, `Resdx.Build.C96_increasing`, `Resdx.Build.C96_single_hspf_any`, `Resdx.Build.C96_single_any`, `Resdx.Build.C96_any_cop`, `Resdx.Build.C96_2017_cop`, `Resdx.Build.C96_two_hspf`, `Resdx.Build.C96_intermediate_tests`, `Resdx.Build.C96_variable_hspf`, `Resdx.Build.C96_two_ratings`, `Resdx.Build.C96_two_cop`, `Resdx.Build.C96_two_bound`, `Resdx.Build.C96_two_increasing`, `Resdx.Build.C96_variable_ratings`, `Resdx.Build.C96_variable_bound`, `Resdx.Build.C96_variable_cop`, `Resdx.Build.C96_variable_any`
* C97: `Resdx.Build.C97_two_any`, `Resdx.Build.C97_variable_ratings`, `Resdx.Build.C97_at_any`, `Resdx.Build.C97_tests_any`, `Resdx.Build.C97_at`, `Resdx.Build.C97_tests`, `Resdx.Build.C97_two_stage`, `Resdx.Build.C97_intermediate`, `Resdx.Build.C97_variable`, `Resdx.Build.C97_two_seer`, `Resdx.Build.C97_variable_seer`, `Resdx.Build.C97_two_range`, `Resdx.Build.C97_variable_cop`, `Resdx.Build.C97_variable_any`
* C98: `Resdx.Build.C98_iff`, `Resdx.Build.C98_overstated`, `Resdx.Build.C98_increasing`, `Resdx.Build.C98_refuted`
* C99: `Resdx.Props.C99_constant`, `Resdx.Props.C99_carrier_refuted`, `Resdx.Props.C99_nrel_refuted`, `Resdx.Props.C99_supplied_fan_refuted`, `Resdx.Props.C99_resnet_supplied_fan`, `Resdx.Props.C99_title24_made`, `Resdx.Props.C99_title24_single`, `Resdx.UnitBuild.C99_checked`, `Resdx.UnitBuild.C99_nrel_fan_type`, `Resdx.UnitBuild.C99_nrel_fan_scalar`, `Resdx.UnitBuild.C99_nrel_type_error`
* C100: `Resdx.Props.C100_last_binding`, `Resdx.Props.C100_binding_exists`, `Resdx.Props.C100_own_data_partial`
* C101: `Resdx.Props.C101_unrecognised`, `Resdx.Props.C101_title24_only`, `Resdx.Props.C101_resnet_values`, `Resdx.Props.C101_eir_ratio_unreachable`
* C102: `Resdx.Coil.C102_rated_point`, `Resdx.Coil.C102_overstated`, `Resdx.Coil.C102_resnet`, `Resdx.Coil.C102_refuted`, `Resdx.Build.C102_other_temperatures`, `Resdx.Build.C102_published`
* C103: `Resdx.Coil.C103_split`, `Resdx.Coil.C103_order`, `Resdx.Coil.C103_dry_refuted`, `Resdx.Coil.C103_shr_raises`
* C104: `Resdx.Coil.C104_cooling`, `Resdx.Coil.C104_cooling_default`, `Resdx.Coil.C104_adp`, `Resdx.Coil.C104_adp_default_refuted`, `Resdx.Coil.C104_heating`, `Resdx.Coil.C104_heating_refuted`
* C105: `Resdx.Props.C105_power`, `Resdx.Props.C105_rounded`, `Resdx.Props.C105_eere_refuted`, `Resdx.Props.C105_rounding_refuted`
* C106: `Resdx.Props.C106_balance`, `Resdx.Props.C106_operating`, `Resdx.Props.C106_eere_none_refuted`, `Resdx.Props.C106_psc`, `Resdx.Props.C106_psc_partial`, `Resdx.Props.C106_psc_refuted`, `Resdx.Props.C106_ecm_partial`, `Resdx.Props.C106_ecm_refuted`
* C107: `Resdx.Build.C107_resnet_determines`, `Resdx.Build.C107_resnet_partial`, `Resdx.Build.C107_resnet_written`, `Resdx.Props.C107_names`, `Resdx.Props.C107_columns_partial`, `Resdx.Props.C107_settings`, `Resdx.Props.C107_kind`, `Resdx.Props.C107_power47_refuted`, `Resdx.Props.C107_atomic`, `Resdx.Props.C107_staged_refuted`, `Resdx.Props.C107_on_refuted`, `Resdx.Props.C107_determines`, `Resdx.Props.C107_column47_refuted`
* C108: `Resdx.Props.C108_cooling`, `Resdx.Props.C108_heating`, `Resdx.Props.C108_eer`, `Resdx.Build.C108_resnet_cooling`, `Resdx.Build.C108_resnet_heating`
* C109: `Resdx.Build.C109_resnet_made`, `Resdx.Build.C109_resnet_published`, `Resdx.Build.C109_single_ratings`, `Resdx.Build.C109_two_ratings`, `Resdx.Build.C109_variable_ratings`, `Resdx.Props.C109_curves`, `Resdx.Props.C109_groups`, `Resdx.Props.C109_named`, `Resdx.Props.C109_names_iff`, `Resdx.Props.C109_refuted`, `Resdx.Props.C109_returns_iff`, `Resdx.Props.C109_axis`, `Resdx.Build.C109_resnet`
* C110: `Resdx.Props.C110_made`, `Resdx.Props.C110_published`, `Resdx.Props.C110_gross`, `Resdx.Props.C110_net_list`, `Resdx.Props.C110_net_number`, `Resdx.Props.C110_net_many_refuted`, `Resdx.Props.C110_gross_many_refuted`, `Resdx.Props.C110_gross_overrides`, `Resdx.Props.C110_construct`, `Resdx.Props.C110_number_refuted`, `Resdx.Props.C110_low_speed_refuted`, `Resdx.Props.C110_default_refuted`, `Resdx.Props.C110_many_speeds_refuted`, `Resdx.Props.C110_single_made`, `Resdx.Props.C110_single_made_fan`
* C111: `Resdx.Props.C111_fan_power`, `Resdx.Props.C111_cooling`, `Resdx.Props.C111_heating`, `Resdx.Props.C111_rated_cooling`, `Resdx.Props.C111_rated_heating`, `Resdx.Props.C111_own_fan`
* C112: `Resdx.Props.C112_given_fan`, `Resdx.Props.C112_ratings`, `Resdx.Props.C112_single_unit`, `Resdx.Props.C112_net_cop`
* C113: `Resdx.Props.C113_cooling`, `Resdx.Props.C113_heating`, `Resdx.Props.C113_rated`
* C114: `Resdx.Props.C114_written`, `Resdx.Build.C114_single_ratings`, `Resdx.Build.C114_two_ratings`, `Resdx.Build.C114_variable_ratings`, `Resdx.Props.C114_published`
* C115: `Resdx.Props.C115_history`, `Resdx.Props.C115_value`, `Resdx.Props.C115_stale`
* C116: `Resdx.Props.C116_published`, `Resdx.Props.C116_published_eer`, `Resdx.Props.C116_heat_tests`, `Resdx.Props.C116_low_tests`, `Resdx.Props.C116_cool_tests`, `Resdx.Props.C116_intermediate_test`, `Resdx.Props.C116_single_hspf`, `Resdx.Props.C116_single_hspf_2017`, `Resdx.Props.C116_single`, `Resdx.Props.C116_net_cop`, `Resdx.Props.C116_net_cop_short`, `Resdx.Props.C116_net_cop_refuted`, `Resdx.Props.C116_two_seer`, `Resdx.Props.C116_variable_seer`, `Resdx.Props.C116_two_hspf`, `Resdx.Props.C116_cold_tests`, `Resdx.Props.C116_variable_hspf`, `Resdx.Props.C116_two`
* C117: `Resdx.Props.C117_polynomial`, `Resdx.Props.C117_exponential`
* C118: `Resdx.Props.C118_given`, `Resdx.Props.C118_described`, `Resdx.Props.C118_frozen`, `Resdx.Props.C118_unit`, `Resdx.Props.C118_refuted`
* C119: `Resdx.Build.C119_single_ratings`, `Resdx.Build.C119_two_ratings`, `Resdx.Build.C119_variable_ratings`, `Resdx.Props.C119_map`, `Resdx.Props.C119_never`, `Resdx.Props.C119_generated`, `Resdx.Props.C119_fan`, `Resdx.Props.C119_with_fan`, `Resdx.Props.C119_refuted`, `Resdx.Build.C119_variable_never`, `Resdx.Build.C119_variable_cop_never`
* C120: `Resdx.Props.C120_proportional`, `Resdx.Props.C120_resnet`, `Resdx.Props.C120_constant`, `Resdx.Props.C120_psc`, `Resdx.Props.C120_ecm_partial`, `Resdx.Props.C120_unit`, `Resdx.Props.C120_staged`, `Resdx.Props.C120_variable`, `Resdx.Props.C120_variable_ratings`, `Resdx.Props.C120_refuted`, `Resdx.Props.C120_psc_constructed`
* C121: `Resdx.DX.C121_eer`, `Resdx.DX.C121_seer`, `Resdx.DX.C121_single_stage`, `Resdx.DX.C121_two_stage_partial`, `Resdx.DX.C121_variable_speed_partial`, `Resdx.DX.C121_hspf_single`, `Resdx.DX.C121_hspf_two_stage`, `Resdx.DX.C121_hspf_variable_speed`, `Resdx.DX.C121_hspf_refuted`, `Resdx.DX.C121_two_stage_refuted`
* C122: `Resdx.DX.C122_degradation`, `Resdx.DX.C122_cut_temperatures_partial`, `Resdx.DX.C122_defrost`, `Resdx.DX.C122_off_full_refuted`, `Resdx.DX.C122_inefficient_refuted`
* C123: `Resdx.DX.C123_single`, `Resdx.DX.C123_two_stage_partial`, `Resdx.DX.C123_variable_speed_partial`, `Resdx.DX.C123_off_full_refuted`, `Resdx.DX.C123_variable_speed_refuted`
* C124: `Resdx.DX.C124_single_partial`, `Resdx.DX.C124_two_stage_partial`, `Resdx.DX.C124_scaled_single`, `Resdx.DX.C124_inefficient_refuted`, `Resdx.DX.C124_two_stage_refuted`, `Resdx.DX.C124_off_full_refuted`, `Resdx.DX.C124_variable_speed_refuted`, `Resdx.DX.C124_2017_refuted`
* C125: `Resdx.DX.C125_single`, `Resdx.DX.C125_two_stage_partial`, `Resdx.DX.C125_variable_speed_partial`, `Resdx.DX.C125_proportional`, `Resdx.DX.C125_off_full_refuted`, `Resdx.DX.C125_variable_speed_refuted`, `Resdx.DX.C125_hot_refuted`
* C126: `Resdx.DX.C126_heating`, `Resdx.DX.C126_heating_tests`, `Resdx.DX.C126_cooling_cycling`, `Resdx.DX.C126_cooling_variable`, `Resdx.DX.C126_heating_variable`, `Resdx.DX.C126_cooling_refuted`, `Resdx.DX.C126_frost_refuted`
* C127: `Resdx.Props.C127_curves`, `Resdx.Props.C127_law`, `Resdx.Props.C127_higher_limit`, `Resdx.Props.C127_jump`, `Resdx.Props.C127_speed`, `Resdx.Props.C127_continuity_refuted`
* C128: `Resdx.Idf.C128_cooling`, `Resdx.Idf.C128_heating`, `Resdx.Idf.C128_defrost_curve`, `Resdx.DX.C128_same_losses`, `Resdx.Idf.C128_rounded`, `Resdx.Idf.C128_range_refuted`
* C129: `Resdx.C129_cooling_cop`, `Resdx.C129_heating_cop`, `Resdx.C129_undercharged`, `Resdx.C129_ratings`, `Resdx.C129_overcharged`, `Resdx.C129_refuted`
* C130: `Resdx.C130_cooling_law`, `Resdx.C130_heating_law`, `Resdx.C130_cooling`, `Resdx.C130_heating`, `Resdx.C130_heating_beyond`, `Resdx.C130_refuted`
* C131: `Resdx.Build.C131_gross_cooling`, `Resdx.Build.C131_gross_heating`, `Resdx.Build.C131_cooling`, `Resdx.Build.C131_heating`, `Resdx.Build.C131_cooling_intermediate`, `Resdx.Build.C131_heating_intermediate`, `Resdx.Build.C131_same`, `Resdx.Build.C131_undercharged`, `Resdx.Build.C131_integrated`, `Resdx.Build.C131_no_defrost`, `Resdx.Build.C131_returns`
* C132: `Resdx.Build.C132_published`, `Resdx.Build.C132_shr`, `Resdx.Build.C132_eer`, `Resdx.Build.C132_seer`, `Resdx.Build.C132_single_ratings`, `Resdx.Build.C132_two_ratings`, `Resdx.Build.C132_variable_ratings`, `Resdx.Build.C132_heating_cop`, `Resdx.Build.C132_heating_rated`
* C133: `Resdx.C133_ratios`, `Resdx.C133_cop`, `Resdx.C133_resnet`, `Resdx.C133_nominal`, `Resdx.C133_net`, `Resdx.C133_net_power`, `Resdx.C133_net_cop`, `Resdx.C133_refuted`
* C134: `Resdx.Idf.C134_system`, `Resdx.Idf.C134_packaged`, `Resdx.Idf.C134_unitary`
* C135: `Resdx.UnitBuild.C135_efficacy`, `Resdx.UnitBuild.C135_characteristics`, `Resdx.UnitBuild.C135_capacities`, `Resdx.UnitBuild.C135_ordered`
* C136: `Resdx.Title24.C136_outdoor_wet`, `Resdx.Title24.C136_outdoor_dry`, `Resdx.Title24.C136_indoor`, `Resdx.Title24.C136_refuted`
* C137: `Resdx.Title24.C137_ratio`, `Resdx.Title24.C137_sensible`
* C138: `Resdx.Title24.C138_wet`, `Resdx.Title24.C138_dry`, `Resdx.Title24.C138_sensible`

## Quot.sound, propext (42 theorems)

* C01: `Resdx.Props.C01_bracket_in_bounds`, `Resdx.Props.C01_bracket_fixed_iff`, `Resdx.Props.C01_bracket_outside`, `Resdx.Props.C01_bracket_idempotent`, `Resdx.Props.C01_bracket_mono`
* C02: `Resdx.Props.C02_limitCheck_ok_iff`, `Resdx.Props.C02_limitCheck_error_iff`
* C03: `Resdx.Props.C03_nearest_unique`, `Resdx.Props.C03_findNearest_empty`
* C04: `Resdx.Props.C04_calcQuad`, `Resdx.Props.C04_calcQuad_short`, `Resdx.Props.C04_calcBiquad`, `Resdx.Props.C04_calcBiquad_short`, `Resdx.Props.C04_polynomials`
* C10: `Resdx.Props.C10_setMassAirflow_effect`, `Resdx.Props.C10_setMassAirflow_unset`, `Resdx.Props.C10_setMassAirflow_unrated`
* C11: `Resdx.Props.C11_inDefrost_iff`
* C27: `Resdx.Props.C27_duplicate_rejected`
* C30: `Resdx.Props.C30_no_interpolator`, `Resdx.Props.C30_single_speed`
* C34: `Resdx.BaseModel.C34_net_cop_returns_iff`, `Resdx.BaseModel.C34_gross_cop_returns_iff`, `Resdx.BaseModel.C34_gross_list_only`, `Resdx.C34_gross_capacities`
* C35: `Resdx.BaseModel.C35_default_wins`, `Resdx.BaseModel.C35_neither`
* C37: `Resdx.BaseModel.C37_order`, `Resdx.BaseModel.C37_final_checks`
* C38: `Resdx.DX.Performance.C38_cooling_accounting`, `Resdx.DX.Performance.C38_heating_accounting`, `Resdx.C38_defaults`, `Resdx.C38_conditions`
* C39: `Resdx.DX.Performance.C39_cooling_rejects`, `Resdx.DX.Performance.C39_heating_unchecked_partial`
* C50: `Resdx.DX.C50_design_list`
* C71: `Resdx.C71_cooling_capacity`, `Resdx.C71_list_default`, `Resdx.C71_number_default`
* C74: `Resdx.C74_limits`
* C93: `Resdx.Props.C93_stable`
* C101: `Resdx.Props.C101_accepted`

## propext (6 theorems)

* C93: `Resdx.Props.C93_seed_kept`, `Resdx.Props.C93_parts_reproducible`, `Resdx.Props.C93_whole_depends_on_string_hash`, `Resdx.Props.C93_refuted`
* C100: `Resdx.Props.C100_shared_model_refuted`
* C109: `Resdx.Props.C109_distinct`

## none (1 theorems)

* C37: `Resdx.BaseModel.C37_no_speeds`
