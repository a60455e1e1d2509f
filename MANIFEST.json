{
 "claims": [
  {
   "property": "C01",
   "status": "proved",
   "theorems": [
    "Resdx.Props.C01_bracket_in_bounds",
    "Resdx.Props.C01_bracket_fixed_iff",
    "Resdx.Props.C01_bracket_outside",
    "Resdx.Props.C01_bracket_idempotent",
    "Resdx.Props.C01_bracket_mono"
   ],
   "note": ""
  },
  {
   "property": "C02",
   "status": "proved",
   "theorems": [
    "Resdx.Props.C02_limitCheck_ok_iff",
    "Resdx.Props.C02_limitCheck_error_iff"
   ],
   "note": ""
  },
  {
   "property": "C03",
   "status": "proved",
   "theorems": [
    "Resdx.Props.C03_findNearest_spec",
    "Resdx.Props.C03_nearest_unique",
    "Resdx.Props.C03_findNearest_empty"
   ],
   "note": ""
  },
  {
   "property": "C04",
   "status": "proved",
   "theorems": [
    "Resdx.Props.C04_calcQuad",
    "Resdx.Props.C04_calcQuad_short",
    "Resdx.Props.C04_calcBiquad",
    "Resdx.Props.C04_calcBiquad_short",
    "Resdx.Props.C04_polynomials",
    "Resdx.Props.C04_exponential",
    "Resdx.Props.C04_rSquared_le_one",
    "Resdx.Props.C04_rSquared_mean",
    "Resdx.Props.C04_rSquared_undefined_iff"
   ],
   "note": ""
  },
  {
   "property": "C05",
   "status": "proved",
   "theorems": [
    "Resdx.Props.C05_reads_are_pure",
    "Resdx.Props.C05_reads_from_wetbulb",
    "Resdx.Props.C05_reads_from_others"
   ],
   "note": ""
  },
  {
   "property": "C06",
   "status": "proved",
   "theorems": [
    "Resdx.Props.C06_constructor_rejects",
    "Resdx.Props.C06_constructor_accepts",
    "Resdx.Props.C06_supplied_value_is_read_back"
   ],
   "note": ""
  },
  {
   "property": "C07",
   "status": "partial",
   "theorems": [
    "Resdx.Props.C07_rh_reads_humidity_ratio",
    "Resdx.Props.C07_refuted",
    "Resdx.Props.C07_rh_partial"
   ],
   "note": "False of the code: C07_refuted gives a witness (get_rh returns the humidity ratio, psychrometrics.py). C07_rh_reads_humidity_ratio states what is read for every state; C07_rh_partial covers states built from rel_hum."
  },
  {
   "property": "C08",
   "status": "partial",
   "theorems": [
    "Resdx.Props.C08_stale_after_setWb",
    "Resdx.Props.C08_refuted",
    "Resdx.Props.C08_fresh_setWb_partial"
   ],
   "note": "False of the code: C08_refuted and C08_stale_after_setWb (cached values survive a new wet bulb). C08_fresh_setWb_partial covers objects whose derived values were not yet read."
  },
  {
   "property": "C09",
   "status": "proved",
   "theorems": [
    "Resdx.Props.C09_consistent_after_any_history",
    "Resdx.Props.C09_sets_what_was_asked",
    "Resdx.Props.C09_no_exceptions"
   ],
   "note": ""
  },
  {
   "property": "C10",
   "status": "partial",
   "theorems": [
    "Resdx.Props.C10_setMassAirflow_effect",
    "Resdx.Props.C10_refuted",
    "Resdx.Props.C10_wrong_everywhere_else",
    "Resdx.Props.C10_setMassAirflow_partial",
    "Resdx.Props.C10_setMassAirflow_unset",
    "Resdx.Props.C10_setMassAirflow_unrated"
   ],
   "note": "False of the code: set_mass_airflow inverts the ratio and uses the previous ratio for the pressure (C10_refuted, C10_wrong_everywhere_else). C10_setMassAirflow_effect gives the exact effect; C10_setMassAirflow_partial covers the rated flow."
  },
  {
   "property": "C11",
   "status": "proved",
   "theorems": [
    "Resdx.Props.C11_inDefrost_iff",
    "Resdx.Props.C11_init"
   ],
   "note": ""
  },
  {
   "property": "C12",
   "status": "partial",
   "theorems": [
    "Resdx.Props.C12_credit_not_demand",
    "Resdx.Props.C12_credit_bounds_partial",
    "Resdx.Props.C12_credit_linear",
    "Resdx.Props.C12_credit_antitone",
    "Resdx.Props.C12_refuted",
    "Resdx.Props.C12_credit_singular"
   ],
   "note": "Holds when the period does not exceed the maximum time nor 720 min and the maximum time exceeds 90 min (C12_credit_bounds_partial); C12_refuted shows a credit below 1 otherwise and C12_credit_singular the division by zero."
  },
  {
   "property": "C13",
   "status": "partial",
   "theorems": [
    "Resdx.Props.C13_resnet_aligned",
    "Resdx.Props.C13_psc_aligned",
    "Resdx.Props.C13_ecm_aligned",
    "Resdx.Props.C13_eere_aligned",
    "Resdx.Props.C13_failed_remove_changes_nothing",
    "Resdx.Props.C13_resnet_constructs",
    "Resdx.Props.C13_constEff_misaligned",
    "Resdx.Props.C13_refuted",
    "Resdx.Props.C13_constEff_partial",
    "Resdx.Props.C13_constEff_init_unchecked"
   ],
   "note": "Proved for RESNET, PSC, ECM and EERE fans over all histories. False of ConstantEfficacyFan: C13_refuted, C13_constEff_misaligned (add_speed without an efficacy), C13_constEff_init_unchecked; C13_constEff_partial covers histories that pass an efficacy."
  },
  {
   "property": "C14",
   "status": "proved",
   "theorems": [
    "Resdx.Props.C14_resnet",
    "Resdx.Props.C14_psc",
    "Resdx.Props.C14_ecm",
    "Resdx.Props.C14_eere",
    "Resdx.Props.C14_first_removed_stale"
   ],
   "note": ""
  },
  {
   "property": "C15",
   "status": "partial",
   "theorems": [
    "Resdx.Props.C15_check_power_returns",
    "Resdx.Props.C15_eere_default_pressure_fails",
    "Resdx.Props.C15_constEff_always_fails",
    "Resdx.Props.C15_refuted",
    "Resdx.Props.C15_resnetPSC_partial"
   ],
   "note": "Proved whenever check_power returns, for all classes (C15_check_power_returns). On failure the trial speed stays: C15_refuted, C15_constEff_always_fails, C15_eere_default_pressure_fails."
  },
  {
   "property": "C16",
   "status": "proved",
   "theorems": [
    "Resdx.Props.C16_flow_of_pressure",
    "Resdx.Props.C16_pressure_of_flow",
    "Resdx.Props.C16_negative_pressure",
    "Resdx.Props.C16_increasing",
    "Resdx.Props.C16_curve_fixed",
    "Resdx.Props.C16_design_point"
   ],
   "note": ""
  },
  {
   "property": "C17",
   "status": "proved",
   "theorems": [
    "Resdx.Props.C17_airflow_curve",
    "Resdx.Props.C17_requested_airflow",
    "Resdx.Props.C17_constructs"
   ],
   "note": ""
  },
  {
   "property": "C18",
   "status": "partial",
   "theorems": [
    "Resdx.Props.C18_rotational_speed_partial",
    "Resdx.Props.C18_faster_setting_exceeds_limit",
    "Resdx.Props.C18_refuted"
   ],
   "note": "C18_rotational_speed_partial covers settings up to 1100/1040 of the first setting's free airflow; C18_refuted / C18_faster_setting_exceeds_limit show faster settings exceed the limit."
  },
  {
   "property": "C19",
   "status": "proved",
   "theorems": [
    "Resdx.Props.C19_power_limit",
    "Resdx.Props.C19_limit_fixed",
    "Resdx.Props.C19_airflow_limited",
    "Resdx.Props.C19_zero_power_fails",
    "Resdx.Props.C19_power_product",
    "Resdx.Props.C19_design_point",
    "Resdx.Props.C19_rejects_small_limit",
    "Resdx.Props.C19_free_delivery_unlimited"
   ],
   "note": ""
  },
  {
   "property": "C20",
   "status": "partial",
   "theorems": [
    "Resdx.Props.C20_interpolation",
    "Resdx.Props.C20_below",
    "Resdx.Props.C20_above",
    "Resdx.Props.C20_two_tons_fails",
    "Resdx.Props.C20_construct",
    "Resdx.Props.C20_refuted",
    "Resdx.Props.C20_construct_partial",
    "Resdx.Props.C20_efficacy_between",
    "Resdx.Props.C20_table_reproduced"
   ],
   "note": "Proved on (2, 5] tons (C20_interpolation, C20_construct_partial, C20_table_reproduced) with the extrapolation outside (C20_below, C20_above). At exactly 2 tons construction raises AttributeError: C20_refuted."
  },
  {
   "property": "C21",
   "status": "proved",
   "theorems": [
    "Resdx.Props.C21_requested_airflow"
   ],
   "note": ""
  },
  {
   "property": "C22",
   "status": "proved",
   "theorems": [
    "Resdx.Props.C22_psc_bounds",
    "Resdx.Props.C22_psc_power_mono",
    "Resdx.Props.C22_bpm_linear",
    "Resdx.Props.C22_bpm_ends",
    "Resdx.Props.C22_bpm_below_psc",
    "Resdx.Props.C22_bpm_power_mono_ducted",
    "Resdx.Props.C22_bpm_power_mono_fixed"
   ],
   "note": ""
  },
  {
   "property": "C23",
   "status": "proved",
   "theorems": [
    "Resdx.Props.C23_operating_pressure",
    "Resdx.Props.C23_no_operating_point"
   ],
   "note": ""
  },
  {
   "property": "C24",
   "status": "proved",
   "theorems": [
    "Resdx.Props.C24_order_map",
    "Resdx.Props.C24_order_design",
    "Resdx.Props.C24_order_design_psc",
    "Resdx.Props.C24_representation"
   ],
   "note": ""
  },
  {
   "property": "C25",
   "status": "proved",
   "theorems": [
    "Resdx.Props.C25_set_get",
    "Resdx.Props.C25_missing_temperature",
    "Resdx.Props.C25_speed_too_high",
    "Resdx.Props.C25_speed_wraps"
   ],
   "note": ""
  },
  {
   "property": "C26",
   "status": "proved",
   "theorems": [
    "Resdx.Props.C26_ratio",
    "Resdx.Props.C26_ratio_max",
    "Resdx.Props.C26_maintenance",
    "Resdx.Props.C26_interpolation",
    "Resdx.Props.C26_interpolation_between"
   ],
   "note": ""
  },
  {
   "property": "C27",
   "status": "proved",
   "theorems": [
    "Resdx.Props.C27_duplicate_rejected",
    "Resdx.Props.C27_add_temperature_wf",
    "Resdx.Props.C27_histories_wf"
   ],
   "note": ""
  },
  {
   "property": "C28",
   "status": "proved",
   "theorems": [
    "Resdx.Props.C28_below",
    "Resdx.Props.C28_above",
    "Resdx.Props.C28_below_copy",
    "Resdx.Props.C28_above_copy",
    "Resdx.Props.C28_single_row"
   ],
   "note": ""
  },
  {
   "property": "C29",
   "status": "partial",
   "theorems": [
    "Resdx.Props.C29_interior_refuted",
    "Resdx.Props.C29_first_gap_partial",
    "Resdx.Props.C29_second_gap_partial",
    "Resdx.Props.C29_exact_partial"
   ],
   "note": "False of the code: the interior branch divides by temperatures[1] - temperatures[t_i-1] (C29_interior_refuted). C29_first_gap_partial: in the first gap the row above is copied; C29_second_gap_partial: in the second gap ZeroDivisionError; C29_exact_partial: the claim holds exactly when the two neighbouring rows are equal and the gap is not the second."
  },
  {
   "property": "C30",
   "status": "proved",
   "theorems": [
    "Resdx.Props.C30_set_interpolator",
    "Resdx.Props.C30_no_interpolator",
    "Resdx.Props.C30_node",
    "Resdx.Props.C30_linear_in_temperature",
    "Resdx.Props.C30_linear_in_speed",
    "Resdx.Props.C30_no_overshoot",
    "Resdx.Props.C30_single_speed",
    "Resdx.Props.C30_snapshot"
   ],
   "note": ""
  },
  {
   "property": "C31",
   "status": "proved",
   "theorems": [
    "Resdx.Props.C31_correction_returns",
    "Resdx.Props.C31_correction",
    "Resdx.Props.C31_make_gross",
    "Resdx.Props.C31_make_gross_returns"
   ],
   "note": ""
  },
  {
   "property": "C32",
   "status": "proved",
   "theorems": [
    "Resdx.Props.C32_single_speed",
    "Resdx.Props.C32_two_speed",
    "Resdx.Props.C32_variable_speed",
    "Resdx.Props.C32_single_speed_returns",
    "Resdx.Props.C32_two_speed_returns"
   ],
   "note": ""
  },
  {
   "property": "C33",
   "status": "partial",
   "theorems": [
    "Resdx.Props.C33_refuted",
    "Resdx.Props.C33_second_call_raises"
   ],
   "note": "False of the code: make_neep_model_data converts the caller's lists in place and the tables keep them as their data (C33_refuted). C33_second_call_raises: after any call that returns, a second call with the same lists raises for every argument."
  },
  {
   "property": "C34",
   "status": "partial",
   "theorems": [
    "Resdx.BaseModel.C34_net_cop",
    "Resdx.BaseModel.C34_gross_cop",
    "Resdx.BaseModel.C34_net_cop_returns_iff",
    "Resdx.BaseModel.C34_gross_cop_returns_iff",
    "Resdx.BaseModel.C34_round_trip_gross",
    "Resdx.BaseModel.C34_round_trip_net",
    "Resdx.BaseModel.C34_gross_list_only",
    "Resdx.BaseModel.C34_refuted",
    "Resdx.C34_gross_capacities"
   ],
   "note": "Proved for numbers and for lists of net COPs (C34_net_cop, C34_gross_cop, both round trips, and exactly when the setters return). False of a list of gross COPs: only the gross COP is stored (C34_gross_list_only, C34_refuted)."
  },
  {
   "property": "C35",
   "status": "partial",
   "theorems": [
    "Resdx.BaseModel.C35_refuted",
    "Resdx.BaseModel.C35_default_wins",
    "Resdx.BaseModel.C35_partial",
    "Resdx.BaseModel.C35_neither"
   ],
   "note": "Holds of the accessor that applies the given COP (C35_partial); the base constructor then overwrites it with its default gross COP (C35_refuted, C35_default_wins)."
  },
  {
   "property": "C36",
   "status": "proved",
   "theorems": [
    "Resdx.BaseModel.C36_base",
    "Resdx.BaseModel.C36_base_zero",
    "Resdx.ResnetFan.C36_resnet",
    "Resdx.ResnetFan.C36_resnet_psc_made",
    "Resdx.ResnetFan.C36_resnet_bpm_made"
   ],
   "note": ""
  },
  {
   "property": "C37",
   "status": "proved",
   "theorems": [
    "Resdx.BaseModel.C37_order",
    "Resdx.BaseModel.C37_final_checks",
    "Resdx.BaseModel.C37_roles_iff",
    "Resdx.BaseModel.C37_default_roles",
    "Resdx.BaseModel.C37_no_speeds"
   ],
   "note": ""
  },
  {
   "property": "C38",
   "status": "proved",
   "theorems": [
    "Resdx.DX.Performance.C38_cooling_accounting",
    "Resdx.DX.Performance.C38_heating_accounting",
    "Resdx.DX.Performance.C38_cooling_cop",
    "Resdx.DX.Performance.C38_sensible_cop",
    "Resdx.DX.Performance.C38_shr",
    "Resdx.DX.Performance.C38_steady_heating_cop",
    "Resdx.DX.Performance.C38_integrated_heating_cop",
    "Resdx.C38_defaults",
    "Resdx.C38_conditions"
   ],
   "note": ""
  },
  {
   "property": "C39",
   "status": "partial",
   "theorems": [
    "Resdx.DX.Performance.C39_cooling",
    "Resdx.DX.Performance.C39_cooling_rejects",
    "Resdx.DX.Performance.C39_shr_rejects",
    "Resdx.DX.Performance.C39_heating_unchecked_partial",
    "Resdx.C39_heating_refuted"
   ],
   "note": "Cooling: proved (C39_cooling, C39_cooling_rejects, C39_shr_rejects). Heating values are not checked by the code: C39_heating_refuted gives a negative heating capacity returned; C39_heating_unchecked_partial states what is returned."
  },
  {
   "property": "C40",
   "status": "proved",
   "theorems": [
    "Resdx.C40_capacity_law",
    "Resdx.C40_capacity_bounds",
    "Resdx.C40_power_law",
    "Resdx.C40_power_and_cop"
   ],
   "note": ""
  },
  {
   "property": "C41",
   "status": "partial",
   "theorems": [
    "Resdx.C41_resnet_capacity_partial",
    "Resdx.C41_nrel_partial",
    "Resdx.C41_constant_partial",
    "Resdx.C41_resnet_power",
    "Resdx.C41_refuted"
   ],
   "note": "Proved for the NREL and constant models and the RESNET capacity; false of the RESNET power: C41_refuted, with the exact condition for agreement in C41_resnet_power."
  },
  {
   "property": "C42",
   "status": "proved",
   "theorems": [
    "Resdx.C42_nominal",
    "Resdx.C42_rated_airflow"
   ],
   "note": ""
  },
  {
   "property": "C43",
   "status": "proved",
   "theorems": [
    "Resdx.DX.C43_bypass",
    "Resdx.DX.C43_invalid"
   ],
   "note": ""
  },
  {
   "property": "C44",
   "status": "proved",
   "theorems": [
    "Resdx.DX.Performance.C44_line",
    "Resdx.DX.Performance.C44_interpolate",
    "Resdx.DX.Performance.C44_between"
   ],
   "note": ""
  },
  {
   "property": "C45",
   "status": "proved",
   "theorems": [
    "Resdx.Build.C45_cooling",
    "Resdx.Build.C45_heating"
   ],
   "note": ""
  },
  {
   "property": "C46",
   "status": "proved",
   "theorems": [
    "Resdx.DX.C46_two_stage_bin",
    "Resdx.DX.C46_two_stage_seer",
    "Resdx.DX.C46_variable_speed_seer",
    "Resdx.DX.C46_single_stage"
   ],
   "note": ""
  },
  {
   "property": "C47",
   "status": "proved",
   "theorems": [
    "Resdx.DX.C47_intermediate",
    "Resdx.DX.C47_intermediate_between",
    "Resdx.DX.C47_two_stage_continuous",
    "Resdx.DX.C47_variable_speed_continuous",
    "Resdx.DX.C47_off_full"
   ],
   "note": ""
  },
  {
   "property": "C48",
   "status": "proved",
   "theorems": [
    "Resdx.DX.C48_scale_invariant",
    "Resdx.DX.C48_scaled"
   ],
   "note": ""
  },
  {
   "property": "C49",
   "status": "proved",
   "theorems": [
    "Resdx.DX.C49_two_stage",
    "Resdx.DX.C49_variable_speed",
    "Resdx.DX.C49_single_stage"
   ],
   "note": ""
  },
  {
   "property": "C50",
   "status": "partial",
   "theorems": [
    "Resdx.DX.C50_load_2023",
    "Resdx.DX.C50_load_2017",
    "Resdx.DX.C50_design_requirements",
    "Resdx.DX.C50_single",
    "Resdx.DX.C50_two_stage_partial",
    "Resdx.DX.C50_variable_speed_partial",
    "Resdx.DX.C50_full_speed",
    "Resdx.DX.C50_single_hspf",
    "Resdx.DX.C50_two_stage_refuted",
    "Resdx.DX.C50_variable_speed_refuted",
    "Resdx.DX.C50_low_speed_two",
    "Resdx.DX.C50_low_speed_variable",
    "Resdx.DX.C50_intermediate",
    "Resdx.DX.C50_two_stage_hspf_partial",
    "Resdx.DX.C50_variable_speed_hspf_partial",
    "Resdx.DX.C50_design_list"
   ],
   "note": "Proved in full for single-stage units (C50_single, C50_single_hspf, loads C50_load_*). False of the code elsewhere: C50_two_stage_refuted (a stale run fraction: load met by nothing) and C50_variable_speed_refuted (negative resistance heat); the _partial theorems give the exact balance per regime."
  },
  {
   "property": "C51",
   "status": "partial",
   "theorems": [
    "Resdx.DX.C51_single",
    "Resdx.DX.C51_variable_speed",
    "Resdx.DX.C51_two_stage_partial",
    "Resdx.DX.C51_all_resistance",
    "Resdx.DX.C51_two_stage_refuted"
   ],
   "note": "Proved for single-stage and variable-speed units and for the season (C51_all_resistance); false of two-stage units between the capacities (C51_two_stage_refuted), C51_two_stage_partial proves the rest."
  },
  {
   "property": "C52",
   "status": "partial",
   "theorems": [
    "Resdx.DX.C52_2023",
    "Resdx.DX.C52_2017_partial",
    "Resdx.DX.C52_2017_refuted"
   ],
   "note": "Proved for the 2023 standard (C52_2023). False for the 2017 standard (C52_2017_refuted) because of the fixed list of design requirements; C52_2017_partial proves it when the nearest entry scales."
  },
  {
   "property": "C53",
   "status": "partial",
   "theorems": [
    "Resdx.DX.C53_single",
    "Resdx.DX.C53_two_stage_partial",
    "Resdx.DX.C53_variable_speed_partial",
    "Resdx.DX.C53_two_stage_refuted",
    "Resdx.DX.C53_variable_speed_refuted"
   ],
   "note": "Proved for single-stage units. False of two-stage and variable-speed units (C53_*_refuted); _partial theorems give sufficient conditions."
  },
  {
   "property": "C54",
   "status": "partial",
   "theorems": [
    "Resdx.DX.C54_default_partial",
    "Resdx.DX.C54_off_temperature",
    "Resdx.DX.C54_supplied",
    "Resdx.DX.C54_refuted"
   ],
   "note": "False of the code: a supplied cut-in temperature makes hspf raise AttributeError (C54_refuted, general form C54_supplied). C54_default_partial covers units without one."
  },
  {
   "property": "C55",
   "status": "proved",
   "theorems": [
    "Resdx.DX.C55_accepted",
    "Resdx.DX.C55_accepts",
    "Resdx.DX.C55_known_regions",
    "Resdx.DX.C55_regions",
    "Resdx.DX.C55_cooling",
    "Resdx.DX.C55_heating_temperatures",
    "Resdx.DX.C55_climates"
   ],
   "note": ""
  },
  {
   "property": "C56",
   "status": "proved",
   "theorems": [
    "Resdx.C56_fraction_bounds",
    "Resdx.C56_tabulated",
    "Resdx.C56_integrated"
   ],
   "note": ""
  },
  {
   "property": "C57",
   "status": "partial",
   "theorems": [
    "Resdx.Title24.C57_partial",
    "Resdx.Title24.C57_strict",
    "Resdx.Title24.C57_refuted"
   ],
   "note": "False of the code: the default EER drops at SEER 16 (C57_refuted). C57_partial and C57_strict prove monotonicity on each side."
  },
  {
   "property": "C58",
   "status": "partial",
   "theorems": [
    "Resdx.Title24.C58_range",
    "Resdx.Title24.C58_degradation",
    "Resdx.Title24.C58_ratio_partial",
    "Resdx.Title24.C58_ratio_range",
    "Resdx.Title24.C58_ratio_refuted"
   ],
   "note": "Degradation coefficient proved (C58_range, C58_degradation). The 17 degF capacity ratio is not monotone (C58_ratio_refuted); C58_ratio_partial proves it inside the pieces, C58_ratio_range its range."
  },
  {
   "property": "C59",
   "status": "partial",
   "theorems": [
    "Resdx.Title24.C59_capacities",
    "Resdx.Title24.C59_repeatable",
    "Resdx.Title24.C59_first_query",
    "Resdx.Title24.C59_single_speed_partial",
    "Resdx.Title24.C59_other_speed_power",
    "Resdx.Title24.C59_refuted"
   ],
   "note": "Capacities, repeatability and the first-queried speed proved for every history. A second heating speed is never solved for: its COP stays None (C59_refuted, C59_other_speed_power); C59_single_speed_partial proves the whole claim for one speed."
  },
  {
   "property": "C60",
   "status": "partial",
   "theorems": [
    "Resdx.C60_time_fraction",
    "Resdx.C60_multipliers",
    "Resdx.C60_capacity_reduced",
    "Resdx.C60_capacity",
    "Resdx.C60_power_formula_partial",
    "Resdx.C60_no_frost",
    "Resdx.C60_power_partial",
    "Resdx.C60_reverse_cycle_never_returns",
    "Resdx.C60_refuted"
   ],
   "note": "Time fraction, multipliers and reduced capacity proved; power evaluable except for reverse-cycle defrost, which always raises TypeError in frost (C60_reverse_cycle_never_returns, C60_refuted)."
  },
  {
   "property": "C61",
   "status": "proved",
   "theorems": [
    "Resdx.Idf.C61_round_trip",
    "Resdx.Idf.C61_no_fields",
    "Resdx.Idf.C61_file"
   ],
   "note": ""
  },
  {
   "property": "C62",
   "status": "proved",
   "theorems": [
    "Resdx.Idf.C62_names",
    "Resdx.Idf.C62_references"
   ],
   "note": ""
  },
  {
   "property": "C63",
   "status": "proved",
   "theorems": [
    "Resdx.Idf.C63_air_path"
   ],
   "note": ""
  },
  {
   "property": "C64",
   "status": "proved",
   "theorems": [
    "Resdx.Idf.C64_cooling",
    "Resdx.Idf.C64_heating",
    "Resdx.Idf.C64_nominal"
   ],
   "note": ""
  },
  {
   "property": "C65",
   "status": "proved",
   "theorems": [
    "Resdx.Props.C65_row_major",
    "Resdx.Props.C65_sequence_numbers",
    "Resdx.Props.C65_returns_iff"
   ],
   "note": "Layout, positions and compressor speeds for every number of speeds; C65_returns_iff characterises when the representation is produced."
  },
  {
   "property": "C66",
   "status": "partial",
   "theorems": [
    "Resdx.Ratings.C66_partial",
    "Resdx.Ratings.C66_two_stage_refuted"
   ],
   "note": "False for two-stage units: with default speed indices reset_rated_flow_rates always raises AttributeError (A_int_cond), after the fan already gained speeds (C66_two_stage_refuted, for every two-stage unit and fan). C66_partial: variable-speed units and units whose intermediate index lies beyond the last speed (all single-speed units) succeed, with the exact effect on fan and conditions."
  },
  {
   "property": "C67",
   "status": "partial",
   "theorems": [
    "Resdx.Build.C67_hspf",
    "Resdx.Build.C67_seer_staged",
    "Resdx.Build.C67_seer_single",
    "Resdx.Build.C67_difference_partial",
    "Resdx.Build.C67_fraction_single",
    "Resdx.Build.C67_fraction_default",
    "Resdx.Build.C67_attained",
    "Resdx.Build.C67_refuted",
    "Resdx.Build.C67_two_attained",
    "Resdx.Build.C67_two_stage",
    "Resdx.Build.C67_variable_seer",
    "Resdx.Build.C67_variable_hspf",
    "Resdx.Build.C67_variable_attained"
   ],
   "note": "C67_hspf and C67_seer_staged: the rating differs from the target by at most the residual the solver leaves (zero for an exact root); C67_seer_single is exact. C67_attained: for single-stage requests in usual ranges every HSPF2 between those of the COPs 2.1 and 5 has exactly one COP in that interval, and a solver that returns it gives the requested unit. C67_fraction_single: the 17 F capacity is the requested fraction when a 47 F capacity is given. C67_difference_partial (any staging): the difference of the two capacities is exact; the fraction itself is shifted by the fan-pressure difference of C88/C89. C67_fraction_default, C67_refuted: without a 47 F capacity the fraction is wrong except for 9000 Btu/h. C67_two_stage: for two-stage requests the SEER2 search has exactly one root up to a low-stage COP of 8, or none if the request exceeds the SEER2 at that COP. C67_two_attained: for two-stage requests in usual ranges, every HSPF2 between those of the COPs 2.1 and 4.3 has exactly one pair of COPs without residuals, and a solver that returns it gives a unit with exactly the requested SEER2 and HSPF2. C67_variable_seer, C67_variable_hspf: for variable-speed requests both residuals are continuous in the COP sought (cooling COPs in the range of UsualVariableCop, heating COPs 2.5 to 5), so a sign change gives a root; C67_variable_attained: a solver that returns such roots gives a unit with exactly the requested SEER2 and HSPF2. Missing: that scipy's search converges."
  },
  {
   "property": "C68",
   "status": "partial",
   "theorems": [
    "Resdx.Props.C68_resnet",
    "Resdx.Props.C68_ecm",
    "Resdx.Props.C68_psc_partial",
    "Resdx.Props.C68_psc_trial_differs"
   ],
   "note": "Proved for RESNET and ECM fans and for PSC fans without a rating pressure; C68_psc_trial_differs shows the tried and the added speed differ for PSC fans rated below the design pressure. The solver is idealised to an exact root (NewtonSpec)."
  },
  {
   "property": "C69",
   "status": "partial",
   "theorems": [
    "Resdx.Props.C69_resnetPSC",
    "Resdx.Props.C69_ecm_finite",
    "Resdx.Props.C69_ecm_unlimited",
    "Resdx.Props.C69_ecm_records",
    "Resdx.Props.C69_psc",
    "Resdx.Props.C69_refuted",
    "Resdx.Props.C69_psc_records"
   ],
   "note": "Proved for RESNET PSC, PSC and ECM fans (with the record invariants C69_psc_records, C69_ecm_records); false of RESNET BPM fans: C69_refuted."
  },
  {
   "property": "C70",
   "status": "proved",
   "theorems": [
    "Resdx.Props.C70_measured_reproduced"
   ],
   "note": ""
  },
  {
   "property": "C71",
   "status": "proved",
   "theorems": [
    "Resdx.C71_cooling_capacity",
    "Resdx.C71_heating_capacity",
    "Resdx.C71_list_default",
    "Resdx.C71_number_default",
    "Resdx.C71_cycling",
    "Resdx.C71_airflow_per_capacity"
   ],
   "note": ""
  },
  {
   "property": "C72",
   "status": "proved",
   "theorems": [
    "Resdx.C72_full_flow",
    "Resdx.C72_monotone",
    "Resdx.C72_square_law"
   ],
   "note": ""
  },
  {
   "property": "C73",
   "status": "proved",
   "theorems": [
    "Resdx.C73_correction",
    "Resdx.C73_lookup",
    "Resdx.C73_rated_cooling",
    "Resdx.C73_rated_heating"
   ],
   "note": ""
  },
  {
   "property": "C74",
   "status": "partial",
   "theorems": [
    "Resdx.C74_cooling_capacity",
    "Resdx.C74_cooling_power",
    "Resdx.C74_heating",
    "Resdx.C74_rated",
    "Resdx.C74_cooling_outdoor",
    "Resdx.C74_cooling_positive",
    "Resdx.C74_limits",
    "Resdx.C74_wet_bulb_partial",
    "Resdx.C74_wet_bulb_refuted",
    "Resdx.C74_heating_capacity",
    "Resdx.C74_heating_eir",
    "Resdx.C74_airflow"
   ],
   "note": "Curves, rated values, limits and outdoor monotonicity proved. 'Capacity rises with indoor wet bulb' is false of the code below about 63 degF (C74_wet_bulb_refuted); C74_wet_bulb_partial proves it above."
  },
  {
   "property": "C75",
   "status": "partial",
   "theorems": [
    "Resdx.Title24.C75_partial",
    "Resdx.Title24.C75_refuted"
   ],
   "note": "The COP at 35 degF is the one of the last point the search evaluated (C75_partial), which need not be the root it returned (C75_refuted, for the secant iteration)."
  },
  {
   "property": "C76",
   "status": "proved",
   "theorems": [
    "Resdx.Title24.C76_closed_form",
    "Resdx.Title24.C76_agrees"
   ],
   "note": ""
  },
  {
   "property": "C77",
   "status": "proved",
   "theorems": [
    "Resdx.Title24.C77_capacity",
    "Resdx.Title24.C77_rated_points",
    "Resdx.Title24.C77_frost_costs",
    "Resdx.Title24.C77_power",
    "Resdx.Title24.C77_integrated_power"
   ],
   "note": ""
  },
  {
   "property": "C78",
   "status": "proved",
   "theorems": [
    "Resdx.Title24.C78_sensible",
    "Resdx.Title24.C78_positive"
   ],
   "note": ""
  },
  {
   "property": "C79",
   "status": "partial",
   "theorems": [
    "Resdx.Title24.C79_power",
    "Resdx.Title24.C79_rated_partial",
    "Resdx.Title24.C79_excess",
    "Resdx.Title24.C79_refuted"
   ],
   "note": "C79_power gives the power in every regime; the rated COP is not reproduced, not even within 8% (C79_refuted), because fan watts are divided by 3.413; C79_rated_partial and C79_excess give the exact discrepancy."
  },
  {
   "property": "C80",
   "status": "partial",
   "theorems": [
    "Resdx.Title24.C80_single_speed_partial",
    "Resdx.Title24.C80_multi_speed_refuted",
    "Resdx.Title24.C80_supplied_refuted"
   ],
   "note": "Proved for one speed and no supplied fan speeds (C80_single_speed_partial, where the heating airflow follows the cooling capacity). With more speeds construction raises IndexError (C80_multi_speed_refuted), with supplied fan speeds UnboundLocalError (C80_supplied_refuted)."
  },
  {
   "property": "C81",
   "status": "proved",
   "theorems": [
    "Resdx.Ratings.C81_tests",
    "Resdx.Ratings.C81_total",
    "Resdx.Ratings.C81_states"
   ],
   "note": ""
  },
  {
   "property": "C82",
   "status": "partial",
   "theorems": [
    "Resdx.Ratings.C82_partial",
    "Resdx.Ratings.C82_pressure_refuted",
    "Resdx.Ratings.C82_boost_refuted",
    "Resdx.Ratings.C82_constant_efficacy_refuted"
   ],
   "note": "False of the code in three ways: pressures differ unless the first speed's airflow is unchanged (C82_partial gives the exact condition, C82_pressure_refuted a witness); the boost condition is left at its old fan speed (C82_boost_refuted); a ConstantEfficacyFan takes the pressure as the efficacy of every added speed (C82_constant_efficacy_refuted, for every unit). Proved: fan speed and airflow agree (C82_partial)."
  },
  {
   "property": "C83",
   "status": "proved",
   "theorems": [
    "Resdx.Ratings.C83_last_standard",
    "Resdx.Ratings.C83_pressure_only"
   ],
   "note": ""
  },
  {
   "property": "C84",
   "status": "partial",
   "theorems": [
    "Resdx.Idf.C84_axes_increasing_partial",
    "Resdx.Idf.C84_axes_increasing_refuted"
   ],
   "note": "Proved for units with a cut-out temperature below 5 F (C84_axes_increasing_partial); false for every unit with a cut-out of 5 F or more, whose heating axis is not increasing (C84_axes_increasing_refuted)."
  },
  {
   "property": "C85",
   "status": "proved",
   "theorems": [
    "Resdx.Idf.C85_cooling",
    "Resdx.Idf.C85_heating"
   ],
   "note": ""
  },
  {
   "property": "C86",
   "status": "partial",
   "theorems": [
    "Resdx.Idf.C86_cut_in_refuted",
    "Resdx.Idf.C86_written"
   ],
   "note": "Proved for units without a supplied cut-in temperature (C86_written); false for every unit with one, because the constructor then never sets heating_on_temperature (C86_cut_in_refuted)."
  },
  {
   "property": "C87",
   "status": "proved",
   "theorems": [
    "Resdx.Idf.C87_fan",
    "Resdx.Idf.C87_ascending"
   ],
   "note": ""
  },
  {
   "property": "C88",
   "status": "partial",
   "theorems": [
    "Resdx.Build.C88_cooling_any",
    "Resdx.Build.C88_fan_as_rated",
    "Resdx.Build.C88_fan_bpm",
    "Resdx.Build.C88_fan_power",
    "Resdx.Build.C88_cooling",
    "Resdx.Build.C88_heating",
    "Resdx.Build.C88_cooling_intermediate",
    "Resdx.Build.C88_heating_intermediate",
    "Resdx.Build.C88_cooling_bpm",
    "Resdx.Build.C88_heating_bpm"
   ],
   "note": "Exact for PSC motors, for every speed but the full speed of BPM units, and for BPM units whose fastest airflow in the mode is the fan's design airflow (SameFan). Otherwise false: C88_cooling_bpm and C88_heating_bpm give the sign of the shift. The intermediate speed differs by the difference between its fan power and the mean of its neighbours' (C88_cooling_intermediate, C88_heating_intermediate). C88_fan_power gives both fan powers in closed form for either motor, every speed, and C88_cooling_any and C96_integrated_any the performance for any fan power of the condition."
  },
  {
   "property": "C89",
   "status": "partial",
   "theorems": [
    "Resdx.Sample.C89_refuted",
    "Resdx.Build.C89_cooling_partial",
    "Resdx.Build.C89_heating_partial",
    "Resdx.Build.C89_cooling_bpm",
    "Resdx.Build.C89_heating_bpm"
   ],
   "note": "Proved for PSC motors and for BPM motors whose design airflow is that of the mode's fastest speed (C89_cooling_partial, C89_heating_partial). For ducted BPM units with another design airflow it is false in a known direction (C89_cooling_bpm, C89_heating_bpm); C89_refuted gives a variable-speed and a two-stage unit."
  },
  {
   "property": "C90",
   "status": "proved",
   "theorems": [
    "Resdx.Build.C90_single_range",
    "Resdx.Build.C90_two_range",
    "Resdx.Build.C90_variable_range",
    "Resdx.Build.C90_single",
    "Resdx.Build.C90_two",
    "Resdx.Build.C90_variable",
    "Resdx.Build.C90_published",
    "Resdx.Build.C90_tables",
    "Resdx.Build.C90_ratings",
    "Resdx.Build.C90_variable_cop",
    "Resdx.Build.C90_variable_any"
   ],
   "note": "C90_tables covers every set of sound tables; C90_single, C90_two and C90_variable cover units made from ratings whose closed-form curves leave room for the fan power, and the *_range theorems give explicit ranges of ratings for which they do. C90_published derives the surroundings assumed by these theorems, including that the coil calculation returns, from published properties of moist air (`RatedAir`), a root finder that converges for convex functions and `brentq`; these third-party contracts are in the trusted base. Variable-speed units are covered with any given or default COP at 82 \u00b0F and capacity ratio at 95 \u00b0F up to 0.85 (C90_variable_any)."
  },
  {
   "property": "C91",
   "status": "partial",
   "theorems": [
    "Resdx.Props.C91_stored_condition",
    "Resdx.Props.C91_nrel_reversed",
    "Resdx.Props.C91_refuted"
   ],
   "note": "False of the code (C91_refuted): set_mass_airflow inverts the ratio, so values are stored for the reciprocal ratio (C91_stored_condition) and NREL capacities fall along the axis (C91_nrel_reversed). Only the mass flow itself, the air states and the speed are as stated."
  },
  {
   "property": "C92",
   "status": "proved",
   "theorems": [
    "Resdx.Props.C92_axes",
    "Resdx.Props.C92_axis_of_accepted_unit",
    "Resdx.Props.C92_scalars"
   ],
   "note": ""
  },
  {
   "property": "C93",
   "status": "partial",
   "theorems": [
    "Resdx.Props.C93_stable",
    "Resdx.Props.C93_seed_kept",
    "Resdx.Props.C93_parts_reproducible",
    "Resdx.Props.C93_whole_depends_on_string_hash",
    "Resdx.Props.C93_refuted"
   ],
   "note": "Stability and the coil, fan and motor identifiers are proved; the identifier of the whole representation depends on the per-process string hash (C93_refuted)."
  },
  {
   "property": "C94",
   "status": "proved",
   "theorems": [
    "Resdx.Build.C94_cooling_performance",
    "Resdx.Build.C94_cooling_ratings",
    "Resdx.Build.C94_heating_capacity"
   ],
   "note": ""
  },
  {
   "property": "C95",
   "status": "proved",
   "theorems": [
    "Resdx.Tabular.C95_single",
    "Resdx.Tabular.C95_two",
    "Resdx.Tabular.C95_variable",
    "Resdx.Tabular.C95_variable_default",
    "Resdx.Tabular.C95_variable_lowest"
   ],
   "note": "For all ratings with nonzero capacities and efficiencies. Variable-speed units with an explicit capacity ratio or COP at 82 F need the two quotients of the builder to exist (hypotheses hr, hp of C95_variable); with defaults they always do (default_ratios)."
  },
  {
   "property": "C96",
   "status": "proved",
   "theorems": [
    "Resdx.Build.C96_integrated_any",
    "Resdx.Build.C96_full_tests_any",
    "Resdx.Build.C96_integrated",
    "Resdx.Build.C96_full_tests",
    "Resdx.Build.C96_low_tests",
    "Resdx.Build.C96_single_hspf",
    "Resdx.Build.C96_single_hspf_2017",
    "Resdx.Build.C96_single_2017",
    "Resdx.Build.C96_single_ratings",
    "Resdx.Build.C96_cop",
    "Resdx.Build.C96_increasing",
    "Resdx.Build.C96_single_hspf_any",
    "Resdx.Build.C96_single_any",
    "Resdx.Build.C96_any_cop",
    "Resdx.Build.C96_2017_cop",
    "Resdx.Build.C96_two_hspf",
    "Resdx.Build.C96_intermediate_tests",
    "Resdx.Build.C96_variable_hspf",
    "Resdx.Build.C96_two_ratings",
    "Resdx.Build.C96_two_cop",
    "Resdx.Build.C96_two_bound",
    "Resdx.Build.C96_two_increasing",
    "Resdx.Build.C96_variable_ratings",
    "Resdx.Build.C96_variable_bound",
    "Resdx.Build.C96_variable_cop",
    "Resdx.Build.C96_variable_any"
   ],
   "note": "C96_integrated, C96_full_tests, C96_low_tests, C96_integrated_any, C96_full_tests_any: any staging and any rated tables. C96_single_hspf, C96_single_hspf_any, C96_two_hspf, C96_variable_hspf: any unit whose tables follow curves with positive power. C96_single_any, C96_single_ratings: from the ratings, single-stage units with both motors, ducted or not, any sizes; C96_any_cop (any motor), C96_cop, C96_increasing (PSC motor): dependence on the COP. C96_single_2017, C96_2017_cop: the same for the 2017 edition. C96_two_ratings, C96_two_cop, C96_two_increasing, C96_two_bound (both motors, heating capacity at most that of cooling), C96_variable_ratings, C96_variable_cop (given COP at 82 \u00b0F, which plays no part), C96_variable_any (any given or default COP at 82 \u00b0F and capacity ratio at 95 \u00b0F), C96_variable_bound (at most 9.5 W/W for COPs between 2.5 and 3). Not covered: staged units after the 2017 edition, two-stage units that heat more than they cool."
  },
  {
   "property": "C97",
   "status": "proved",
   "theorems": [
    "Resdx.Build.C97_two_any",
    "Resdx.Build.C97_variable_ratings",
    "Resdx.Build.C97_at_any",
    "Resdx.Build.C97_tests_any",
    "Resdx.Build.C97_at",
    "Resdx.Build.C97_tests",
    "Resdx.Build.C97_two_stage",
    "Resdx.Build.C97_intermediate",
    "Resdx.Build.C97_variable",
    "Resdx.Build.C97_two_seer",
    "Resdx.Build.C97_variable_seer",
    "Resdx.Build.C97_two_range",
    "Resdx.Build.C97_variable_cop",
    "Resdx.Build.C97_variable_any"
   ],
   "note": "C97_at, C97_tests, C97_tests_any: any rated tables, motor and sizes. C97_two_stage, C97_two_range: closed form for two-stage units whose heating capacity is at most that of cooling (usual ranges), C97_two_any: for any comparable sizes, with the shift of the full-speed tests due to the fan. C97_intermediate, C97_variable, C97_two_seer, C97_variable_seer: from the curves of the tables. C97_variable_ratings: from the ratings to the SEER2 of variable-speed units. C97_variable_cop: with a given COP at 82 \u00b0F. C97_variable_any: with any given or default COP and a capacity ratio between 0.1 and 0.398."
  },
  {
   "property": "C98",
   "status": "partial",
   "theorems": [
    "Resdx.Build.C98_iff",
    "Resdx.Build.C98_overstated",
    "Resdx.Build.C98_increasing",
    "Resdx.Build.C98_refuted"
   ],
   "note": "False of the code: C98_overstated shows that all default units with SEER2 up to 1.5 EER2 evaluate to at least 1.4 times their rating, C98_refuted gives concrete ones. C98_iff: the exact low-stage COP with which the rating is met. C98_increasing holds."
  },
  {
   "property": "C99",
   "status": "partial",
   "theorems": [
    "Resdx.Props.C99_constant",
    "Resdx.Props.C99_carrier_refuted",
    "Resdx.Props.C99_nrel_refuted",
    "Resdx.Props.C99_supplied_fan_refuted",
    "Resdx.Props.C99_resnet_supplied_fan",
    "Resdx.Props.C99_title24_made",
    "Resdx.Props.C99_title24_single",
    "Resdx.UnitBuild.C99_checked",
    "Resdx.UnitBuild.C99_nrel_fan_type",
    "Resdx.UnitBuild.C99_nrel_fan_scalar",
    "Resdx.UnitBuild.C99_nrel_type_error"
   ],
   "note": "C99_constant and C99_title24_made construct units for all arguments of the described form; C99_carrier_refuted, C99_nrel_refuted, C99_supplied_fan_refuted, C99_resnet_supplied_fan, C99_title24_single: the combinations for which the statement is false of the code. The Title-24 unit falls short of its rated net cooling capacity. Construction with the RESNET model is C93. C99_checked: what every constructed unit satisfies (lengths and order of its lists); C99_nrel_fan_type, C99_nrel_fan_scalar and C99_nrel_type_error: which arguments make construction with the NREL model raise a TypeError."
  },
  {
   "property": "C100",
   "status": "partial",
   "theorems": [
    "Resdx.Props.C100_last_binding",
    "Resdx.Props.C100_binding_exists",
    "Resdx.Props.C100_own_data_partial",
    "Resdx.Props.C100_shared_model_refuted"
   ],
   "note": "False of the code as stated (C100_shared_model_refuted). C100_last_binding with C100_binding_exists says exactly whose data a unit answers with after any history; C100_own_data_partial is the condition under which it is its own."
  },
  {
   "property": "C101",
   "status": "partial",
   "theorems": [
    "Resdx.Props.C101_unrecognised",
    "Resdx.Props.C101_accepted",
    "Resdx.Props.C101_title24_only",
    "Resdx.Props.C101_resnet_values",
    "Resdx.Props.C101_eir_ratio_unreachable"
   ],
   "note": "All parts hold except the last: min_net_total_cooling_eir_ratio_82 is read by the RESNET model but can never be given (C101_eir_ratio_unreachable)."
  },
  {
   "property": "C102",
   "status": "partial",
   "theorems": [
    "Resdx.Coil.C102_rated_point",
    "Resdx.Coil.C102_overstated",
    "Resdx.Coil.C102_resnet",
    "Resdx.Coil.C102_refuted",
    "Resdx.Build.C102_other_temperatures",
    "Resdx.Build.C102_published"
   ],
   "note": "False of the code: C102_rated_point gives the exact factor by which the sensible capacity exceeds the rated one, C102_overstated that it always does, C102_resnet that every RESNET unit reports, at the rating condition of each of its speeds, a larger gross SHR than the rated one of that speed, C102_refuted a concrete coil. C102_published: with air as published, the reported ratio lies between 0.729 and 0.732 at every rating condition where 0.7174748 is rated. C102_other_temperatures: at any other outdoor temperature a sensible capacity is still found and positive, for total capacities up to 1.5 times the rated one. Psychrolib is a parameter satisfying the laws of moist air in Spec/Coil."
  },
  {
   "property": "C103",
   "status": "partial",
   "theorems": [
    "Resdx.Coil.C103_split",
    "Resdx.Coil.C103_order",
    "Resdx.Coil.C103_dry_refuted",
    "Resdx.Coil.C103_shr_raises"
   ],
   "note": "C103_split and C103_order give the exact split and when the sensible part exceeds the total (apparatus dew point more humid than the indoor air); C103_dry_refuted is a coil for which it does, C103_shr_raises: the SHR call then raises."
  },
  {
   "property": "C104",
   "status": "partial",
   "theorems": [
    "Resdx.Coil.C104_cooling",
    "Resdx.Coil.C104_cooling_default",
    "Resdx.Coil.C104_adp",
    "Resdx.Coil.C104_adp_default_refuted",
    "Resdx.Coil.C104_heating",
    "Resdx.Coil.C104_heating_refuted"
   ],
   "note": "The cooling outlet and apparatus dew point states satisfy the balance. adp_state() without conditions always raises (C104_adp_default_refuted); the heating state carries more enthalpy than the capacity by the heat capacity of the vapour (C104_heating, C104_heating_refuted)."
  },
  {
   "property": "C105",
   "status": "partial",
   "theorems": [
    "Resdx.Props.C105_power",
    "Resdx.Props.C105_rounded",
    "Resdx.Props.C105_eere_refuted",
    "Resdx.Props.C105_rounding_refuted"
   ],
   "note": "Proved exactly for the values before rounding, for every fan whose file is written (C105_power). The file rounds to two decimals: C105_rounded bounds the effect, and C105_rounding_refuted shows that a RESNET PSC fan of any size is run with more than 101 % of its power. C105_eere_refuted: no file is ever written for a unit with an EERE fan."
  },
  {
   "property": "C106",
   "status": "partial",
   "theorems": [
    "Resdx.Props.C106_balance",
    "Resdx.Props.C106_operating",
    "Resdx.Props.C106_eere_none_refuted",
    "Resdx.Props.C106_psc",
    "Resdx.Props.C106_psc_partial",
    "Resdx.Props.C106_psc_refuted",
    "Resdx.Props.C106_ecm_partial",
    "Resdx.Props.C106_ecm_refuted"
   ],
   "note": "Balance and operating point proved for all fans (C106_balance, C106_operating). Bound proved for PSC fans with a usual design efficacy and for ECM fans below their power limit (C106_psc_partial, C106_ecm_partial). Refuted for PSC fans with a small design efficacy (C106_psc_refuted) and for power-limited ECM fans, where the efficiency is unbounded (C106_ecm_refuted). EERE fans raise without a pressure (C106_eere_none_refuted)."
  },
  {
   "property": "C107",
   "status": "partial",
   "theorems": [
    "Resdx.Build.C107_resnet_determines",
    "Resdx.Build.C107_resnet_partial",
    "Resdx.Build.C107_resnet_written",
    "Resdx.Props.C107_names",
    "Resdx.Props.C107_columns_partial",
    "Resdx.Props.C107_settings",
    "Resdx.Props.C107_kind",
    "Resdx.Props.C107_power47_refuted",
    "Resdx.Props.C107_atomic",
    "Resdx.Props.C107_staged_refuted",
    "Resdx.Props.C107_on_refuted",
    "Resdx.Props.C107_determines",
    "Resdx.Props.C107_column47_refuted"
   ],
   "note": "Columns, distinct names, settings, atomicity for variable-speed units and that the table determines HSPF are proved (C107_columns_partial, C107_names, C107_settings, C107_atomic, C107_determines, C107_kind); for every constructed variable-speed RESNET unit the table is written and shows its net tables (C107_resnet_written, C107_resnet_partial). The full statement fails: the power at 47 \u00b0F and full speed is that of another test (C107_power47_refuted, C107_column47_refuted); for single- and two-stage units the call empties the file and raises (C107_staged_refuted); it raises for units with a user-supplied cut-in temperature (C107_on_refuted)."
  },
  {
   "property": "C108",
   "status": "proved",
   "theorems": [
    "Resdx.Props.C108_cooling",
    "Resdx.Props.C108_heating",
    "Resdx.Props.C108_eer",
    "Resdx.Build.C108_resnet_cooling",
    "Resdx.Build.C108_resnet_heating"
   ],
   "note": "For every unit, number of stages and point of failure; consistency of EER, power and capacity; for constructed RESNET units the printed values are those of the net tables."
  },
  {
   "property": "C109",
   "status": "partial",
   "theorems": [
    "Resdx.Build.C109_resnet_made",
    "Resdx.Build.C109_resnet_published",
    "Resdx.Build.C109_single_ratings",
    "Resdx.Build.C109_two_ratings",
    "Resdx.Build.C109_variable_ratings",
    "Resdx.Props.C109_curves",
    "Resdx.Props.C109_groups",
    "Resdx.Props.C109_distinct",
    "Resdx.Props.C109_named",
    "Resdx.Props.C109_names_iff",
    "Resdx.Props.C109_refuted",
    "Resdx.Props.C109_returns_iff",
    "Resdx.Props.C109_axis",
    "Resdx.Build.C109_resnet"
   ],
   "note": "Proved of every plot that is made: C109_curves, C109_groups, C109_distinct; C109_resnet: RESNET units have a name for every speed. C109_names_iff says which units have names for all their speeds with the roles the constructor derives; C109_refuted: no plot is ever made for units with four or more speeds and no boost speed. C109_returns_iff: a plot is made exactly when every speed has a name and, at every temperature of the axis, the conditions and the quantities return. C109_resnet_made: the plot of a constructed RESNET unit is made if its map is positive at the temperatures of the axis and the coil calculation returns; C109_resnet_published derives the latter from published properties of moist air if no cooling capacity exceeds 1.3 times the rated one. C109_single_ratings, C109_two_ratings and C109_variable_ratings: from the ratings to the plot, for all units within the ranges of C90 with air as published. The axis is increasing exactly under the condition of C109_axis. plotly and dimes are outside the model: a plot is the list of its curves."
  },
  {
   "property": "C110",
   "status": "partial",
   "theorems": [
    "Resdx.Props.C110_made",
    "Resdx.Props.C110_published",
    "Resdx.Props.C110_gross",
    "Resdx.Props.C110_net_list",
    "Resdx.Props.C110_net_number",
    "Resdx.Props.C110_net_many_refuted",
    "Resdx.Props.C110_gross_many_refuted",
    "Resdx.Props.C110_gross_overrides",
    "Resdx.Props.C110_construct",
    "Resdx.Props.C110_number_refuted",
    "Resdx.Props.C110_low_speed_refuted",
    "Resdx.Props.C110_default_refuted",
    "Resdx.Props.C110_many_speeds_refuted",
    "Resdx.Props.C110_single_made",
    "Resdx.Props.C110_single_made_fan"
   ],
   "note": "C110_construct, C110_gross, C110_net_list, C110_net_number, C110_gross_overrides, C110_single_made, C110_single_made_fan: of every unit that is made, and every single-speed unit is made; C110_made: every unit with any number of speeds and one COP given for each speed is made, with these ratings; C110_published: likewise without assuming that the coil calculation returns, for published air properties. The full statement fails: no unit is made from a cooling capacity given as a number with a list of heating capacities (C110_number_refuted), for two stages with one cooling capacity (C110_low_speed_refuted), or for three or more speeds with a gross COP given as a number, which the default is (C110_many_speeds_refuted, C110_gross_many_refuted); a net COP given as a number reaches only the first of three or more speeds (C110_net_many_refuted); the default gross COP replaces a given net COP (C110_default_refuted)."
  },
  {
   "property": "C111",
   "status": "proved",
   "theorems": [
    "Resdx.Props.C111_fan_power",
    "Resdx.Props.C111_cooling",
    "Resdx.Props.C111_heating",
    "Resdx.Props.C111_rated_cooling",
    "Resdx.Props.C111_rated_heating",
    "Resdx.Props.C111_own_fan"
   ],
   "note": "C111_cooling and C111_heating give the performance at every outdoor temperature from the fan power at the condition; C111_rated_* are the tests, with explicit rounding bounds, if the fan draws its rated power there. C111_own_fan: it does for PSC motors, units without ducts, speeds below full load and the mode whose first airflow is the design airflow; C111_fan_power: the power in every condition, for every motor and mode, in closed form. C111_rated_* need the rated power because they are false of ducted BPM units in the other mode (C116_net_cop_refuted)."
  },
  {
   "property": "C112",
   "status": "partial",
   "theorems": [
    "Resdx.Props.C112_given_fan",
    "Resdx.Props.C112_ratings",
    "Resdx.Props.C112_single_unit",
    "Resdx.Props.C112_net_cop"
   ],
   "note": "C112_given_fan: what a supplied fan contributes; C112_ratings: EER of every unit and SEER of every single-stage unit in closed form; C112_single_unit and C112_net_cop: existence and ratings for every single-speed unit from its arguments (capacities of the modes within a factor of the square root of 3 for the default fan, net COP below 5.88). A net COP is the EER except for ducted units with BPM motors that heat more than they cool: C116_net_cop, C116_net_cop_short and C116_net_cop_refuted."
  },
  {
   "property": "C113",
   "status": "proved",
   "theorems": [
    "Resdx.Props.C113_cooling",
    "Resdx.Props.C113_heating",
    "Resdx.Props.C113_rated"
   ],
   "note": "C113_cooling and C113_heating: every group of fields and every table cell of the file, for all speeds, in terms of the net tables, the fan power of the speed and the NREL curves; C113_rated: net capacities and COPs at the full speed. Tables supplied by the caller are assumed to be complete (RatedTables)."
  },
  {
   "property": "C114",
   "status": "proved",
   "theorems": [
    "Resdx.Props.C114_written",
    "Resdx.Build.C114_single_ratings",
    "Resdx.Build.C114_two_ratings",
    "Resdx.Build.C114_variable_ratings",
    "Resdx.Props.C114_published"
   ],
   "note": "C114_written, for units without refrigerant charge deviation, cut-in temperature of their own (which makes the writer raise, see C86) and airflow per capacity; psychrolib is assumed to evaluate the air states of the file, and the sensible heat ratio of each speed to be reported (root search). Two sample units meet the hypotheses (one_file, var_file). C114_published does not assume the sensible heat ratios: they follow from the published properties of moist air. C114_single_ratings, C114_two_ratings and C114_variable_ratings: from the ratings to the file, without assumptions about the map, for all units in ranges that leave room for the fan power at 55 \u00b0F (SEER2 up to 14.6 times one less half of the cycling coefficient; EER2 up to 20 and low-stage COP up to 7.3; EER2 up to 13.8 and lowest-speed COP up to 5.3)."
  },
  {
   "property": "C115",
   "status": "proved",
   "theorems": [
    "Resdx.Props.C115_history",
    "Resdx.Props.C115_value",
    "Resdx.Props.C115_stale"
   ],
   "note": "C115_history (any history), C115_value (which COP), C115_stale (a value stored for another unit would be kept: assigning new attributes to a unit leaves the stored COP). The COP is that of the compressor speed with index 0; for variable-speed units this is the boost speed, although the comment in the code says full speed."
  },
  {
   "property": "C116",
   "status": "partial",
   "theorems": [
    "Resdx.Props.C116_published",
    "Resdx.Props.C116_published_eer",
    "Resdx.Props.C116_heat_tests",
    "Resdx.Props.C116_low_tests",
    "Resdx.Props.C116_cool_tests",
    "Resdx.Props.C116_intermediate_test",
    "Resdx.Props.C116_single_hspf",
    "Resdx.Props.C116_single_hspf_2017",
    "Resdx.Props.C116_single",
    "Resdx.Props.C116_net_cop",
    "Resdx.Props.C116_net_cop_short",
    "Resdx.Props.C116_net_cop_refuted",
    "Resdx.Props.C116_two_seer",
    "Resdx.Props.C116_variable_seer",
    "Resdx.Props.C116_two_hspf",
    "Resdx.Props.C116_cold_tests",
    "Resdx.Props.C116_variable_hspf",
    "Resdx.Props.C116_two"
   ],
   "note": "C116_heat_tests, C116_low_tests, C116_cool_tests, C116_intermediate_test: every test of units with any number of speeds; C116_single_hspf and C116_single_hspf_2017: the season of single-stage units; C116_single: existence, EER, SEER and HSPF of every single-speed unit from its arguments (capacities of the modes within a factor of the square root of 3). C116_two_seer, C116_two_hspf, C116_variable_seer, C116_variable_hspf: the season of two-stage and variable-speed units from the ratings of their speeds; C116_two: existence, EER, SEER and HSPF2 of every two-stage unit from its arguments (low stage of at most 88 % of the cooling capacity, heating COP of at least 1.5). C116_published and C116_published_eer: the existence and the EER without assuming that the coil calculation returns. The last clause is false of the code for ducted units with BPM motors that heat more than they cool (C116_net_cop_refuted); C116_net_cop proves it for the others and C116_net_cop_short bounds the shortfall from below."
  },
  {
   "property": "C117",
   "status": "proved",
   "theorems": [
    "Resdx.Props.C117_polynomial",
    "Resdx.Props.C117_exponential"
   ],
   "note": "The number format :.4g is a parameter with the contract of the specification `FourDigits` (plain text, read back within 0.05 %); formulas are read by the specification's own reader. Variable names contain no space, operator or bracket."
  },
  {
   "property": "C118",
   "status": "partial",
   "theorems": [
    "Resdx.Props.C118_given",
    "Resdx.Props.C118_described",
    "Resdx.Props.C118_frozen",
    "Resdx.Props.C118_unit",
    "Resdx.Props.C118_refuted"
   ],
   "note": "C118_given, C118_described, C118_frozen, C118_unit. The full statement fails: the text is stored at the first representation and kept, so it can describe a speed removed since (C118_refuted). Number formats and the time are parameters."
  },
  {
   "property": "C119",
   "status": "partial",
   "theorems": [
    "Resdx.Build.C119_single_ratings",
    "Resdx.Build.C119_two_ratings",
    "Resdx.Build.C119_variable_ratings",
    "Resdx.Props.C119_map",
    "Resdx.Props.C119_never",
    "Resdx.Props.C119_generated",
    "Resdx.Props.C119_fan",
    "Resdx.Props.C119_with_fan",
    "Resdx.Props.C119_refuted",
    "Resdx.Build.C119_variable_never",
    "Resdx.Build.C119_variable_cop_never"
   ],
   "note": "False of the code (C119_never, C119_refuted): set_mass_airflow inverts the airflow ratio (C91), so when the last rated cooling capacity is below 0.333 of the first one the gross capacity at the smallest flow of the grid is negative and generation raises. C119_map gives the values of every grid point of a returned map; C119_generated and C119_with_fan show that generation returns when no rated capacity exceeds 2.99 times the last one, given that psychrolib and the coil calculation return at the points of the map; C119_fan that the representation of a RESNET fan is always generated. C119_variable_never and C119_variable_cop_never: from the ratings, variable-speed units whose SEER2 is at least 1.49 times (or COP at 82 \u00b0F at least 1.5 times) the EER2 can be made but never represented. C119_single_ratings, C119_two_ratings and C119_variable_ratings: from the ratings to the representation, within the ranges of C114 and, for variable speed, a lowest speed of at least 0.3345 of the highest; the rated sensible heat ratio follows from published air, the coil calculation at the points of the map is assumed to return."
  },
  {
   "property": "C120",
   "status": "partial",
   "theorems": [
    "Resdx.Props.C120_proportional",
    "Resdx.Props.C120_resnet",
    "Resdx.Props.C120_constant",
    "Resdx.Props.C120_psc",
    "Resdx.Props.C120_ecm_partial",
    "Resdx.Props.C120_unit",
    "Resdx.Props.C120_staged",
    "Resdx.Props.C120_variable",
    "Resdx.Props.C120_variable_ratings",
    "Resdx.Props.C120_refuted",
    "Resdx.Props.C120_psc_constructed"
   ],
   "note": "False of the code (C120_refuted): an ECM fan with a design pressure of zero turns at 1656 rpm at the largest pressure of its representation (1.2 in. of water). C120_resnet, C120_constant: RESNET and constant-efficacy fans, when no setting exceeds 15/11 of the first one. C120_psc: PSC fans after any history, when no free airflow exceeds 1500/1040 of the first one; C120_psc_constructed: every PSC fan made with its largest airflow first has a representation, within the range. C120_ecm_partial: ECM fans designed for pressures between 0.3371 and 2.373 in. of water with the largest airflow first. C120_unit, C120_staged, C120_variable, C120_variable_ratings: the fans of RESNET units, whichever motor; for units made from ratings no condition is left on the fan."
  },
  {
   "property": "C121",
   "status": "partial",
   "theorems": [
    "Resdx.DX.C121_eer",
    "Resdx.DX.C121_seer",
    "Resdx.DX.C121_single_stage",
    "Resdx.DX.C121_two_stage_partial",
    "Resdx.DX.C121_variable_speed_partial",
    "Resdx.DX.C121_hspf_single",
    "Resdx.DX.C121_hspf_two_stage",
    "Resdx.DX.C121_hspf_variable_speed",
    "Resdx.DX.C121_hspf_refuted",
    "Resdx.DX.C121_two_stage_refuted"
   ],
   "note": "False of the code in general. C121_hspf_refuted: a unit slightly worse than resistance heat is not run; drawing one per cent less power at every condition it is run, and its cycling losses lower the rating. C121_two_stage_refuted: less power in the 95 \u00b0F test only turns the line through the full-speed tests and raises the power assumed in the mild bins. Proved: C121_eer, C121_seer (exact proportionality, every staging type, also when a rating raises); C121_single_stage, C121_two_stage_partial, C121_variable_speed_partial (any change of the powers, when the powers in every bin are lower); C121_hspf_single, C121_hspf_two_stage, C121_hspf_variable_speed (every speed at least as efficient as resistance heat in the bins above the cut-out temperature)."
  },
  {
   "property": "C122",
   "status": "partial",
   "theorems": [
    "Resdx.DX.C122_degradation",
    "Resdx.DX.C122_cut_temperatures_partial",
    "Resdx.DX.C122_defrost",
    "Resdx.DX.C122_off_full_refuted",
    "Resdx.DX.C122_inefficient_refuted"
   ],
   "note": "False of the code in general. C122_off_full_refuted: for a two-stage unit that cycles between off and full speed, a cut-out at 40 \u00b0F instead of -30 \u00b0F raises the rating more than sevenfold, because below the cut-out temperature the energy of the compressor is dropped but no resistance heat is added. C122_inefficient_refuted: a compressor hardly better than resistance heat is rated lower when it runs, because of cycling losses. Proved: C122_degradation (every staging type and cycling method), C122_cut_temperatures_partial (units worth running at all temperatures; two-stage units that cycle between low and full speed), C122_defrost."
  },
  {
   "property": "C123",
   "status": "partial",
   "theorems": [
    "Resdx.DX.C123_single",
    "Resdx.DX.C123_two_stage_partial",
    "Resdx.DX.C123_variable_speed_partial",
    "Resdx.DX.C123_off_full_refuted",
    "Resdx.DX.C123_variable_speed_refuted"
   ],
   "note": "False of the code in general. C123_off_full_refuted: a two-stage unit that cycles between off and full speed, with COPs of at most 6.2 and a cut-out at 40 \u00b0F, is rated above 20. C123_variable_speed_refuted: a variable-speed unit with a COP of 3 at all speeds and temperatures is rated 3.4, because heat beyond the load is counted as negative resistance heat. Proved: C123_single (no further hypotheses), C123_two_stage_partial (units that cycle between low and full speed, or that never stop for the cold), C123_variable_speed_partial (units whose capacity between the 5 and 17 \u00b0F tests does not exceed the load when the load is not met)."
  },
  {
   "property": "C124",
   "status": "partial",
   "theorems": [
    "Resdx.DX.C124_single_partial",
    "Resdx.DX.C124_two_stage_partial",
    "Resdx.DX.C124_scaled_single",
    "Resdx.DX.C124_inefficient_refuted",
    "Resdx.DX.C124_two_stage_refuted",
    "Resdx.DX.C124_off_full_refuted",
    "Resdx.DX.C124_variable_speed_refuted",
    "Resdx.DX.C124_2017_refuted"
   ],
   "note": "False of the code in general. C124_inefficient_refuted: a unit slightly worse than resistance heat that delivers one per cent more is run, and is rated lower. C124_two_stage_refuted: with a cut-out at 42 \u00b0F, one per cent more heat changes the bin whose run fraction is used in the colder bins, and the rating falls by a third. C124_variable_speed_refuted: surplus heat credited as negative resistance heat disappears when the unit meets the load. C124_off_full_refuted: a unit that cycles between off and full speed draws a third more where it just meets the load than where it just fails to. C124_2017_refuted: the load of the 2017 edition jumps with the nearest standard design heating requirement. Proved: C124_single_partial (units at least as efficient as resistance heat where they run), C124_two_stage_partial (units that cycle between low and full speed and never stop for the cold), C124_scaled_single (heat multiplied by a factor, 2023 edition). The missing cases are the refuted ones."
  },
  {
   "property": "C125",
   "status": "partial",
   "theorems": [
    "Resdx.DX.C125_single",
    "Resdx.DX.C125_two_stage_partial",
    "Resdx.DX.C125_variable_speed_partial",
    "Resdx.DX.C125_proportional",
    "Resdx.DX.C125_off_full_refuted",
    "Resdx.DX.C125_variable_speed_refuted",
    "Resdx.DX.C125_hot_refuted"
   ],
   "note": "False of the code in general. C125_hot_refuted: the load is proportional to the capacity in the 95 \u00b0F test, so a two-stage or variable-speed unit that delivers more in that test alone is rated lower. C125_off_full_refuted and C125_variable_speed_refuted: a low speed with a worse COP that delivers more is used in more bins. Proved: C125_single; C125_two_stage_partial (same capacity at 95 \u00b0F; low speed draws no more than full speed and, when cycling between off and full speed, has the better COP); C125_variable_speed_partial (same capacity at 95 \u00b0F, COPs that fall with the speed); C125_proportional (exact factor a/b, every staging type). The missing cases are the refuted ones."
  },
  {
   "property": "C126",
   "status": "partial",
   "theorems": [
    "Resdx.DX.C126_heating",
    "Resdx.DX.C126_heating_tests",
    "Resdx.DX.C126_cooling_cycling",
    "Resdx.DX.C126_cooling_variable",
    "Resdx.DX.C126_heating_variable",
    "Resdx.DX.C126_cooling_refuted",
    "Resdx.DX.C126_frost_refuted"
   ],
   "note": "False of the code in general. C126_cooling_refuted: single-stage SEER comes from one test, so a unit the same at both stages has another SEER as a two-stage unit. C126_frost_refuted: equal tests do not suffice for HSPF, because with frost the low speed follows the steady-state line from 40 \u00b0F and the full speed from 45 \u00b0F. C126_cooling_variable, C126_heating_variable: a variable-speed unit whose low speed delivers what full speed delivers at 87 \u00b0F (cooling) or 35 \u00b0F (heating) has no rating, by a division by zero. Proved: C126_heating (equal performance at the temperatures of the bins, nonzero capacity), C126_heating_tests (equal tests along lines without frost), both as equality of the whole outcome including exceptions; C126_cooling_cycling (SEER does not depend on the cycling method)."
  },
  {
   "property": "C127",
   "status": "partial",
   "theorems": [
    "Resdx.Props.C127_curves",
    "Resdx.Props.C127_law",
    "Resdx.Props.C127_higher_limit",
    "Resdx.Props.C127_jump",
    "Resdx.Props.C127_speed",
    "Resdx.Props.C127_continuity_refuted"
   ],
   "note": "C127_curves, C127_law, C127_higher_limit, C127_speed: all parts but continuity at zero pressure, for fans whose design efficacy exceeds the slope times the design pressure and histories that keep the first speed. Continuity is false of the code (C127_continuity_refuted; C127_jump for every fan and setting whose free power exceeds the limit): at zero pressure the airflow method returns the full airflow without regard to the limit, so the airflow drops at once at any positive pressure."
  },
  {
   "property": "C128",
   "status": "partial",
   "theorems": [
    "Resdx.Idf.C128_cooling",
    "Resdx.Idf.C128_heating",
    "Resdx.Idf.C128_defrost_curve",
    "Resdx.DX.C128_same_losses",
    "Resdx.Idf.C128_rounded",
    "Resdx.Idf.C128_range_refuted"
   ],
   "note": "C128_cooling, C128_heating, C128_defrost_curve: every file that is written; C128_same_losses: the line is the part-load fraction of the ratings; C128_rounded: rounding its coefficients one by one keeps it exactly one at full load and within 0.005 elsewhere (Python's rounding of exact numbers). False of the code: the range of the defrost curve is empty for units with a cut-out temperature above the highest defrost temperature (C128_range_refuted; the exact condition is in C128_defrost_curve)."
  },
  {
   "property": "C129",
   "status": "partial",
   "theorems": [
    "Resdx.C129_cooling_cop",
    "Resdx.C129_heating_cop",
    "Resdx.C129_undercharged",
    "Resdx.C129_ratings",
    "Resdx.C129_overcharged",
    "Resdx.C129_refuted"
   ],
   "note": "C129_undercharged, C129_ratings: cooling with too little charge, EER of every unit and SEER of single-stage units, at rated airflow, rooms of at least 22 \u00b0C and up to 50 \u00b0C outdoors. C129_cooling_cop, C129_heating_cop: exactly when a fault lowers the gross COP, for every deviation and temperature. The full statement is false of the code: a little too much charge raises capacity and efficiency of every unit (C129_overcharged; C129_refuted for a concrete unit), and so does a small deviation of either sign in heating below 39 \u00b0F (C129_heating_cop, C129_refuted)."
  },
  {
   "property": "C130",
   "status": "partial",
   "theorems": [
    "Resdx.C130_cooling_law",
    "Resdx.C130_heating_law",
    "Resdx.C130_cooling",
    "Resdx.C130_heating",
    "Resdx.C130_heating_beyond",
    "Resdx.C130_refuted"
   ],
   "note": "C130_cooling_law, C130_heating_law: the exact law for every unit, charge and pair of airflows (the charge rescales the airflow by the inverse of its capacity factor at the rating condition). C130_cooling: the comparison up to 1.5 times the rated airflow so rescaled; C130_heating: up to 1.28 times. Beyond that it is false of the code: C130_heating_beyond for every unit, C130_refuted for a concrete one."
  },
  {
   "property": "C131",
   "status": "proved",
   "theorems": [
    "Resdx.Build.C131_gross_cooling",
    "Resdx.Build.C131_gross_heating",
    "Resdx.Build.C131_cooling",
    "Resdx.Build.C131_heating",
    "Resdx.Build.C131_cooling_intermediate",
    "Resdx.Build.C131_heating_intermediate",
    "Resdx.Build.C131_same",
    "Resdx.Build.C131_undercharged",
    "Resdx.Build.C131_integrated",
    "Resdx.Build.C131_no_defrost",
    "Resdx.Build.C131_returns"
   ],
   "note": "C131_cooling and C131_heating cover the whole table speeds, C131_cooling_intermediate and C131_heating_intermediate the intermediate speed of a variable-speed unit (given a positive rated gross capacity there, which the units of C131_returns have). C131_returns shows for every staging that a fault does not hinder the construction. The integrated power without the fault factor is a defect of the code (resdx/models/unified_resnet.py:129-138 uses the model's own power where the capacity uses the unit's)."
  },
  {
   "property": "C132",
   "status": "proved",
   "theorems": [
    "Resdx.Build.C132_published",
    "Resdx.Build.C132_shr",
    "Resdx.Build.C132_eer",
    "Resdx.Build.C132_seer",
    "Resdx.Build.C132_single_ratings",
    "Resdx.Build.C132_two_ratings",
    "Resdx.Build.C132_variable_ratings",
    "Resdx.Build.C132_heating_cop",
    "Resdx.Build.C132_heating_rated"
   ],
   "note": "C132_published holds for every unit made with default airflows and nominal charge; C132_single_ratings, C132_two_ratings and C132_variable_ratings start from the ratings. C132_eer: if the unit with the nominal charge reports an EER2, so does the faulty one, and with too little charge it is not larger; C132_seer says so of the SEER2 of single-stage units. The root search of scipy is assumed to find the root of convex functions (FindsConvexRoots). C132_heating_cop and C132_heating_rated are the counterparts in heating: at 47 \u00b0F too little charge never raises a net COP of at least 1; from 17 to 47 \u00b0F it does not if the deviation d satisfies 2.36 d \u2264 0.0088 (t \u2212 32) \u2212 0.0955, with t in \u00b0F (C129_refuted shows a colder counterexample)."
  },
  {
   "property": "C133",
   "status": "partial",
   "theorems": [
    "Resdx.C133_ratios",
    "Resdx.C133_cop",
    "Resdx.C133_resnet",
    "Resdx.C133_nominal",
    "Resdx.C133_net",
    "Resdx.C133_net_power",
    "Resdx.C133_net_cop",
    "Resdx.C133_refuted"
   ],
   "note": "C133_ratios and C133_cop hold for every model; C133_resnet, C133_nominal, C133_net, C133_net_power and C133_net_cop for the RESNET model, the two last with the nominal charge. False of the power ratio of units with a charge fault: the integrated power misses the charge factor of the power, so C133_resnet gives the ratio times that factor, and C133_refuted is a unit that draws more than its steady-state power where it does not defrost."
  },
  {
   "property": "C134",
   "status": "proved",
   "theorems": [
    "Resdx.Idf.C134_system",
    "Resdx.Idf.C134_packaged",
    "Resdx.Idf.C134_unitary"
   ],
   "note": "C134_system: both system types; C134_packaged and C134_unitary: what is particular to each. The schedule type limits named by the schedules are not part of the file (it is a snippet)."
  },
  {
   "property": "C135",
   "status": "proved",
   "theorems": [
    "Resdx.UnitBuild.C135_efficacy",
    "Resdx.UnitBuild.C135_characteristics",
    "Resdx.UnitBuild.C135_capacities",
    "Resdx.UnitBuild.C135_ordered"
   ],
   "note": "These are the attributes the methods of the model set; the unit itself cannot be completed with this model (C99_nrel_refuted). C135_ordered assumes a ton of refrigeration of at least 1000 W. With more than two speeds and a single capacity the attribute is not set, as modelled in nrelCapacities."
  },
  {
   "property": "C136",
   "status": "partial",
   "theorems": [
    "Resdx.Title24.C136_outdoor_wet",
    "Resdx.Title24.C136_outdoor_dry",
    "Resdx.Title24.C136_indoor",
    "Resdx.Title24.C136_refuted"
   ],
   "note": "C136_outdoor_wet: as long as the coil stays wet (indoor wet bulb of at least 27 \u00b0F); C136_outdoor_dry: from the temperature at which it is dry; C136_indoor: the same for the indoor wet bulb (27 to 99 \u00b0F, up to 125 \u00b0F outdoors), where a dry coil does not depend on it. False of the code where the coil turns from wet to dry: the two regressions do not meet, and a unit gains more than 1 % of capacity between 105.3 and 105.5 \u00b0F (C136_refuted)."
  },
  {
   "property": "C137",
   "status": "proved",
   "theorems": [
    "Resdx.Title24.C137_ratio",
    "Resdx.Title24.C137_sensible"
   ],
   "note": "C137_ratio: joint monotonicity of the ratio; C137_sensible: the exact gain of sensible capacity with the indoor dry bulb in a wet coil."
  },
  {
   "property": "C138",
   "status": "proved",
   "theorems": [
    "Resdx.Title24.C138_wet",
    "Resdx.Title24.C138_dry",
    "Resdx.Title24.C138_sensible"
   ],
   "note": "C138_wet and C138_dry: the total capacity within each regression; C138_sensible: the sensible capacity wherever the total capacity does not fall. Where the airflow turns the coil from wet to dry the total capacity jumps (see C136_refuted), which the statement leaves out."
  }
 ]
}
