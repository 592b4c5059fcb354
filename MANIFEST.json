{
 "claims": [
  {
   "property": "C01",
   "status": "proved",
   "theorems": [
    "Aeolis.Props.C01_grammar",
    "Aeolis.Props.C01_scientific_notation",
    "Aeolis.Props.C01_blanks",
    "Aeolis.Props.C01_blanks_and_comments",
    "Aeolis.Props.C01_lists_always_load_files"
   ],
   "note": ""
  },
  {
   "property": "C02",
   "status": "proved",
   "theorems": [
    "Aeolis.Props.C02_integer",
    "Aeolis.Props.C02_boolean",
    "Aeolis.Props.C02_no_value",
    "Aeolis.Props.C02_integer_list",
    "Aeolis.Props.C02_boolean_list",
    "Aeolis.Props.C02_text",
    "Aeolis.Props.C02_boolean_array_becomes_text",
    "Aeolis.Props.C02_single_item_becomes_scalar",
    "Aeolis.Props.C02_no_value_in_list_becomes_text"
   ],
   "note": ""
  },
  {
   "property": "C03",
   "status": "proved",
   "theorems": [
    "Aeolis.Props.C03_last_assignment",
    "Aeolis.Props.C03_other_lines",
    "Aeolis.Props.C03_comments",
    "Aeolis.Props.C03_missing_file",
    "Aeolis.Props.C03_invalid_value"
   ],
   "note": ""
  },
  {
   "property": "C04",
   "status": "proved",
   "theorems": [
    "Aeolis.Props.C04_comment",
    "Aeolis.Props.C04_second_equal_sign"
   ],
   "note": ""
  },
  {
   "property": "C05",
   "status": "proved",
   "theorems": [
    "Aeolis.Props.C05_missing",
    "Aeolis.Props.C05_output_file",
    "Aeolis.Props.C05_height",
    "Aeolis.Props.C05_save_times",
    "Aeolis.Props.C05_fences",
    "Aeolis.Props.C05_grains",
    "Aeolis.Props.C05_output_name",
    "Aeolis.Props.C05_output_name_without_extension"
   ],
   "note": ""
  },
  {
   "property": "C06",
   "status": "proved",
   "theorems": [
    "Aeolis.Props.C06_arrays",
    "Aeolis.Props.C06_check",
    "Aeolis.Props.C06_missing",
    "Aeolis.Props.C06_rows_of_the_grid_are_not_used"
   ],
   "note": ""
  },
  {
   "property": "C07",
   "status": "proved",
   "theorems": [
    "Aeolis.Props.C07_no_file",
    "Aeolis.Props.C07_backup",
    "Aeolis.Props.C07_all_numbers_used",
    "Aeolis.Props.C07_history"
   ],
   "note": ""
  },
  {
   "property": "C08",
   "status": "proved",
   "theorems": [
    "Aeolis.Props.C08_listed_times",
    "Aeolis.Props.C08_between_listed_times",
    "Aeolis.Props.C08_columns"
   ],
   "note": ""
  },
  {
   "property": "C09",
   "status": "proved",
   "theorems": [
    "Aeolis.Props.C09_periodic",
    "Aeolis.Props.C09_gap_holds_last",
    "Aeolis.Props.C09_documented_rule_is_off_by_one"
   ],
   "note": ""
  },
  {
   "property": "C10",
   "status": "proved",
   "theorems": [
    "Aeolis.Props.C10_within_data_range",
    "Aeolis.Props.C10_empty_series_fails"
   ],
   "note": ""
  },
  {
   "property": "C11",
   "status": "proved",
   "theorems": [
    "Aeolis.Props.C11_normalize_sums_to_one",
    "Aeolis.Props.C11_normalize_in_unit_interval",
    "Aeolis.Props.C11_normalize_keeps_ratios",
    "Aeolis.Props.C11_normalize_idempotent",
    "Aeolis.Props.C11_normalize_reference"
   ],
   "note": ""
  },
  {
   "property": "C12",
   "status": "proved",
   "theorems": [
    "Aeolis.Props.C12_exact",
    "Aeolis.Props.C12_zero_replacement"
   ],
   "note": ""
  },
  {
   "property": "C13",
   "status": "proved",
   "theorems": [
    "Aeolis.Props.C13_mask_formula",
    "Aeolis.Props.C13_mask_special",
    "Aeolis.Props.C13_masks_compose"
   ],
   "note": ""
  },
  {
   "property": "C14",
   "status": "proved",
   "theorems": [
    "Aeolis.Props.C14_rotate_inverse",
    "Aeolis.Props.C14_rotate_isometry",
    "Aeolis.Props.C14_rotate_add",
    "Aeolis.Props.C14_rotate_fixed",
    "Aeolis.Props.C14_rotate_mean"
   ],
   "note": ""
  },
  {
   "property": "C15",
   "status": "proved",
   "theorems": [
    "Aeolis.Props.C15_mean_within_sizes",
    "Aeolis.Props.C15_single_fraction",
    "Aeolis.Props.C15_scale_invariant",
    "Aeolis.Props.C15_no_mass"
   ],
   "note": ""
  },
  {
   "property": "C16",
   "status": "proved",
   "theorems": [
    "Aeolis.Props.C16_assignments_respect_locks",
    "Aeolis.Props.C16_immutable_keeps_value",
    "Aeolis.Props.C16_in_place_ignores_lock",
    "Aeolis.Props.C16_update_ignores_lock",
    "Aeolis.Props.C16_update_creates_locked"
   ],
   "note": ""
  },
  {
   "property": "C17",
   "status": "proved",
   "theorems": [
    "Aeolis.Props.C17_set_get_grid",
    "Aeolis.Props.C17_set_get_concentration",
    "Aeolis.Props.C17_set_get_param",
    "Aeolis.Props.C17_set_frame",
    "Aeolis.Props.C17_unknown_name",
    "Aeolis.Props.C17_grid_shadows_param",
    "Aeolis.Props.C17_immutable_not_set",
    "Aeolis.Props.C17_set_shape"
   ],
   "note": ""
  },
  {
   "property": "C18",
   "status": "proved",
   "theorems": [
    "Aeolis.Props.C18_keys_distinct",
    "Aeolis.Props.C18_enumeration",
    "Aeolis.Props.C18_every_name_once",
    "Aeolis.Props.C18_out_of_range",
    "Aeolis.Props.C18_set_by_index",
    "Aeolis.Props.C18_negative_index"
   ],
   "note": ""
  },
  {
   "property": "C19",
   "status": "proved",
   "theorems": [
    "Aeolis.Props.C19_unique_dimensions",
    "Aeolis.Props.C19_initial_shapes",
    "Aeolis.Props.C19_only_documented",
    "Aeolis.Props.C19_documented"
   ],
   "note": ""
  },
  {
   "property": "C20",
   "status": "partial",
   "theorems": [
    "Aeolis.Props.C20_step_at_most_requested",
    "Aeolis.Props.C20_step_at_most_cfl",
    "Aeolis.Props.C20_bed_rise_limited",
    "Aeolis.Props.C20_step_positive_partial",
    "Aeolis.Props.C20_negative_step",
    "Aeolis.Props.C20_rise_of_previous_step"
   ],
   "note": "Positivity of the step needs a recent bed level change that is not negative everywhere; otherwise the step is negative (proved)."
  },
  {
   "property": "C21",
   "status": "proved",
   "theorems": [
    "Aeolis.Props.C21_cfl_in_every_cell"
   ],
   "note": ""
  },
  {
   "property": "C22",
   "status": "proved",
   "theorems": [
    "Aeolis.Props.C22_run_ends",
    "Aeolis.Props.C22_run_length",
    "Aeolis.Props.C22_calm_explicit_run_never_ends"
   ],
   "note": ""
  },
  {
   "property": "C23",
   "status": "proved",
   "theorems": [
    "Aeolis.Props.C23_fast_forward"
   ],
   "note": ""
  },
  {
   "property": "C24",
   "status": "proved",
   "theorems": [
    "Aeolis.Props.C24_orientation",
    "Aeolis.Props.C24_executed_steps_keep_grid",
    "Aeolis.Props.C24_skipped_step_rotates"
   ],
   "note": ""
  },
  {
   "property": "C25",
   "status": "proved",
   "theorems": [
    "Aeolis.Props.C25_step_order",
    "Aeolis.Props.C25_counter"
   ],
   "note": ""
  },
  {
   "property": "C26",
   "status": "proved",
   "theorems": [
    "Aeolis.Props.C26_sum_and_average",
    "Aeolis.Props.C26_variance",
    "Aeolis.Props.C26_min_and_max",
    "Aeolis.Props.C26_run_window",
    "Aeolis.Props.C26_reading_discards"
   ],
   "note": ""
  },
  {
   "property": "C27",
   "status": "partial",
   "theorems": [
    "Aeolis.Props.C27_steps_succeed_partial",
    "Aeolis.Props.C27_first_step_fails"
   ],
   "note": "The clause on failures holds once a plain variable has been read or written; with statistics only the first step fails (proved)."
  },
  {
   "property": "C28",
   "status": "proved",
   "theorems": [
    "Aeolis.Props.C28_records_apart",
    "Aeolis.Props.C28_recorded_iff",
    "Aeolis.Props.C28_records_increase"
   ],
   "note": ""
  },
  {
   "property": "C29",
   "status": "proved",
   "theorems": [
    "Aeolis.Props.C29_append_only",
    "Aeolis.Props.C29_earlier_records_kept",
    "Aeolis.Props.C29_unknown_variable"
   ],
   "note": ""
  },
  {
   "property": "C30",
   "status": "proved",
   "theorems": [
    "Aeolis.Props.C30_output_table",
    "Aeolis.Props.C30_rejected_iff"
   ],
   "note": ""
  },
  {
   "property": "C31",
   "status": "proved",
   "theorems": [
    "Aeolis.Props.C31_plain_name",
    "Aeolis.Props.C31_statistic",
    "Aeolis.Props.C31_underscore_name_truncated",
    "Aeolis.Props.C31_two_underscores_error"
   ],
   "note": ""
  },
  {
   "property": "C32",
   "status": "proved",
   "theorems": [
    "Aeolis.Props.C32_initial_composition_single",
    "Aeolis.Props.C32_initial_composition_layered",
    "Aeolis.Props.C32_composition_file",
    "Aeolis.Props.C32_integer_distribution_ignores_file"
   ],
   "note": ""
  },
  {
   "property": "C33",
   "status": "proved",
   "theorems": [
    "Aeolis.Props.C33_layer_mass_constant",
    "Aeolis.Props.C33_layer_mass_constant_large_deposit",
    "Aeolis.Props.C33_exact_deposit_doubles_top_layer",
    "Aeolis.Props.C33_layer_mass_tolerance",
    "Aeolis.Props.C33_large_deposit_layers",
    "Aeolis.Props.C33_large_deposit_composition"
   ],
   "note": ""
  },
  {
   "property": "C34",
   "status": "proved",
   "theorems": [
    "Aeolis.Props.C34_fraction_balance_erosion",
    "Aeolis.Props.C34_fraction_balance_deposition",
    "Aeolis.Props.C34_fraction_balance_exchange"
   ],
   "note": ""
  },
  {
   "property": "C35",
   "status": "proved",
   "theorems": [
    "Aeolis.Props.C35_no_negative_mass"
   ],
   "note": ""
  },
  {
   "property": "C36",
   "status": "partial",
   "theorems": [
    "Aeolis.Props.C36_bed_level_partial",
    "Aeolis.Props.C36_bed_level_off",
    "Aeolis.Props.C36_bed_level_any",
    "Aeolis.Props.C36_large_deposit_leaves_bed_level",
    "Aeolis.Props.C36_bed_level_exact_deposit"
   ],
   "note": "Full claim false for net deposition above the top layer mass (proved: bed level then does not change)."
  },
  {
   "property": "C37",
   "status": "proved",
   "theorems": [
    "Aeolis.Props.C37_bed_bookkeeping"
   ],
   "note": ""
  },
  {
   "property": "C38",
   "status": "proved",
   "theorems": [
    "Aeolis.Props.C38_mixing_conserves_fractions",
    "Aeolis.Props.C38_deep_layers_unchanged",
    "Aeolis.Props.C38_mixing_nonneg",
    "Aeolis.Props.C38_mixing_keeps_equal_layer_mass",
    "Aeolis.Props.C38_mixed_layers_are_average",
    "Aeolis.Props.C38_no_waves_no_mixing"
   ],
   "note": ""
  },
  {
   "property": "C39",
   "status": "proved",
   "theorems": [
    "Aeolis.Props.C39_wet_bed_reset",
    "Aeolis.Props.C39_never_overshoots"
   ],
   "note": ""
  },
  {
   "property": "C40",
   "status": "proved",
   "theorems": [
    "Aeolis.Props.C40_average_change",
    "Aeolis.Props.C40_average_is_convex"
   ],
   "note": ""
  },
  {
   "property": "C41",
   "status": "proved",
   "theorems": [
    "Aeolis.Props.C41_off",
    "Aeolis.Props.C41_gentle_slopes",
    "Aeolis.Props.C41_border_fixed"
   ],
   "note": ""
  },
  {
   "property": "C42",
   "status": "proved",
   "theorems": [
    "Aeolis.Props.C42_budget",
    "Aeolis.Props.C42_never_gains",
    "Aeolis.Props.C42_conserves",
    "Aeolis.Props.C42_loses"
   ],
   "note": ""
  },
  {
   "property": "C43",
   "status": "proved",
   "theorems": [
    "Aeolis.Props.C43_iteration"
   ],
   "note": ""
  },
  {
   "property": "C44",
   "status": "proved",
   "theorems": [
    "Aeolis.Props.C44_nonneg",
    "Aeolis.Props.C44_sum_one",
    "Aeolis.Props.C44_empty_bed"
   ],
   "note": ""
  },
  {
   "property": "C45",
   "status": "proved",
   "theorems": [
    "Aeolis.Props.C45_sum_one",
    "Aeolis.Props.C45_earlier_kept",
    "Aeolis.Props.C45_nonneg"
   ],
   "note": ""
  },
  {
   "property": "C46",
   "status": "proved",
   "theorems": [
    "Aeolis.Props.C46_pickup",
    "Aeolis.Props.C46_pickup_consistent",
    "Aeolis.Props.C46_correction",
    "Aeolis.Props.C46_total"
   ],
   "note": ""
  },
  {
   "property": "C47",
   "status": "proved",
   "theorems": [
    "Aeolis.Props.C47_conserves",
    "Aeolis.Props.C47_ratios",
    "Aeolis.Props.C47_negative_total"
   ],
   "note": ""
  },
  {
   "property": "C48",
   "status": "proved",
   "theorems": [
    "Aeolis.Props.C48_unique_solution",
    "Aeolis.Props.C48_nonneg",
    "Aeolis.Props.C48_diverging_negative",
    "Aeolis.Props.C48_any_direction",
    "Aeolis.Props.C48_any_direction_nonneg"
   ],
   "note": ""
  },
  {
   "property": "C49",
   "status": "partial",
   "theorems": [
    "Aeolis.Props.C49_transect_budget_exact",
    "Aeolis.Props.C49_planar_budget_exact",
    "Aeolis.Props.C49_loss",
    "Aeolis.Props.C49_uptake_against_pickup",
    "Aeolis.Props.C49_converging_loses",
    "Aeolis.Props.C49_transect_budget_partial",
    "Aeolis.Props.C49_planar_budget_partial"
   ],
   "note": "Budget proved exactly for cross-shore velocities of one sign per row and Cuf = Cu, Euler backward. For other velocities and Crank-Nicolson the claim is false: the exact balance with its loss terms and a counterexample are proved."
  },
  {
   "property": "C50",
   "status": "proved",
   "theorems": [
    "Aeolis.Props.C50_offshore_value",
    "Aeolis.Props.C50_onshore_value",
    "Aeolis.Props.C50_end_settings",
    "Aeolis.Props.C50_accepted_iff",
    "Aeolis.Props.C50_errors",
    "Aeolis.Props.C50_small_grids",
    "Aeolis.Props.C50_offshore_row",
    "Aeolis.Props.C50_onshore_row",
    "Aeolis.Props.C50_lateral_constant_grows"
   ],
   "note": ""
  },
  {
   "property": "C51",
   "status": "partial",
   "theorems": [
    "Aeolis.Props.C51_planar_budget_error",
    "Aeolis.Props.C51_uniform_budget_partial"
   ],
   "note": "Full claim false; exact error term proved, and closure for alongshore-uniform velocity."
  },
  {
   "property": "C52",
   "status": "proved",
   "theorems": [
    "Aeolis.Props.C52_capacity",
    "Aeolis.Props.C52_fraction_capacity",
    "Aeolis.Props.C52_errors"
   ],
   "note": ""
  },
  {
   "property": "C53",
   "status": "proved",
   "theorems": [
    "Aeolis.Props.C53_wind",
    "Aeolis.Props.C53_threshold",
    "Aeolis.Props.C53_threshold_exceptions"
   ],
   "note": ""
  },
  {
   "property": "C54",
   "status": "proved",
   "theorems": [
    "Aeolis.Props.C54_proportional",
    "Aeolis.Props.C54_off_compounds",
    "Aeolis.Props.C54_cu0_compounds"
   ],
   "note": ""
  },
  {
   "property": "C55",
   "status": "proved",
   "theorems": [
    "Aeolis.Props.C55_raises",
    "Aeolis.Props.C55_replacing_lowers"
   ],
   "note": ""
  },
  {
   "property": "C56",
   "status": "proved",
   "theorems": [
    "Aeolis.Props.C56_values",
    "Aeolis.Props.C56_cornelis",
    "Aeolis.Props.C56_wet_dry",
    "Aeolis.Props.C56_unknown",
    "Aeolis.Props.C56_wet_no_transport",
    "Aeolis.Props.C56_flooded"
   ],
   "note": ""
  },
  {
   "property": "C57",
   "status": "proved",
   "theorems": [
    "Aeolis.Props.C57_layer",
    "Aeolis.Props.C57_no_capacity",
    "Aeolis.Props.C57_fraction_capacity_remains"
   ],
   "note": ""
  },
  {
   "property": "C58",
   "status": "proved",
   "theorems": [
    "Aeolis.Props.C58_factor",
    "Aeolis.Props.C58_missing_m",
    "Aeolis.Props.C58_empty_layer",
    "Aeolis.Props.C58_large_m"
   ],
   "note": ""
  },
  {
   "property": "C60",
   "status": "proved",
   "theorems": [
    "Aeolis.Props.C60_water_level",
    "Aeolis.Props.C60_still_water",
    "Aeolis.Props.C60_waves",
    "Aeolis.Props.C60_no_waves",
    "Aeolis.Props.C60_never_fails"
   ],
   "note": ""
  },
  {
   "property": "C61",
   "status": "proved",
   "theorems": [
    "Aeolis.Props.C61_range",
    "Aeolis.Props.C61_half_life",
    "Aeolis.Props.C61_run_is_update"
   ],
   "note": ""
  },
  {
   "property": "C62",
   "status": "proved",
   "theorems": [
    "Aeolis.Props.C62_range",
    "Aeolis.Props.C62_failures",
    "Aeolis.Props.C62_surface"
   ],
   "note": ""
  },
  {
   "property": "C63",
   "status": "proved",
   "theorems": [
    "Aeolis.Props.C63_runup",
    "Aeolis.Props.C63_forms_agree",
    "Aeolis.Props.C63_forms_differ_at_0_3",
    "Aeolis.Props.C63_forms_differ_on_flat_beach",
    "Aeolis.Props.C63_levels_ordered",
    "Aeolis.Props.C63_stockdon",
    "Aeolis.Props.C63_levels",
    "Aeolis.Props.C63_levels_frozen_without_runup"
   ],
   "note": ""
  },
  {
   "property": "C64",
   "status": "proved",
   "theorems": [
    "Aeolis.Props.C64_curve",
    "Aeolis.Props.C64_between",
    "Aeolis.Props.C64_selection",
    "Aeolis.Props.C64_flags",
    "Aeolis.Props.C64_main_curves_ordered",
    "Aeolis.Props.C64_default_curves_cross"
   ],
   "note": ""
  },
  {
   "property": "C65",
   "status": "proved",
   "theorems": [
    "Aeolis.Props.C65_limits",
    "Aeolis.Props.C65_ends",
    "Aeolis.Props.C65_seepage",
    "Aeolis.Props.C65_seepage_all_wet"
   ],
   "note": ""
  },
  {
   "property": "C66",
   "status": "proved",
   "theorems": [
    "Aeolis.Props.C66_range",
    "Aeolis.Props.C66_failures"
   ],
   "note": ""
  },
  {
   "property": "C67",
   "status": "proved",
   "theorems": [
    "Aeolis.Props.C67_range",
    "Aeolis.Props.C67_growth",
    "Aeolis.Props.C67_approaches_maximum"
   ],
   "note": ""
  },
  {
   "property": "C68",
   "status": "partial",
   "theorems": [
    "Aeolis.Props.C68_dies",
    "Aeolis.Props.C68_survives",
    "Aeolis.Props.C68_stays_bare_partial",
    "Aeolis.Props.C68_regrows_without_germination"
   ],
   "note": "Dying proved in full; the regrowth clause is false in general (proved), kept for cells whose stored growth is not positive."
  },
  {
   "property": "C69",
   "status": "proved",
   "theorems": [
    "Aeolis.Props.C69_range",
    "Aeolis.Props.C69_no_new_vegetation",
    "Aeolis.Props.C69_slow_growth_is_lost",
    "Aeolis.Props.C69_grows_without_growth"
   ],
   "note": ""
  },
  {
   "property": "C70",
   "status": "proved",
   "theorems": [
    "Aeolis.Props.C70_reduces",
    "Aeolis.Props.C70_direction",
    "Aeolis.Props.C70_at_the_plant",
    "Aeolis.Props.C70_monotone",
    "Aeolis.Props.C70_side",
    "Aeolis.Props.C70_side_beyond"
   ],
   "note": ""
  },
  {
   "property": "C71",
   "status": "proved",
   "theorems": [
    "Aeolis.Props.C71_factor",
    "Aeolis.Props.C71_monotone"
   ],
   "note": ""
  },
  {
   "property": "C72",
   "status": "proved",
   "theorems": [
    "Aeolis.Props.C72_height",
    "Aeolis.Props.C72_undermined_is_gone",
    "Aeolis.Props.C72_buried_returns",
    "Aeolis.Props.C72_low_fence_inactive"
   ],
   "note": ""
  },
  {
   "property": "C73",
   "status": "proved",
   "theorems": [
    "Aeolis.Props.C73_stress",
    "Aeolis.Props.C73_velocity_round_trip",
    "Aeolis.Props.C73_stress_round_trip"
   ],
   "note": ""
  },
  {
   "property": "C74",
   "status": "proved",
   "theorems": [
    "Aeolis.Props.C74_components",
    "Aeolis.Props.C74_shear_velocity",
    "Aeolis.Props.C74_calm",
    "Aeolis.Props.C74_listed_times",
    "Aeolis.Props.C74_between_listed_times",
    "Aeolis.Props.C74_always_defined",
    "Aeolis.Props.C74_convention"
   ],
   "note": ""
  },
  {
   "property": "C75",
   "status": "proved",
   "theorems": [
    "Aeolis.Props.C75_flat_bed",
    "Aeolis.Props.C75_scales_stress",
    "Aeolis.Props.C75_mirror",
    "Aeolis.Props.C75_formula"
   ],
   "note": ""
  },
  {
   "property": "C76",
   "status": "proved",
   "theorems": [
    "Aeolis.Props.C76_rows_sum_to_one",
    "Aeolis.Props.C76_next_state",
    "Aeolis.Props.C76_series",
    "Aeolis.Props.C76_speed_bounds",
    "Aeolis.Props.C76_bin",
    "Aeolis.Props.C76_maximum_exceeded",
    "Aeolis.Props.C76_no_progress"
   ],
   "note": ""
  },
  {
   "property": "C77",
   "status": "proved",
   "theorems": [
    "Aeolis.Props.C77_below_toe",
    "Aeolis.Props.C77_window",
    "Aeolis.Props.C77_never_raised",
    "Aeolis.Props.C77_sand_is_lost",
    "Aeolis.Props.C77_more_collisions",
    "Aeolis.Props.C77_rows"
   ],
   "note": ""
  },
  {
   "property": "C78",
   "status": "proved",
   "theorems": [
    "Aeolis.Props.C78_areas",
    "Aeolis.Props.C78_transect",
    "Aeolis.Props.C78_planar",
    "Aeolis.Props.C78_sizes_exchanged",
    "Aeolis.Props.C78_single_column"
   ],
   "note": ""
  },
  {
   "property": "C79",
   "status": "proved",
   "theorems": [
    "Aeolis.Props.C79_percentile_within_sizes",
    "Aeolis.Props.C79_percentile_monotone"
   ],
   "note": ""
  },
  {
   "property": "C80",
   "status": "partial",
   "theorems": [
    "Aeolis.Props.C80_undercut_bounded_partial",
    "Aeolis.Props.C80_below_layer_loses",
    "Aeolis.Props.C80_undercut_iterations_partial",
    "Aeolis.Props.C80_undercut_call_partial"
   ],
   "note": "The layer is not respected by the code (proved); what is proved is how far one redistribution and a whole call can undercut it."
  },
  {
   "property": "C81",
   "status": "proved",
   "theorems": [
    "Aeolis.Props.C81_solve",
    "Aeolis.Props.C81_total"
   ],
   "note": ""
  },
  {
   "property": "C82",
   "status": "proved",
   "theorems": [
    "Aeolis.Props.C82_constant_speed",
    "Aeolis.Props.C82_calm",
    "Aeolis.Props.C82_methods"
   ],
   "note": ""
  },
  {
   "property": "C83",
   "status": "proved",
   "theorems": [
    "Aeolis.Props.C83_mask",
    "Aeolis.Props.C83_mask_nan"
   ],
   "note": ""
  },
  {
   "property": "C84",
   "status": "proved",
   "theorems": [
    "Aeolis.Props.C84_memoryless",
    "Aeolis.Props.C84_salt_compounds",
    "Aeolis.Props.C84_file_layer_sticks"
   ],
   "note": ""
  },
  {
   "property": "C85",
   "status": "proved",
   "theorems": [
    "Aeolis.Props.C85_at_least_grainsize",
    "Aeolis.Props.C85_missing_functions"
   ],
   "note": ""
  },
  {
   "property": "C86",
   "status": "proved",
   "theorems": [
    "Aeolis.Props.C86_short_steps_fail",
    "Aeolis.Props.C86_coverage",
    "Aeolis.Props.C86_unknown_boundary"
   ],
   "note": ""
  },
  {
   "property": "C87",
   "status": "proved",
   "theorems": [
    "Aeolis.Props.C87_flat_is_steady",
    "Aeolis.Props.C87_flat_not_steady",
    "Aeolis.Props.C87_rest",
    "Aeolis.Props.C87_fourth_order",
    "Aeolis.Props.C87_constant_rate"
   ],
   "note": ""
  },
  {
   "property": "C88",
   "status": "proved",
   "theorems": [
    "Aeolis.Props.C88_search_ends",
    "Aeolis.Props.C88_search_may_not_end",
    "Aeolis.Props.C88_reversal_is_zero",
    "Aeolis.Props.C88_reversal_inverts",
    "Aeolis.Props.C88_reversal_continuous"
   ],
   "note": ""
  },
  {
   "property": "C89",
   "status": "proved",
   "theorems": [
    "Aeolis.Props.C89_saturation_pressure",
    "Aeolis.Props.C89_slope",
    "Aeolis.Props.C89_saturated_air",
    "Aeolis.Props.C89_evaporation"
   ],
   "note": ""
  },
  {
   "property": "C90",
   "status": "proved",
   "theorems": [
    "Aeolis.Props.C90_overheight",
    "Aeolis.Props.C90_infiltration",
    "Aeolis.Props.C90_no_waves",
    "Aeolis.Props.C90_overwash"
   ],
   "note": ""
  },
  {
   "property": "C91",
   "status": "proved",
   "theorems": [
    "Aeolis.Props.C91_probability",
    "Aeolis.Props.C91_germination",
    "Aeolis.Props.C91_denser_neighbours",
    "Aeolis.Props.C91_lateral_needs_neighbour",
    "Aeolis.Props.C91_germination_probability"
   ],
   "note": ""
  },
  {
   "property": "C92",
   "status": "proved",
   "theorems": [
    "Aeolis.Props.C92_constant",
    "Aeolis.Props.C92_mean_grain_size",
    "Aeolis.Props.C92_van_rijn",
    "Aeolis.Props.C92_van_rijn_one_fraction",
    "Aeolis.Props.C92_van_rijn_fractions"
   ],
   "note": ""
  },
  {
   "property": "C93",
   "status": "proved",
   "theorems": [
    "Aeolis.Props.C93_separation_reduces_components",
    "Aeolis.Props.C93_separation_keeps_shear_velocity"
   ],
   "note": ""
  },
  {
   "property": "C94",
   "status": "proved",
   "theorems": [
    "Aeolis.Props.C94_float",
    "Aeolis.Props.C94_float_exact",
    "Aeolis.Props.C94_float_loses_digits"
   ],
   "note": ""
  },
  {
   "property": "C95",
   "status": "proved",
   "theorems": [
    "Aeolis.Props.C95_alignment",
    "Aeolis.Props.C95_descending",
    "Aeolis.Props.C95_warning_before_rotation"
   ],
   "note": ""
  },
  {
   "property": "C96",
   "status": "proved",
   "theorems": [
    "Aeolis.Props.C96_stationary",
    "Aeolis.Props.C96_fit",
    "Aeolis.Props.C96_sum",
    "Aeolis.Props.C96_target",
    "Aeolis.Props.C96_weibull"
   ],
   "note": ""
  },
  {
   "property": "C97",
   "status": "proved",
   "theorems": [
    "Aeolis.Props.C97_unique_solution",
    "Aeolis.Props.C97_nonneg"
   ],
   "note": ""
  },
  {
   "property": "C98",
   "status": "proved",
   "theorems": [
    "Aeolis.Props.C98_budget",
    "Aeolis.Props.C98_transect",
    "Aeolis.Props.C98_steady_circular",
    "Aeolis.Props.C98_backward_wind"
   ],
   "note": ""
  },
  {
   "property": "C99",
   "status": "proved",
   "theorems": [
    "Aeolis.Props.C99_solve",
    "Aeolis.Props.C99_total",
    "Aeolis.Props.C99_first_step",
    "Aeolis.Props.C99_implicit",
    "Aeolis.Props.C99_pickup_above_mass"
   ],
   "note": ""
  },
  {
   "property": "C100",
   "status": "proved",
   "theorems": [
    "Aeolis.Props.C100_gradient_columns",
    "Aeolis.Props.C100_accepted_iff",
    "Aeolis.Props.C100_errors",
    "Aeolis.Props.C100_gradient_rows",
    "Aeolis.Props.C100_solver_names",
    "Aeolis.Props.C100_dispatch",
    "Aeolis.Props.C100_dispatch_errors",
    "Aeolis.Props.C100_fixed_end",
    "Aeolis.Props.C100_steady_end_grows"
   ],
   "note": ""
  },
  {
   "property": "C101",
   "status": "proved",
   "theorems": [
    "Aeolis.Props.C101_reference",
    "Aeolis.Props.C101_exceptions"
   ],
   "note": ""
  },
  {
   "property": "C102",
   "status": "proved",
   "theorems": [
    "Aeolis.Props.C102_cell_by_cell",
    "Aeolis.Props.C102_local",
    "Aeolis.Props.C102_negative_not_local"
   ],
   "note": ""
  },
  {
   "property": "C103",
   "status": "proved",
   "theorems": [
    "Aeolis.Props.C103_completed",
    "Aeolis.Props.C103_needs",
    "Aeolis.Props.C103_restart_never_loads",
    "Aeolis.Props.C103_completes"
   ],
   "note": ""
  },
  {
   "property": "C104",
   "status": "proved",
   "theorems": [
    "Aeolis.Props.C104_averages",
    "Aeolis.Props.C104_percentages"
   ],
   "note": ""
  },
  {
   "property": "C105",
   "status": "proved",
   "theorems": [
    "Aeolis.Props.C105_callback_text",
    "Aeolis.Props.C105_callback_choice"
   ],
   "note": ""
  },
  {
   "property": "C106",
   "status": "proved",
   "theorems": [
    "Aeolis.Props.C106_hotstart",
    "Aeolis.Props.C106_hotstart_ok"
   ],
   "note": ""
  },
  {
   "property": "C107",
   "status": "proved",
   "theorems": [
    "Aeolis.Props.C107_le",
    "Aeolis.Props.C107_settings",
    "Aeolis.Props.C107_accepted_iff",
    "Aeolis.Props.C107_unique_solution",
    "Aeolis.Props.C107_nonneg",
    "Aeolis.Props.C107_rhs_nonneg",
    "Aeolis.Props.C107_fixed_point",
    "Aeolis.Props.C107_transect_budget",
    "Aeolis.Props.C107_saturation",
    "Aeolis.Props.C107_lateral_constant",
    "Aeolis.Props.C107_first_step"
   ],
   "note": ""
  },
  {
   "property": "C108",
   "status": "proved",
   "theorems": [
    "Aeolis.Props.C108_covers",
    "Aeolis.Props.C108_covers_oblique"
   ],
   "note": ""
  },
  {
   "property": "C109",
   "status": "proved",
   "theorems": [
    "Aeolis.Props.C109_cell",
    "Aeolis.Props.C109_nodes",
    "Aeolis.Props.C109_beyond",
    "Aeolis.Props.C109_far",
    "Aeolis.Props.C109_bounds",
    "Aeolis.Props.C109_plane"
   ],
   "note": ""
  },
  {
   "property": "C110",
   "status": "proved",
   "theorems": [
    "Aeolis.Props.C110_linear",
    "Aeolis.Props.C110_none",
    "Aeolis.Props.C110_shift",
    "Aeolis.Props.C110_uniform",
    "Aeolis.Props.C110_wavenumbers",
    "Aeolis.Props.C110_datum",
    "Aeolis.Props.C110_wave"
   ],
   "note": ""
  },
  {
   "property": "C111",
   "status": "proved",
   "theorems": [
    "Aeolis.Props.C111_wind_frame",
    "Aeolis.Props.C111_along_wind",
    "Aeolis.Props.C111_undisturbed",
    "Aeolis.Props.C111_scales",
    "Aeolis.Props.C111_under_bubble"
   ],
   "note": ""
  },
  {
   "property": "C112",
   "status": "proved",
   "theorems": [
    "Aeolis.Props.C112_height_nonneg",
    "Aeolis.Props.C112_envelope",
    "Aeolis.Props.C112_no_bubble",
    "Aeolis.Props.C112_above_bed",
    "Aeolis.Props.C112_filter_error",
    "Aeolis.Props.C112_streamline",
    "Aeolis.Props.C112_steepest",
    "Aeolis.Props.C112_filtered"
   ],
   "note": ""
  },
  {
   "property": "C113",
   "status": "proved",
   "theorems": [
    "Aeolis.Props.C113_above_bed",
    "Aeolis.Props.C113_gentle",
    "Aeolis.Props.C113_mirror",
    "Aeolis.Props.C113_reach",
    "Aeolis.Props.C113_single",
    "Aeolis.Props.C113_two",
    "Aeolis.Props.C113_alongshore"
   ],
   "note": ""
  },
  {
   "property": "C114",
   "status": "proved",
   "theorems": [
    "Aeolis.Props.C114_range",
    "Aeolis.Props.C114_longer_kept",
    "Aeolis.Props.C114_ends",
    "Aeolis.Props.C114_across_differs"
   ],
   "note": ""
  },
  {
   "property": "C115",
   "status": "proved",
   "theorems": [
    "Aeolis.Props.C115_right_angle",
    "Aeolis.Props.C115_any_direction",
    "Aeolis.Props.C115_ignores",
    "Aeolis.Props.C115_proportional",
    "Aeolis.Props.C115_alongshore_lost",
    "Aeolis.Props.C115_no_more",
    "Aeolis.Props.C115_no_fence_turned",
    "Aeolis.Props.C115_onshore_becomes_alongshore",
    "Aeolis.Props.C115_factor",
    "Aeolis.Props.C115_one_fence",
    "Aeolis.Props.C115_distance"
   ],
   "note": ""
  },
  {
   "property": "C116",
   "status": "proved",
   "theorems": [
    "Aeolis.Props.C116_avalanche_never_adds",
    "Aeolis.Props.C116_run_with_avalanching",
    "Aeolis.Props.C116_step_any",
    "Aeolis.Props.C116_step",
    "Aeolis.Props.C116_step_no_more",
    "Aeolis.Props.C116_run",
    "Aeolis.Props.C116_not_created"
   ],
   "note": ""
  },
  {
   "property": "C117",
   "status": "proved",
   "theorems": [
    "Aeolis.Props.C117_record",
    "Aeolis.Props.C117_composition_restored",
    "Aeolis.Props.C117_other_sizes",
    "Aeolis.Props.C117_layers_fractions_exchanged",
    "Aeolis.Props.C117_bed_restored"
   ],
   "note": ""
  },
  {
   "property": "C118",
   "status": "proved",
   "theorems": [
    "Aeolis.Props.C118_grid_from_file",
    "Aeolis.Props.C118_bed_accepted",
    "Aeolis.Props.C118_bed_values",
    "Aeolis.Props.C118_column_becomes_row",
    "Aeolis.Props.C118_coordinates",
    "Aeolis.Props.C118_transect",
    "Aeolis.Props.C118_masks",
    "Aeolis.Props.C118_thresholds",
    "Aeolis.Props.C118_series"
   ],
   "note": ""
  },
  {
   "property": "C119",
   "status": "proved",
   "theorems": [
    "Aeolis.Props.C119_line",
    "Aeolis.Props.C119_tag_hides_units",
    "Aeolis.Props.C119_line_form",
    "Aeolis.Props.C119_last_line_counts",
    "Aeolis.Props.C119_units_of_variables",
    "Aeolis.Props.C119_variables_without_units",
    "Aeolis.Props.C119_never_empty"
   ],
   "note": ""
  },
  {
   "property": "C120",
   "status": "proved",
   "theorems": [
    "Aeolis.Props.C120_parameters",
    "Aeolis.Props.C120_run_with_settings",
    "Aeolis.Props.C120_run_without_settings",
    "Aeolis.Props.C120_settings_before_configfile_lost",
    "Aeolis.Props.C120_start_again",
    "Aeolis.Props.C120_create"
   ],
   "note": ""
  },
  {
   "property": "C121",
   "status": "proved",
   "theorems": [
    "Aeolis.Props.C121_counters"
   ],
   "note": ""
  },
  {
   "property": "C122",
   "status": "proved",
   "theorems": [
    "Aeolis.Props.C122_step",
    "Aeolis.Props.C122_run",
    "Aeolis.Props.C122_start",
    "Aeolis.Props.C122_total",
    "Aeolis.Props.C122_onshore",
    "Aeolis.Props.C122_unconverged_negative"
   ],
   "note": ""
  },
  {
   "property": "C123",
   "status": "proved",
   "theorems": [
    "Aeolis.Props.C123_levels_off",
    "Aeolis.Props.C123_levels_on",
    "Aeolis.Props.C123_limits",
    "Aeolis.Props.C123_window",
    "Aeolis.Props.C123_some_time",
    "Aeolis.Props.C123_succeeds",
    "Aeolis.Props.C123_no_shoreline_fails",
    "Aeolis.Props.C123_late"
   ],
   "note": ""
  },
  {
   "property": "C124",
   "status": "proved",
   "theorems": [
    "Aeolis.Props.C124_start",
    "Aeolis.Props.C124_rises",
    "Aeolis.Props.C124_shoreline"
   ],
   "note": ""
  },
  {
   "property": "C125",
   "status": "proved",
   "theorems": [
    "Aeolis.Props.C125_transport",
    "Aeolis.Props.C125_step",
    "Aeolis.Props.C125_run",
    "Aeolis.Props.C125_total",
    "Aeolis.Props.C125_windspeed",
    "Aeolis.Props.C125_any_direction",
    "Aeolis.Props.C125_run_total"
   ],
   "note": ""
  },
  {
   "property": "C126",
   "status": "proved",
   "theorems": [
    "Aeolis.Props.C126_not_eroded"
   ],
   "note": ""
  },
  {
   "property": "C127",
   "status": "proved",
   "theorems": [
    "Aeolis.Props.C127_below_threshold",
    "Aeolis.Props.C127_run",
    "Aeolis.Props.C127_threshold_file_creates_sand"
   ],
   "note": ""
  },
  {
   "property": "C128",
   "status": "proved",
   "theorems": [
    "Aeolis.Props.C128_solution_le",
    "Aeolis.Props.C128_solution_le_transect",
    "Aeolis.Props.C128_converges",
    "Aeolis.Props.C128_limit_reached",
    "Aeolis.Props.C128_slowing_exceeds",
    "Aeolis.Props.C128_transport",
    "Aeolis.Props.C128_run",
    "Aeolis.Props.C128_thick_bed",
    "Aeolis.Props.C128_fractions"
   ],
   "note": ""
  },
  {
   "property": "C129",
   "status": "proved",
   "theorems": [
    "Aeolis.Props.C129_magnitude",
    "Aeolis.Props.C129_bubble",
    "Aeolis.Props.C129_drag",
    "Aeolis.Props.C129_against_wind",
    "Aeolis.Props.C129_flat",
    "Aeolis.Props.C129_increasing",
    "Aeolis.Props.C129_drive",
    "Aeolis.Props.C129_scales",
    "Aeolis.Props.C129_defined",
    "Aeolis.Props.C129_undisturbed",
    "Aeolis.Props.C129_plane",
    "Aeolis.Props.C129_transect_ends"
   ],
   "note": ""
  },
  {
   "property": "C130",
   "status": "proved",
   "theorems": [
    "Aeolis.Props.C130_uncoupled",
    "Aeolis.Props.C130_levels",
    "Aeolis.Props.C130_floods",
    "Aeolis.Props.C130_without_tides",
    "Aeolis.Props.C130_runup",
    "Aeolis.Props.C130_masked_again",
    "Aeolis.Props.C130_masks"
   ],
   "note": ""
  },
  {
   "property": "C131",
   "status": "proved",
   "theorems": [
    "Aeolis.Props.C131_transport",
    "Aeolis.Props.C131_step",
    "Aeolis.Props.C131_run",
    "Aeolis.Props.C131_not_created",
    "Aeolis.Props.C131_fractions"
   ],
   "note": ""
  },
  {
   "property": "C132",
   "status": "proved",
   "theorems": [
    "Aeolis.Props.C132_solvable",
    "Aeolis.Props.C132_without_wind",
    "Aeolis.Props.C132_with_wind",
    "Aeolis.Props.C132_transect",
    "Aeolis.Props.C132_plenty"
   ],
   "note": ""
  },
  {
   "property": "C133",
   "status": "proved",
   "theorems": [
    "Aeolis.Props.C133_step",
    "Aeolis.Props.C133_run",
    "Aeolis.Props.C133_returns",
    "Aeolis.Props.C133_total",
    "Aeolis.Props.C133_run_total"
   ],
   "note": ""
  },
  {
   "property": "C134",
   "status": "proved",
   "theorems": [
    "Aeolis.Props.C134_breeze_any",
    "Aeolis.Props.C134_breeze",
    "Aeolis.Props.C134_storm_any",
    "Aeolis.Props.C134_storm"
   ],
   "note": ""
  },
  {
   "property": "C135",
   "status": "proved",
   "theorems": [
    "Aeolis.Props.C135_call",
    "Aeolis.Props.C135_not_created_any",
    "Aeolis.Props.C135_not_created"
   ],
   "note": ""
  },
  {
   "property": "C136",
   "status": "proved",
   "theorems": [
    "Aeolis.Props.C136_flooded",
    "Aeolis.Props.C136_hard_layer"
   ],
   "note": ""
  },
  {
   "property": "C137",
   "status": "proved",
   "theorems": [
    "Aeolis.Props.C137_moisture_infiltration",
    "Aeolis.Props.C137_moisture_surface",
    "Aeolis.Props.C137_salt",
    "Aeolis.Props.C137_salt_fails",
    "Aeolis.Props.C137_vegetation_height",
    "Aeolis.Props.C137_vegetation_density",
    "Aeolis.Props.C137_water",
    "Aeolis.Props.C137_groundwater",
    "Aeolis.Props.C137_clock"
   ],
   "note": ""
  },
  {
   "property": "C138",
   "status": "proved",
   "theorems": [
    "Aeolis.Props.C138_avalanche",
    "Aeolis.Props.C138_update"
   ],
   "note": ""
  },
  {
   "property": "C139",
   "status": "proved",
   "theorems": [
    "Aeolis.Props.C139_cell_keeps",
    "Aeolis.Props.C139_no_layer",
    "Aeolis.Props.C139_summit_slides",
    "Aeolis.Props.C139_run"
   ],
   "note": ""
  },
  {
   "property": "C140",
   "status": "proved",
   "theorems": [
    "Aeolis.Props.C140_step",
    "Aeolis.Props.C140_run",
    "Aeolis.Props.C140_sector",
    "Aeolis.Props.C140_returns",
    "Aeolis.Props.C140_total",
    "Aeolis.Props.C140_run_total"
   ],
   "note": ""
  },
  {
   "property": "C141",
   "status": "proved",
   "theorems": [
    "Aeolis.Props.C141_breeze_any",
    "Aeolis.Props.C141_breeze",
    "Aeolis.Props.C141_storm_any",
    "Aeolis.Props.C141_storm"
   ],
   "note": ""
  },
  {
   "property": "C142",
   "status": "proved",
   "theorems": [
    "Aeolis.Props.C142_call",
    "Aeolis.Props.C142_not_created_any",
    "Aeolis.Props.C142_not_created"
   ],
   "note": ""
  },
  {
   "property": "C143",
   "status": "proved",
   "theorems": [
    "Aeolis.Props.C143_flooded",
    "Aeolis.Props.C143_hard_layer"
   ],
   "note": ""
  },
  {
   "property": "C144",
   "status": "proved",
   "theorems": [
    "Aeolis.Props.C144_moisture_infiltration",
    "Aeolis.Props.C144_moisture_surface",
    "Aeolis.Props.C144_salt",
    "Aeolis.Props.C144_salt_fails",
    "Aeolis.Props.C144_vegetation_height",
    "Aeolis.Props.C144_vegetation_density",
    "Aeolis.Props.C144_water",
    "Aeolis.Props.C144_groundwater",
    "Aeolis.Props.C144_clock"
   ],
   "note": ""
  },
  {
   "property": "C145",
   "status": "proved",
   "theorems": [
    "Aeolis.Props.C145_avalanche",
    "Aeolis.Props.C145_update"
   ],
   "note": ""
  },
  {
   "property": "C146",
   "status": "proved",
   "theorems": [
    "Aeolis.Props.C146_initialise",
    "Aeolis.Props.C146_completes",
    "Aeolis.Props.C146_late_start",
    "Aeolis.Props.C146_breeze",
    "Aeolis.Props.C146_storm",
    "Aeolis.Props.C146_not_created",
    "Aeolis.Props.C146_returned",
    "Aeolis.Props.C146_breeze_any",
    "Aeolis.Props.C146_storm_any",
    "Aeolis.Props.C146_not_created_any",
    "Aeolis.Props.C146_moisture",
    "Aeolis.Props.C146_vegetation",
    "Aeolis.Props.C146_water",
    "Aeolis.Props.C146_breeze_ground",
    "Aeolis.Props.C146_no_shoreline_fails"
   ],
   "note": ""
  },
  {
   "property": "C147",
   "status": "proved",
   "theorems": [
    "Aeolis.Props.C147_initialise",
    "Aeolis.Props.C147_completes",
    "Aeolis.Props.C147_breeze",
    "Aeolis.Props.C147_storm",
    "Aeolis.Props.C147_not_created",
    "Aeolis.Props.C147_returned",
    "Aeolis.Props.C147_breeze_any",
    "Aeolis.Props.C147_storm_any",
    "Aeolis.Props.C147_not_created_any",
    "Aeolis.Props.C147_moisture",
    "Aeolis.Props.C147_vegetation",
    "Aeolis.Props.C147_water",
    "Aeolis.Props.C147_breeze_ground",
    "Aeolis.Props.C147_no_shoreline_fails"
   ],
   "note": ""
  },
  {
   "property": "C148",
   "status": "proved",
   "theorems": [
    "Aeolis.Props.C148_limits",
    "Aeolis.Props.C148_some_time",
    "Aeolis.Props.C148_rows",
    "Aeolis.Props.C148_succeeds",
    "Aeolis.Props.C148_neighbour"
   ],
   "note": ""
  },
  {
   "property": "C149",
   "status": "proved",
   "theorems": [
    "Aeolis.Props.C149_grid",
    "Aeolis.Props.C149_transect"
   ],
   "note": ""
  },
  {
   "property": "C150",
   "status": "proved",
   "theorems": [
    "Aeolis.Props.C150_no_less",
    "Aeolis.Props.C150_no_less_transect",
    "Aeolis.Props.C150_steady"
   ],
   "note": ""
  },
  {
   "property": "C151",
   "status": "proved",
   "theorems": [
    "Aeolis.Props.C151_upwind"
   ],
   "note": ""
  },
  {
   "property": "C152",
   "status": "proved",
   "theorems": [
    "Aeolis.Props.C152_contraction",
    "Aeolis.Props.C152_converges",
    "Aeolis.Props.C152_run",
    "Aeolis.Props.C152_steady"
   ],
   "note": ""
  },
  {
   "property": "C153",
   "status": "proved",
   "theorems": [
    "Aeolis.Props.C153_superposition",
    "Aeolis.Props.C153_nothing"
   ],
   "note": ""
  },
  {
   "property": "C154",
   "status": "proved",
   "theorems": [
    "Aeolis.Props.C154_equal_rows",
    "Aeolis.Props.C154_transect_loses",
    "Aeolis.Props.C154_transect_differs"
   ],
   "note": ""
  },
  {
   "property": "C155",
   "status": "proved",
   "theorems": [
    "Aeolis.Props.C155_transect",
    "Aeolis.Props.C155_transect_unlimited",
    "Aeolis.Props.C155_transect_limited",
    "Aeolis.Props.C155_transect_run",
    "Aeolis.Props.C155_planar",
    "Aeolis.Props.C155_planar_unlimited",
    "Aeolis.Props.C155_planar_limited",
    "Aeolis.Props.C155_planar_run"
   ],
   "note": ""
  },
  {
   "property": "C156",
   "status": "proved",
   "theorems": [
    "Aeolis.Props.C156_transect",
    "Aeolis.Props.C156_planar",
    "Aeolis.Props.C156_transect_total",
    "Aeolis.Props.C156_planar_total"
   ],
   "note": ""
  },
  {
   "property": "C157",
   "status": "proved",
   "theorems": [
    "Aeolis.Props.C157_bed",
    "Aeolis.Props.C157_run",
    "Aeolis.Props.C157_mixing",
    "Aeolis.Props.C157_initial",
    "Aeolis.Props.C157_weights",
    "Aeolis.Props.C157_mean_size",
    "Aeolis.Props.C157_thresholds"
   ],
   "note": ""
  },
  {
   "property": "C158",
   "status": "proved",
   "theorems": [
    "Aeolis.Props.C158_datum",
    "Aeolis.Props.C158_turned_columns",
    "Aeolis.Props.C158_turned_rows",
    "Aeolis.Props.C158_symmetric"
   ],
   "note": ""
  },
  {
   "property": "C159",
   "status": "proved",
   "theorems": [
    "Aeolis.Props.C159_reversed",
    "Aeolis.Props.C159_offshore_unique",
    "Aeolis.Props.C159_offshore_no_less",
    "Aeolis.Props.C159_offshore_nonneg",
    "Aeolis.Props.C159_turned_rows",
    "Aeolis.Props.C159_any_quarter_no_less",
    "Aeolis.Props.C159_any_quarter_nonneg",
    "Aeolis.Props.C159_any_quarter_unique"
   ],
   "note": ""
  },
  {
   "property": "C160",
   "status": "proved",
   "theorems": [
    "Aeolis.Props.C160_series",
    "Aeolis.Props.C160_erosion",
    "Aeolis.Props.C160_water",
    "Aeolis.Props.C160_levels_computed",
    "Aeolis.Props.C160_update",
    "Aeolis.Props.C160_run",
    "Aeolis.Props.C160_fence_depends",
    "Aeolis.Props.C160_groundwater_depends",
    "Aeolis.Props.C160_initialise",
    "Aeolis.Props.C160_from_files",
    "Aeolis.Props.C160_same_run",
    "Aeolis.Props.C160_program",
    "Aeolis.Props.C160_step",
    "Aeolis.Props.C160_chain",
    "Aeolis.Props.C160_planar_update",
    "Aeolis.Props.C160_planar_run",
    "Aeolis.Props.C160_planar_initialise",
    "Aeolis.Props.C160_planar_program"
   ],
   "note": ""
  },
  {
   "property": "C161",
   "status": "proved",
   "theorems": [
    "Aeolis.Props.C161_planar_update",
    "Aeolis.Props.C161_planar_run",
    "Aeolis.Props.C161_planar_initialise",
    "Aeolis.Props.C161_planar_started",
    "Aeolis.Props.C161_planar_period",
    "Aeolis.Props.C161_series",
    "Aeolis.Props.C161_update",
    "Aeolis.Props.C161_run",
    "Aeolis.Props.C161_initialise",
    "Aeolis.Props.C161_period",
    "Aeolis.Props.C161_run_started",
    "Aeolis.Props.C161_run_period",
    "Aeolis.Props.C161_time_zero"
   ],
   "note": ""
  }
 ]
}