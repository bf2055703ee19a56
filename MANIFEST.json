{
 "claims": [
  {
   "property": "C01",
   "status": "proved",
   "theorems": [
    "Cloudnet.C01_category_bits_round_trip",
    "Cloudnet.C01_category_bits_positions",
    "Cloudnet.C01_category_bits_injective"
   ],
   "note": ""
  },
  {
   "property": "C02",
   "status": "proved",
   "theorems": [
    "Cloudnet.C02_quality_bits_round_trip",
    "Cloudnet.C02_quality_bits_positions"
   ],
   "note": ""
  },
  {
   "property": "C03",
   "status": "proved",
   "theorems": [
    "Cloudnet.C03_corrected_subset",
    "Cloudnet.C03_quality_bits"
   ],
   "note": ""
  },
  {
   "property": "C04",
   "status": "proved",
   "theorems": [
    "Cloudnet.C04_isbit",
    "Cloudnet.C04_setbit",
    "Cloudnet.C04_isbit_setbit",
    "Cloudnet.C04_setbit_idempotent_commutes"
   ],
   "note": ""
  },
  {
   "property": "C05",
   "status": "proved",
   "theorems": [
    "Cloudnet.C05_target_classification",
    "Cloudnet.C05_target_range",
    "Cloudnet.C05_target_from_file"
   ],
   "note": ""
  },
  {
   "property": "C06",
   "status": "proved",
   "theorems": [
    "Cloudnet.C06_detection_status",
    "Cloudnet.C06_detection_range"
   ],
   "note": ""
  },
  {
   "property": "C07",
   "status": "proved",
   "theorems": [
    "Cloudnet.C07_signal_source",
    "Cloudnet.C07_signal_source_iff"
   ],
   "note": ""
  },
  {
   "property": "C08",
   "status": "proved",
   "theorems": [
    "Cloudnet.C08_profile",
    "Cloudnet.C08_base_and_top_heights",
    "Cloudnet.C08_gate_at_sea_level_fails",
    "Cloudnet.C08_above_ground"
   ],
   "note": "The code violates the plain claim for a gate at altitude exactly 0; theorems state what happens."
  },
  {
   "property": "C09",
   "status": "proved",
   "theorems": [
    "Cloudnet.C09_cloud_mask"
   ],
   "note": ""
  },
  {
   "property": "C10",
   "status": "proved",
   "theorems": [
    "Cloudnet.C10_radar_attenuation_status",
    "Cloudnet.C10_low_frequency"
   ],
   "note": ""
  },
  {
   "property": "C11",
   "status": "proved",
   "theorems": [
    "Cloudnet.C11_cloud_top_status",
    "Cloudnet.C11_cloud_top_nearest"
   ],
   "note": ""
  },
  {
   "property": "C12",
   "status": "proved",
   "theorems": [
    "Cloudnet.C12_ice_status",
    "Cloudnet.C12_data_iff_status"
   ],
   "note": ""
  },
  {
   "property": "C13",
   "status": "proved",
   "theorems": [
    "Cloudnet.C13_is_rain"
   ],
   "note": ""
  },
  {
   "property": "C14",
   "status": "proved",
   "theorems": [
    "Cloudnet.C14_supported_bands",
    "Cloudnet.C14_iwc_positive_increasing",
    "Cloudnet.C14_ier_positive_increasing",
    "Cloudnet.C14_ier_warm_decreases"
   ],
   "note": "ier is monotone only up to a temperature; C14_ier_warm_decreases shows where it fails."
  },
  {
   "property": "C15",
   "status": "proved",
   "theorems": [
    "Cloudnet.C15_der_value",
    "Cloudnet.C15_der_status"
   ],
   "note": ""
  },
  {
   "property": "C16",
   "status": "proved",
   "theorems": [
    "Cloudnet.C16_drizzle_status",
    "Cloudnet.C16_single_profile_raises"
   ],
   "note": ""
  },
  {
   "property": "C17",
   "status": "proved",
   "theorems": [
    "Cloudnet.C17_drizzle_masking"
   ],
   "note": ""
  },
  {
   "property": "C18",
   "status": "proved",
   "theorems": [
    "Cloudnet.C18_db_round_trip",
    "Cloudnet.C18_error_classes",
    "Cloudnet.C18_masked",
    "Cloudnet.C18_tiny_diameter_error_overwritten"
   ],
   "note": "C18_tiny_diameter_error_overwritten is a counterexample for tiny diameters."
  },
  {
   "property": "C19",
   "status": "proved",
   "theorems": [
    "Cloudnet.C19_lwc_conserves_lwp",
    "Cloudnet.C19_single_profile_raises"
   ],
   "note": ""
  },
  {
   "property": "C20",
   "status": "proved",
   "theorems": [
    "Cloudnet.C20_adiabatic_lwc",
    "Cloudnet.C20_positive_iff_liquid",
    "Cloudnet.C20_increasing_in_layer",
    "Cloudnet.C20_zero_gradient_leaks"
   ],
   "note": "A zero gradient keeps the previous one; included in the statements."
  },
  {
   "property": "C21",
   "status": "proved",
   "theorems": [
    "Cloudnet.C21_bases_tops_pair",
    "Cloudnet.C21_every_layer_is_paired"
   ],
   "note": ""
  },
  {
   "property": "C22",
   "status": "proved",
   "theorems": [
    "Cloudnet.C22_profile",
    "Cloudnet.C22_status",
    "Cloudnet.C22_raises"
   ],
   "note": ""
  },
  {
   "property": "C23",
   "status": "proved",
   "theorems": [
    "Cloudnet.C23_base",
    "Cloudnet.C23_base_raises",
    "Cloudnet.C23_top",
    "Cloudnet.C23_top_raises"
   ],
   "note": ""
  },
  {
   "property": "C24",
   "status": "proved",
   "theorems": [
    "Cloudnet.C24_correct_liquid_top",
    "Cloudnet.C24_raises",
    "Cloudnet.C24_exceeds_limit"
   ],
   "note": ""
  },
  {
   "property": "C25",
   "status": "proved",
   "theorems": [
    "Cloudnet.C25_ffill",
    "Cloudnet.C25_ffill_total",
    "Cloudnet.C25_ffill_mask",
    "Cloudnet.C25_ffill_idempotent"
   ],
   "note": ""
  },
  {
   "property": "C26",
   "status": "proved",
   "theorems": [
    "Cloudnet.C26_cumsumr",
    "Cloudnet.C26_cumsumr_step",
    "Cloudnet.C26_cumsumr_negative_input_fails"
   ],
   "note": ""
  },
  {
   "property": "C27",
   "status": "proved",
   "theorems": [
    "Cloudnet.C27_filter_isolated",
    "Cloudnet.C27_filter_x",
    "Cloudnet.C27_filter_isolated_idempotent",
    "Cloudnet.C27_filter_x_idempotent"
   ],
   "note": ""
  },
  {
   "property": "C28",
   "status": "proved",
   "theorems": [
    "Cloudnet.C28_remove_small_objects_faces",
    "Cloudnet.C28_remove_small_objects_corners",
    "Cloudnet.C28_objects_stay_whole",
    "Cloudnet.C28_idempotent"
   ],
   "note": ""
  },
  {
   "property": "C29",
   "status": "proved",
   "theorems": [
    "Cloudnet.C29_bin_edges",
    "Cloudnet.C29_equal_bins",
    "Cloudnet.C29_uneven_grid",
    "Cloudnet.C29_too_short"
   ],
   "note": "C29_uneven_grid: on uneven grids a point can be outside its bin."
  },
  {
   "property": "C30",
   "status": "proved",
   "theorems": [
    "Cloudnet.C30_rebin_2d_mean",
    "Cloudnet.C30_rebin_2d_max",
    "Cloudnet.C30_partition",
    "Cloudnet.C30_mask_zeros",
    "Cloudnet.C30_keepdim",
    "Cloudnet.C30_rebin_2d_std"
   ],
   "note": ""
  },
  {
   "property": "C31",
   "status": "proved",
   "theorems": [
    "Cloudnet.C31_all_zero_fails",
    "Cloudnet.C31_rebin_1d_mean",
    "Cloudnet.C31_rebin_1d_max",
    "Cloudnet.C31_empty_bin_zero",
    "Cloudnet.C31_rebin_1d_std"
   ],
   "note": "The claim without the stated limit is false: C31_all_zero_fails, C31_empty_bin_zero."
  },
  {
   "property": "C32",
   "status": "proved",
   "theorems": [
    "Cloudnet.C32_nearest_gate"
   ],
   "note": ""
  },
  {
   "property": "C33",
   "status": "proved",
   "theorems": [
    "Cloudnet.C33_gap_indices"
   ],
   "note": ""
  },
  {
   "property": "C34",
   "status": "proved",
   "theorems": [
    "Cloudnet.C34_raises",
    "Cloudnet.C34_linear",
    "Cloudnet.C34_within_range",
    "Cloudnet.C34_nearest"
   ],
   "note": ""
  },
  {
   "property": "C35",
   "status": "proved",
   "theorems": [
    "Cloudnet.C35_time_grid",
    "Cloudnet.C35_last_point_after_midnight"
   ],
   "note": "C35_last_point_after_midnight: the grid can end after midnight."
  },
  {
   "property": "C36",
   "status": "proved",
   "theorems": [
    "Cloudnet.C36_seconds2hours",
    "Cloudnet.C36_monotone",
    "Cloudnet.C36_datetime2decimal_hours"
   ],
   "note": ""
  },
  {
   "property": "C37",
   "status": "proved",
   "theorems": [
    "Cloudnet.C37_valid_indices",
    "Cloudnet.C37_screen_by_time",
    "Cloudnet.C37_screen_raises"
   ],
   "note": ""
  },
  {
   "property": "C38",
   "status": "proved",
   "theorems": [
    "Cloudnet.C38_remove_duplicates",
    "Cloudnet.C38_sort",
    "Cloudnet.C38_single_record",
    "Cloudnet.C38_nothing_left"
   ],
   "note": ""
  },
  {
   "property": "C39",
   "status": "proved",
   "theorems": [
    "Cloudnet.C39_missing",
    "Cloudnet.C39_concatenate",
    "Cloudnet.C39_failed_file_leaves_records"
   ],
   "note": "C39_failed_file_leaves_records: a file failing halfway leaves part of its records."
  },
  {
   "property": "C40",
   "status": "proved",
   "theorems": [
    "Cloudnet.C40_existing_unchanged",
    "Cloudnet.C40_update",
    "Cloudnet.C40_append",
    "Cloudnet.C40_idempotent",
    "Cloudnet.C40_order",
    "Cloudnet.C40_failures",
    "Cloudnet.C40_sequence_unchanged",
    "Cloudnet.C40_history",
    "Cloudnet.C40_gap_inserted"
   ],
   "note": "The claim that exactly the later records are appended is false: C40_gap_inserted."
  },
  {
   "property": "C41",
   "status": "proved",
   "theorems": [
    "Cloudnet.C41_merge_history",
    "Cloudnet.C41_stable",
    "Cloudnet.C41_lineage"
   ],
   "note": ""
  },
  {
   "property": "C42",
   "status": "proved",
   "theorems": [
    "Cloudnet.C42_source_uuids",
    "Cloudnet.C42_order_independent"
   ],
   "note": ""
  },
  {
   "property": "C43",
   "status": "proved",
   "theorems": [
    "Cloudnet.C43_update_attributes",
    "Cloudnet.C43_source_table",
    "Cloudnet.C43_add_source",
    "Cloudnet.C43_add_source_ok"
   ],
   "note": ""
  },
  {
   "property": "C44",
   "status": "proved",
   "theorems": [
    "Cloudnet.C44_false_radar_liquid",
    "Cloudnet.C44_undetected_melting",
    "Cloudnet.C44_filter_insects",
    "Cloudnet.C44_super_cold",
    "Cloudnet.C44_high_ldr",
    "Cloudnet.C44_dilation",
    "Cloudnet.C44_insects_in_falling",
    "Cloudnet.C44_filter_falling",
    "Cloudnet.C44_clutter",
    "Cloudnet.C44_refine",
    "Cloudnet.C44_passes",
    "Cloudnet.C44_classify",
    "Cloudnet.C44_liquid",
    "Cloudnet.C44_droplets",
    "Cloudnet.C44_insects",
    "Cloudnet.C44_succeeds",
    "Cloudnet.C44_clear_pixels_become_falling",
    "Cloudnet.C44_wraps_around_midnight",
    "Cloudnet.C44_last_profiles_kept"
   ],
   "note": "Corner cases (wrap around midnight, exempt last profiles) are theorems of their own."
  },
  {
   "property": "C45",
   "status": "proved",
   "theorems": [
    "Cloudnet.C45_array_to_probability",
    "Cloudnet.C45_find_insects",
    "Cloudnet.C45_estimates",
    "Cloudnet.C45_slanted",
    "Cloudnet.C45_probability_range",
    "Cloudnet.C45_insects_are_warm",
    "Cloudnet.C45_insects_need_radar"
   ],
   "note": ""
  },
  {
   "property": "C46",
   "status": "proved",
   "theorems": [
    "Cloudnet.C46_falling"
   ],
   "note": ""
  },
  {
   "property": "C47",
   "status": "proved",
   "theorems": [
    "Cloudnet.C47_two_way",
    "Cloudnet.C47_non_decreasing",
    "Cloudnet.C47_gas"
   ],
   "note": ""
  },
  {
   "property": "C48",
   "status": "proved",
   "theorems": [
    "Cloudnet.C48_bookkeeping",
    "Cloudnet.C48_rain_amount",
    "Cloudnet.C48_melting_amount",
    "Cloudnet.C48_liquid_amount",
    "Cloudnet.C48_missing_rain_rate_flagged_corrected",
    "Cloudnet.C48_melting_formula"
   ],
   "note": "C48_missing_rain_rate_flagged_corrected is a counterexample for missing rain rates."
  },
  {
   "property": "C49",
   "status": "proved",
   "theorems": [
    "Cloudnet.C49_correct_atten",
    "Cloudnet.C49_never_lowers",
    "Cloudnet.C49_error"
   ],
   "note": ""
  },
  {
   "property": "C50",
   "status": "proved",
   "theorems": [
    "Cloudnet.C50_incomplete_pixels",
    "Cloudnet.C50_raises"
   ],
   "note": ""
  },
  {
   "property": "C51",
   "status": "proved",
   "theorems": [
    "Cloudnet.C51_pointing",
    "Cloudnet.C51_unknown_azimuth_kept",
    "Cloudnet.C51_second_profile_missing",
    "Cloudnet.C51_bad_angles"
   ],
   "note": "C51_unknown_azimuth_kept, C51_second_profile_missing: unknown angles count as steady."
  },
  {
   "property": "C52",
   "status": "proved",
   "theorems": [
    "Cloudnet.C52_top_gates",
    "Cloudnet.C52_screen",
    "Cloudnet.C52_unchanged",
    "Cloudnet.C52_smooth",
    "Cloudnet.C52_smooth_clear"
   ],
   "note": ""
  },
  {
   "property": "C53",
   "status": "proved",
   "theorems": [
    "Cloudnet.C53_missing",
    "Cloudnet.C53_raises",
    "Cloudnet.C53_increment",
    "Cloudnet.C53_monotone",
    "Cloudnet.C53_exact",
    "Cloudnet.C53_counted_again"
   ],
   "note": "C53_counted_again: rain counted twice at a second reset."
  },
  {
   "property": "C54",
   "status": "proved",
   "theorems": [
    "Cloudnet.C54_rows",
    "Cloudnet.C54_blank_line_accepted",
    "Cloudnet.C54_spectrum",
    "Cloudnet.C54_fmi",
    "Cloudnet.C54_files",
    "Cloudnet.C54_files_misaligned",
    "Cloudnet.C54_record"
   ],
   "note": "C54_blank_line_accepted, C54_files_misaligned are counterexamples."
  },
  {
   "property": "C55",
   "status": "proved",
   "theorems": [
    "Cloudnet.C55_version1",
    "Cloudnet.C55_version2",
    "Cloudnet.C55_range"
   ],
   "note": ""
  },
  {
   "property": "C56",
   "status": "proved",
   "theorems": [
    "Cloudnet.C56_expand",
    "Cloudnet.C56_padding",
    "Cloudnet.C56_raises",
    "Cloudnet.C56_moved"
   ],
   "note": ""
  },
  {
   "property": "C57",
   "status": "proved",
   "theorems": [
    "Cloudnet.C57_flag",
    "Cloudnet.C57_screen",
    "Cloudnet.C57_unique",
    "Cloudnet.C57_date",
    "Cloudnet.C57_join",
    "Cloudnet.C57_order",
    "Cloudnet.C57_columns",
    "Cloudnet.C57_too_many",
    "Cloudnet.C57_aligned"
   ],
   "note": ""
  },
  {
   "property": "C58",
   "status": "proved",
   "theorems": [
    "Cloudnet.C58_bins",
    "Cloudnet.C58_raises"
   ],
   "note": ""
  },
  {
   "property": "C59",
   "status": "proved",
   "theorems": [
    "Cloudnet.C59_edges",
    "Cloudnet.C59_levels",
    "Cloudnet.C59_one_cell",
    "Cloudnet.C59_advection"
   ],
   "note": ""
  },
  {
   "property": "C60",
   "status": "proved",
   "theorems": [
    "Cloudnet.C60_cells",
    "Cloudnet.C60_product",
    "Cloudnet.C60_succeeds",
    "Cloudnet.C60_fractions",
    "Cloudnet.C60_area_below_volume",
    "Cloudnet.C60_cloud_bits"
   ],
   "note": "C60_area_below_volume and the zero of empty cells limit the claim."
  },
  {
   "property": "C61",
   "status": "proved",
   "theorems": [
    "Cloudnet.C61_decreases",
    "Cloudnet.C61_unchanged",
    "Cloudnet.C61_ice",
    "Cloudnet.C61_no_ice"
   ],
   "note": ""
  },
  {
   "property": "C62",
   "status": "proved",
   "theorems": [
    "Cloudnet.C62_advection_time",
    "Cloudnet.C62_bounds",
    "Cloudnet.C62_calm"
   ],
   "note": "C62_calm: calm wind gives an empty window."
  },
  {
   "property": "C63",
   "status": "proved",
   "theorems": [
    "Cloudnet.C63_wl_band"
   ],
   "note": ""
  },
  {
   "property": "C64",
   "status": "proved",
   "theorems": [
    "Cloudnet.C64_select",
    "Cloudnet.C64_files",
    "Cloudnet.C64_asked",
    "Cloudnet.C64_pid_preference_ignored",
    "Cloudnet.C64_preferences",
    "Cloudnet.C64_brackets",
    "Cloudnet.C64_products",
    "Cloudnet.C64_model"
   ],
   "note": "C64_pid_preference_ignored is a counterexample for preferences by identifier."
  },
  {
   "property": "C65",
   "status": "proved",
   "theorems": [
    "Cloudnet.C65_screening",
    "Cloudnet.C65_kept_profiles"
   ],
   "note": ""
  },
  {
   "property": "C66",
   "status": "proved",
   "theorems": [
    "Cloudnet.C66_output",
    "Cloudnet.C66_raises"
   ],
   "note": ""
  },
  {
   "property": "C67",
   "status": "proved",
   "theorems": [
    "Cloudnet.C67_rain",
    "Cloudnet.C67_clutter",
    "Cloudnet.C67_single_profile_raises",
    "Cloudnet.C67_clutter_reported_in_rain"
   ],
   "note": ""
  },
  {
   "property": "C68",
   "status": "proved",
   "theorems": [
    "Cloudnet.C68_zero_altitude",
    "Cloudnet.C68_zero_altitude_bounds",
    "Cloudnet.C68_melting_altitude",
    "Cloudnet.C68_freezing_region",
    "Cloudnet.C68_upward_closed",
    "Cloudnet.C68_highest_gate",
    "Cloudnet.C68_raises"
   ],
   "note": ""
  },
  {
   "property": "C69",
   "status": "proved",
   "theorems": [
    "Cloudnet.C69_l2norm",
    "Cloudnet.C69_l2norm_bounds",
    "Cloudnet.C69_l2norm_weighted"
   ],
   "note": ""
  },
  {
   "property": "C70",
   "status": "proved",
   "theorems": [
    "Cloudnet.C70_velocity",
    "Cloudnet.C70_equal_velocities",
    "Cloudnet.C70_folding",
    "Cloudnet.C70_dealiased"
   ],
   "note": ""
  },
  {
   "property": "C71",
   "status": "proved",
   "theorems": [
    "Cloudnet.C71_classification_file"
   ],
   "note": ""
  },
  {
   "property": "C72",
   "status": "proved",
   "theorems": [
    "Cloudnet.C72_drizzle_retrieval",
    "Cloudnet.C72_positive",
    "Cloudnet.C72_diameter_equation"
   ],
   "note": ""
  },
  {
   "property": "C73",
   "status": "proved",
   "theorems": [
    "Cloudnet.C73_drizzle_products",
    "Cloudnet.C73_table_position"
   ],
   "note": ""
  },
  {
   "property": "C74",
   "status": "proved",
   "theorems": [
    "Cloudnet.C74_bisect_left"
   ],
   "note": ""
  },
  {
   "property": "C75",
   "status": "proved",
   "theorems": [
    "Cloudnet.C75_edges2mid"
   ],
   "note": ""
  },
  {
   "property": "C76",
   "status": "proved",
   "theorems": [
    "Cloudnet.C76_source_instruments",
    "Cloudnet.C76_extra_sources",
    "Cloudnet.C76_extra_sources_distinct",
    "Cloudnet.C76_extra_sources_repeated"
   ],
   "note": ""
  },
  {
   "property": "C77",
   "status": "proved",
   "theorems": [
    "Cloudnet.C77_copy_variables",
    "Cloudnet.C77_copy_global"
   ],
   "note": ""
  },
  {
   "property": "C78",
   "status": "proved",
   "theorems": [
    "Cloudnet.C78_lwc_error",
    "Cloudnet.C78_bounds",
    "Cloudnet.C78_gradient"
   ],
   "note": ""
  },
  {
   "property": "C79",
   "status": "proved",
   "theorems": [
    "Cloudnet.C79_round",
    "Cloudnet.C79_median_step",
    "Cloudnet.C79_n_elements"
   ],
   "note": ""
  },
  {
   "property": "C80",
   "status": "proved",
   "theorems": [
    "Cloudnet.C80_find_liquid",
    "Cloudnet.C80_raises",
    "Cloudnet.C80_distance",
    "Cloudnet.C80_defaults"
   ],
   "note": ""
  },
  {
   "property": "C81",
   "status": "proved",
   "theorems": [
    "Cloudnet.C81_interpolate_lwp",
    "Cloudnet.C81_zero",
    "Cloudnet.C81_measured_values_replaced"
   ],
   "note": ""
  },
  {
   "property": "C82",
   "status": "proved",
   "theorems": [
    "Cloudnet.C82_from_ldr",
    "Cloudnet.C82_from_v",
    "Cloudnet.C82_layer",
    "Cloudnet.C82_raises",
    "Cloudnet.C82_round",
    "Cloudnet.C82_profile",
    "Cloudnet.C82_smoothing",
    "Cloudnet.C82_find",
    "Cloudnet.C82_find_smooth",
    "Cloudnet.C82_differences"
   ],
   "note": ""
  },
  {
   "property": "C83",
   "status": "proved",
   "theorems": [
    "Cloudnet.C83_first_gate",
    "Cloudnet.C83_spike",
    "Cloudnet.C83_stripes"
   ],
   "note": ""
  },
  {
   "property": "C84",
   "status": "proved",
   "theorems": [
    "Cloudnet.C84_sensitivity",
    "Cloudnet.C84_precision"
   ],
   "note": ""
  },
  {
   "property": "C85",
   "status": "proved",
   "theorems": [
    "Cloudnet.C85_closest_time"
   ],
   "note": ""
  },
  {
   "property": "C86",
   "status": "proved",
   "theorems": [
    "Cloudnet.C86_chirps",
    "Cloudnet.C86_raises"
   ],
   "note": ""
  },
  {
   "property": "C87",
   "status": "proved",
   "theorems": [
    "Cloudnet.C87_lidar",
    "Cloudnet.C87_lidar_refused",
    "Cloudnet.C87_lidar_order"
   ],
   "note": ""
  },
  {
   "property": "C88",
   "status": "proved",
   "theorems": [
    "Cloudnet.C88_inputs"
   ],
   "note": ""
  },
  {
   "property": "C89",
   "status": "proved",
   "theorems": [
    "Cloudnet.C89_amount",
    "Cloudnet.C89_monotone"
   ],
   "note": ""
  },
  {
   "property": "C90",
   "status": "proved",
   "theorems": [
    "Cloudnet.C90_wind"
   ],
   "note": ""
  },
  {
   "property": "C91",
   "status": "proved",
   "theorems": [
    "Cloudnet.C91_zenith",
    "Cloudnet.C91_two_directions"
   ],
   "note": "C91_two_directions: ties reject all profiles."
  },
  {
   "property": "C92",
   "status": "proved",
   "theorems": [
    "Cloudnet.C92_fill",
    "Cloudnet.C92_outliers"
   ],
   "note": ""
  },
  {
   "property": "C93",
   "status": "proved",
   "theorems": [
    "Cloudnet.C93_consistent",
    "Cloudnet.C93_snr",
    "Cloudnet.C93_top_gates",
    "Cloudnet.C93_first_gates",
    "Cloudnet.C93_power",
    "Cloudnet.C93_ldr"
   ],
   "note": ""
  },
  {
   "property": "C94",
   "status": "proved",
   "theorems": [
    "Cloudnet.C94_height"
   ],
   "note": ""
  },
  {
   "property": "C95",
   "status": "proved",
   "theorems": [
    "Cloudnet.C95_depol",
    "Cloudnet.C95_sunbeam",
    "Cloudnet.C95_sunbeam_few_gates",
    "Cloudnet.C95_sigma",
    "Cloudnet.C95_limit"
   ],
   "note": "C95_sunbeam_few_gates: nothing is removed with fewer than 20 high gates."
  },
  {
   "property": "C96",
   "status": "proved",
   "theorems": [
    "Cloudnet.C96_errors",
    "Cloudnet.C96_common_area"
   ],
   "note": ""
  },
  {
   "property": "C97",
   "status": "proved",
   "theorems": [
    "Cloudnet.C97_levels",
    "Cloudnet.C97_water_content",
    "Cloudnet.C97_limit",
    "Cloudnet.C97_resolution",
    "Cloudnet.C97_iwc_status"
   ],
   "note": ""
  },
  {
   "property": "C98",
   "status": "proved",
   "theorems": [
    "Cloudnet.C98_getvar",
    "Cloudnet.C98_time",
    "Cloudnet.C98_time_units",
    "Cloudnet.C98_first_seconds",
    "Cloudnet.C98_altitude",
    "Cloudnet.C98_height",
    "Cloudnet.C98_above_ground"
   ],
   "note": "C98_first_seconds: seconds up to 25 are read as hours."
  },
  {
   "property": "C99",
   "status": "proved",
   "theorems": [
    "Cloudnet.C99_quality",
    "Cloudnet.C99_error",
    "Cloudnet.C99_error_monotone",
    "Cloudnet.C99_grid"
   ],
   "note": ""
  },
  {
   "property": "C100",
   "status": "proved",
   "theorems": [
    "Cloudnet.C100_variables",
    "Cloudnet.C100_grid"
   ],
   "note": ""
  },
  {
   "property": "C101",
   "status": "proved",
   "theorems": [
    "Cloudnet.C101_lin2db",
    "Cloudnet.C101_db2lin",
    "Cloudnet.C101_round_trip"
   ],
   "note": ""
  },
  {
   "property": "C102",
   "status": "proved",
   "theorems": [
    "Cloudnet.C102_gate",
    "Cloudnet.C102_reflectivity",
    "Cloudnet.C102_too_long",
    "Cloudnet.C102_range",
    "Cloudnet.C102_accepted",
    "Cloudnet.C102_profiles",
    "Cloudnet.C102_screening",
    "Cloudnet.C102_no_profiles",
    "Cloudnet.C102_other_days"
   ],
   "note": "C102_no_profiles and C102_other_days limit the claim."
  },
  {
   "property": "C103",
   "status": "proved",
   "theorems": [
    "Cloudnet.C103_variance_odd",
    "Cloudnet.C103_variance_even",
    "Cloudnet.C103_velocity_scale",
    "Cloudnet.C103_bands",
    "Cloudnet.C103_dissipation_rate",
    "Cloudnet.C103_inertial_subrange",
    "Cloudnet.C103_bands_cover"
   ],
   "note": ""
  },
  {
   "property": "C104",
   "status": "proved",
   "theorems": [
    "Cloudnet.C104_cell",
    "Cloudnet.C104_positive",
    "Cloudnet.C104_times",
    "Cloudnet.C104_windows",
    "Cloudnet.C104_fast_radar",
    "Cloudnet.C104_moving_gap",
    "Cloudnet.C104_stationary"
   ],
   "note": "C104_fast_radar and C104_moving_gap limit the claim."
  },
  {
   "property": "C105",
   "status": "proved",
   "theorems": [
    "Cloudnet.C105_wind_bounds",
    "Cloudnet.C105_wind_exact",
    "Cloudnet.C105_surface"
   ],
   "note": ""
  },
  {
   "property": "C106",
   "status": "proved",
   "theorems": [
    "Cloudnet.C106_extension",
    "Cloudnet.C106_list",
    "Cloudnet.C106_directory",
    "Cloudnet.C106_numbered_file_skipped"
   ],
   "note": "C106_numbered_file_skipped is a counterexample for directories."
  },
  {
   "property": "C107",
   "status": "proved",
   "theorems": [
    "Cloudnet.C107_last",
    "Cloudnet.C107_names",
    "Cloudnet.C107_header"
   ],
   "note": ""
  },
  {
   "property": "C108",
   "status": "proved",
   "theorems": [
    "Cloudnet.C108_profiles",
    "Cloudnet.C108_times",
    "Cloudnet.C108_two_days",
    "Cloudnet.C108_midnight_last",
    "Cloudnet.C108_model",
    "Cloudnet.C108_models"
   ],
   "note": "C108_two_days and C108_midnight_last limit the claim."
  },
  {
   "property": "C109",
   "status": "proved",
   "theorems": [
    "Cloudnet.C109_copernicus",
    "Cloudnet.C109_first_gates",
    "Cloudnet.C109_galileo",
    "Cloudnet.C109_galileo_error",
    "Cloudnet.C109_basta",
    "Cloudnet.C109_clutter_ignores_reflectivity"
   ],
   "note": "C109_first_gates and C109_clutter_ignores_reflectivity: masks without the intended effect."
  },
  {
   "property": "C110",
   "status": "proved",
   "theorems": [
    "Cloudnet.C110_range_kept",
    "Cloudnet.C110_square",
    "Cloudnet.C110_galileo_select",
    "Cloudnet.C110_galileo_square"
   ],
   "note": "C110_square and C110_galileo_square: square files are damaged."
  },
  {
   "property": "C111",
   "status": "proved",
   "theorems": [
    "Cloudnet.C111_accepted",
    "Cloudnet.C111_rows",
    "Cloudnet.C111_arrays_shared"
   ],
   "note": "C111_arrays_shared: elements of an array variable share a list."
  },
  {
   "property": "C112",
   "status": "proved",
   "theorems": [
    "Cloudnet.C112_csv_variables",
    "Cloudnet.C112_galati",
    "Cloudnet.C112_lampedusa",
    "Cloudnet.C112_kenttarova",
    "Cloudnet.C112_csv_accepted",
    "Cloudnet.C112_csv_columns",
    "Cloudnet.C112_toa_tables",
    "Cloudnet.C112_csv_tables",
    "Cloudnet.C112_toa",
    "Cloudnet.C112_toa_strict",
    "Cloudnet.C112_short_line"
   ],
   "note": "C112_short_line: a short line shifts values of the missing columns. Text of numbers and dates is a parameter."
  },
  {
   "property": "C113",
   "status": "proved",
   "theorems": [
    "Cloudnet.C113_fixed",
    "Cloudnet.C113_fixed_fails",
    "Cloudnet.C113_fixed_columns",
    "Cloudnet.C113_laquila_rows",
    "Cloudnet.C113_laquila",
    "Cloudnet.C113_cluj",
    "Cloudnet.C113_hyytiala",
    "Cloudnet.C113_cluj_last_value",
    "Cloudnet.C113_title",
    "Cloudnet.C113_sirta_accepted",
    "Cloudnet.C113_sirta_columns",
    "Cloudnet.C113_limassol",
    "Cloudnet.C113_limassol_misaligned",
    "Cloudnet.C113_fixed_tables"
   ],
   "note": "C113_limassol_misaligned and C113_cluj_last_value: defects of the readers."
  },
  {
   "property": "C114",
   "status": "proved",
   "theorems": [
    "Cloudnet.C114_units",
    "Cloudnet.C114_accepted",
    "Cloudnet.C114_records",
    "Cloudnet.C114_limassol",
    "Cloudnet.C114_two_days",
    "Cloudnet.C114_same_second",
    "Cloudnet.C114_lists"
   ],
   "note": "C114_two_days and C114_same_second: limits of merging by time of day. atmoslib.c2k is taken as adding 273.15."
  },
  {
   "property": "C115",
   "status": "proved",
   "theorems": [
    "Cloudnet.C115_rain_rows",
    "Cloudnet.C115_rain_protocol",
    "Cloudnet.C115_rain_records",
    "Cloudnet.C115_rain_monotone",
    "Cloudnet.C115_sensor_line",
    "Cloudnet.C115_sensor_accepted",
    "Cloudnet.C115_sensor_records",
    "Cloudnet.C115_unsorted",
    "Cloudnet.C115_other_day"
   ],
   "note": "C115_unsorted and C115_other_day: defects. int32 overflow is not modelled."
  },
  {
   "property": "C116",
   "status": "proved",
   "theorems": [
    "Cloudnet.C116_accepted",
    "Cloudnet.C116_no_data",
    "Cloudnet.C116_columns",
    "Cloudnet.C116_toa_title",
    "Cloudnet.C116_numbered_titles",
    "Cloudnet.C116_empty_last",
    "Cloudnet.C116_headings",
    "Cloudnet.C116_kinds"
   ],
   "note": "C116_empty_last: defect."
  },
  {
   "property": "C117",
   "status": "proved",
   "theorems": [
    "Cloudnet.C117_records",
    "Cloudnet.C117_accepted",
    "Cloudnet.C117_units",
    "Cloudnet.C117_missing",
    "Cloudnet.C117_two_days",
    "Cloudnet.C117_scrambled_bins",
    "Cloudnet.C117_bin_counts",
    "Cloudnet.C117_classes",
    "Cloudnet.C117_names"
   ],
   "note": "C117_two_days and C117_scrambled_bins: defects."
  },
  {
   "property": "C118",
   "status": "proved",
   "theorems": [
    "Cloudnet.C118_accepted",
    "Cloudnet.C118_columns",
    "Cloudnet.C118_variables",
    "Cloudnet.C118_stamped_line",
    "Cloudnet.C118_files",
    "Cloudnet.C118_one_bad_telegram"
   ],
   "note": "C118_one_bad_telegram: one bad telegram rejects the file. Counts over 16 bits are not modelled."
  },
  {
   "property": "C119",
   "status": "proved",
   "theorems": [
    "Cloudnet.C119_lines",
    "Cloudnet.C119_files",
    "Cloudnet.C119_records",
    "Cloudnet.C119_no_date",
    "Cloudnet.C119_other_day",
    "Cloudnet.C119_bins",
    "Cloudnet.C119_speeds",
    "Cloudnet.C119_concentration",
    "Cloudnet.C119_values",
    "Cloudnet.C119_decimal"
   ],
   "note": "C119_no_date and C119_other_day: defects. Intervals of zero and rounding are not modelled."
  },
  {
   "property": "C120",
   "status": "proved",
   "theorems": [
    "Cloudnet.C120_columns",
    "Cloudnet.C120_aligned",
    "Cloudnet.C120_misaligned",
    "Cloudnet.C120_fields",
    "Cloudnet.C120_missing"
   ],
   "note": "C120_misaligned is a defect. The parsers of numbers and times are parameters."
  },
  {
   "property": "C121",
   "status": "proved",
   "theorems": [
    "Cloudnet.C121_columns",
    "Cloudnet.C121_aligned",
    "Cloudnet.C121_aligned_date",
    "Cloudnet.C121_short_year",
    "Cloudnet.C121_spectrum",
    "Cloudnet.C121_hyytiala",
    "Cloudnet.C121_message",
    "Cloudnet.C121_blocks",
    "Cloudnet.C121_unreadable",
    "Cloudnet.C121_readable",
    "Cloudnet.C121_dispatch",
    "Cloudnet.C121_netcdf",
    "Cloudnet.C121_kinetic_energy",
    "Cloudnet.C121_sensor_heads",
    "Cloudnet.C121_leipzig",
    "Cloudnet.C121_numbers",
    "Cloudnet.C121_dispatch_netcdf",
    "Cloudnet.C121_kinds",
    "Cloudnet.C121_variables",
    "Cloudnet.C121_decimal"
   ],
   "note": "C121_short_year, C121_unreadable, C121_kinetic_energy and C121_sensor_heads: defects. Parsers and the regular expression that finds blocks are parameters."
  },
  {
   "property": "C122",
   "status": "proved",
   "theorems": [
    "Cloudnet.C122_range_columns",
    "Cloudnet.C122_stamp",
    "Cloudnet.C122_reader",
    "Cloudnet.C122_raw",
    "Cloudnet.C122_empty_field",
    "Cloudnet.C122_unsigned",
    "Cloudnet.C122_file",
    "Cloudnet.C122_wvr_needed",
    "Cloudnet.C122_wvr",
    "Cloudnet.C122_numeric",
    "Cloudnet.C122_datetime",
    "Cloudnet.C122_closest",
    "Cloudnet.C122_superblocks",
    "Cloudnet.C122_records"
   ],
   "note": "C122_empty_field, C122_unsigned: defects; C122_closest: no limit on the distance."
  },
  {
   "property": "C123",
   "status": "proved",
   "theorems": [
    "Cloudnet.C123_day",
    "Cloudnet.C123_day_exists",
    "Cloudnet.C123_height",
    "Cloudnet.C123_no_date",
    "Cloudnet.C123_wrong_date"
   ],
   "note": "C123_wrong_date: defect; C123_day_exists: a variable missing in one file is an error."
  },
  {
   "property": "C124",
   "status": "proved",
   "theorems": [
    "Cloudnet.C124_profiles",
    "Cloudnet.C124_determined",
    "Cloudnet.C124_readable",
    "Cloudnet.C124_range",
    "Cloudnet.C124_range_selected",
    "Cloudnet.C124_instrument"
   ],
   "note": "C124_range_selected: defect."
  },
  {
   "property": "C125",
   "status": "proved",
   "theorems": [
    "Cloudnet.C125_given",
    "Cloudnet.C125_text",
    "Cloudnet.C125_netcdf",
    "Cloudnet.C125_unrecognised",
    "Cloudnet.C125_negatives",
    "Cloudnet.C125_beta",
    "Cloudnet.C125_depol",
    "Cloudnet.C125_depol_unmasked",
    "Cloudnet.C125_version",
    "Cloudnet.C125_version_characters",
    "Cloudnet.C125_lufft"
   ],
   "note": "C125_unrecognised, C125_depol_unmasked, C125_version_characters: defects."
  },
  {
   "property": "C126",
   "status": "proved",
   "theorems": [
    "Cloudnet.C126_pairs",
    "Cloudnet.C126_channel",
    "Cloudnet.C126_rows",
    "Cloudnet.C126_errors",
    "Cloudnet.C126_epoch",
    "Cloudnet.C126_wavelength_new",
    "Cloudnet.C126_wavelength_history",
    "Cloudnet.C126_screening",
    "Cloudnet.C126_zenith",
    "Cloudnet.C126_masked_profiles",
    "Cloudnet.C126_zenith_key"
   ],
   "note": "C126_wavelength_history, C126_epoch, C126_zenith: defects."
  },
  {
   "property": "C127",
   "status": "proved",
   "theorems": [
    "Cloudnet.C127_records",
    "Cloudnet.C127_accepted",
    "Cloudnet.C127_times",
    "Cloudnet.C127_zenith",
    "Cloudnet.C127_zenith_all",
    "Cloudnet.C127_date",
    "Cloudnet.C127_single_record",
    "Cloudnet.C127_files",
    "Cloudnet.C127_two_days"
   ],
   "note": "C127_zenith, C127_date, C127_single_record: defects."
  },
  {
   "property": "C128",
   "status": "proved",
   "theorems": [
    "Cloudnet.C128_columns",
    "Cloudnet.C128_no_empty_range",
    "Cloudnet.C128_numbers",
    "Cloudnet.C128_constants",
    "Cloudnet.C128_customer",
    "Cloudnet.C128_chirps",
    "Cloudnet.C128_single_chirp",
    "Cloudnet.C128_instrument",
    "Cloudnet.C128_units",
    "Cloudnet.C128_example",
    "Cloudnet.C128_files",
    "Cloudnet.C128_no_files",
    "Cloudnet.C128_range",
    "Cloudnet.C128_profiles",
    "Cloudnet.C128_vectors"
   ],
   "note": "C128_single_chirp, C128_example: defects."
  },
  {
   "property": "C129",
   "status": "proved",
   "theorems": [
    "Cloudnet.C129_saved_iff",
    "Cloudnet.C129_file",
    "Cloudnet.C129_title",
    "Cloudnet.C129_digits",
    "Cloudnet.C129_failure"
   ],
   "note": "C129_failure: a defect."
  },
  {
   "property": "C130",
   "status": "proved",
   "theorems": [
    "Cloudnet.C130_identifier",
    "Cloudnet.C130_variables",
    "Cloudnet.C130_attributes",
    "Cloudnet.C130_saved_iff",
    "Cloudnet.C130_failure",
    "Cloudnet.C130_references"
   ],
   "note": "C130_failure: a defect."
  },
  {
   "property": "C131",
   "status": "proved",
   "theorems": [
    "Cloudnet.C131_saved_iff",
    "Cloudnet.C131_file"
   ],
   "note": "The example beside C131_file shows the empty first line of the source."
  },
  {
   "property": "C132",
   "status": "proved",
   "theorems": [
    "Cloudnet.C132_saved_iff",
    "Cloudnet.C132_names",
    "Cloudnet.C132_file"
   ],
   "note": "The example beside C132_file shows the lost histories."
  },
  {
   "property": "C133",
   "status": "proved",
   "theorems": [
    "Cloudnet.C133_accepted",
    "Cloudnet.C133_missing_flags",
    "Cloudnet.C133_times",
    "Cloudnet.C133_zenith",
    "Cloudnet.C133_l1c_iff",
    "Cloudnet.C133_l1c_file",
    "Cloudnet.C133_coefficients",
    "Cloudnet.C133_harmonized_iff",
    "Cloudnet.C133_harmonized",
    "Cloudnet.C133_generated_iff",
    "Cloudnet.C133_chain"
   ],
   "note": "C133_chain, C133_missing_flags, C133_times, C133_generated_iff: defects."
  },
  {
   "property": "C134",
   "status": "proved",
   "theorems": [
    "Cloudnet.C134_source",
    "Cloudnet.C134_error",
    "Cloudnet.C134_raises",
    "Cloudnet.C134_position",
    "Cloudnet.C134_alone",
    "Cloudnet.C134_altitude",
    "Cloudnet.C134_longitude",
    "Cloudnet.C134_sign",
    "Cloudnet.C134_gps"
   ],
   "note": "C134_longitude, C134_sign, C134_alone: defects."
  },
  {
   "property": "C135",
   "status": "proved",
   "theorems": [
    "Cloudnet.C135_date",
    "Cloudnet.C135_fallback",
    "Cloudnet.C135_incomplete",
    "Cloudnet.C135_units"
   ],
   "note": "C135_units, C135_incomplete: defects."
  },
  {
   "property": "C136",
   "status": "proved",
   "theorems": [
    "Cloudnet.C136_cell",
    "Cloudnet.C136_edge",
    "Cloudnet.C136_values",
    "Cloudnet.C136_error",
    "Cloudnet.C136_known",
    "Cloudnet.C136_inside",
    "Cloudnet.C136_range",
    "Cloudnet.C136_affine",
    "Cloudnet.C136_node",
    "Cloudnet.C136_above",
    "Cloudnet.C136_below",
    "Cloudnet.C136_complete",
    "Cloudnet.C136_outside",
    "Cloudnet.C136_hidden_fill"
   ],
   "note": "C136_hidden_fill: defect of interpolate_model."
  },
  {
   "property": "C137",
   "status": "proved",
   "theorems": [
    "Cloudnet.C137_type",
    "Cloudnet.C137_unknown_type",
    "Cloudnet.C137_heights",
    "Cloudnet.C137_common_heights",
    "Cloudnet.C137_variables",
    "Cloudnet.C137_profile",
    "Cloudnet.C137_hidden",
    "Cloudnet.C137_raises",
    "Cloudnet.C137_too_few",
    "Cloudnet.C137_target_heights",
    "Cloudnet.C137_gaps",
    "Cloudnet.C137_linear",
    "Cloudnet.C137_attenuations",
    "Cloudnet.C137_attenuation_level",
    "Cloudnet.C137_wet_bulb"
   ],
   "note": "C137_hidden, C137_attenuation_level: defects."
  },
  {
   "property": "C138",
   "status": "proved",
   "theorems": [
    "Cloudnet.C138_ordinal",
    "Cloudnet.C138_single",
    "Cloudnet.C138_joined",
    "Cloudnet.C138_fails",
    "Cloudnet.C138_units",
    "Cloudnet.C138_returned_not_used",
    "Cloudnet.C138_truncate",
    "Cloudnet.C138_text"
   ],
   "note": "C138_single, C138_units, C138_returned_not_used, C138_truncate: defects."
  },
  {
   "property": "C139",
   "status": "proved",
   "theorems": [
    "Cloudnet.C139_iwc",
    "Cloudnet.C139_error",
    "Cloudnet.C139_uncorrected",
    "Cloudnet.C139_sensitivity",
    "Cloudnet.C139_bias",
    "Cloudnet.C139_written",
    "Cloudnet.C139_status",
    "Cloudnet.C139_ier"
   ],
   "note": "C139_uncorrected, C139_bias: defects."
  },
  {
   "property": "C140",
   "status": "proved",
   "theorems": [
    "Cloudnet.C140_known",
    "Cloudnet.C140_distribution",
    "Cloudnet.C140_closure",
    "Cloudnet.C140_number",
    "Cloudnet.C140_zero_path",
    "Cloudnet.C140_errors",
    "Cloudnet.C140_written",
    "Cloudnet.C140_status",
    "Cloudnet.C140_defaults"
   ],
   "note": "C140_closure (every layer gets the whole path), C140_number, C140_zero_path, C140_errors: limits and defects."
  },
  {
   "property": "C141",
   "status": "proved",
   "theorems": [
    "Cloudnet.C141_reader",
    "Cloudnet.C141_made",
    "Cloudnet.C141_stops",
    "Cloudnet.C141_level2_path",
    "Cloudnet.C141_level2_elsewhere",
    "Cloudnet.C141_kept",
    "Cloudnet.C141_untouched",
    "Cloudnet.C141_force_replaces",
    "Cloudnet.C141_download_only",
    "Cloudnet.C141_names",
    "Cloudnet.C141_observations",
    "Cloudnet.C141_basta"
   ],
   "note": "C141_reader, C141_level2_elsewhere, C141_force_replaces, C141_download_only: defects of the command line tool. HTTP requests, unzipping and plotting are not modelled."
  },
  {
   "property": "C142",
   "status": "proved",
   "theorems": [
    "Cloudnet.C142_written",
    "Cloudnet.C142_content",
    "Cloudnet.C142_closure",
    "Cloudnet.C142_status",
    "Cloudnet.C142_error",
    "Cloudnet.C142_added_empty",
    "Cloudnet.C142_superadiabatic"
   ],
   "note": "C142_added_empty and C142_superadiabatic: the extension of clouds changes the status only, not the content. `atmoslib.adiabatic_lwc_gradient` is a parameter assumed positive."
  },
  {
   "property": "C143",
   "status": "proved",
   "theorems": [
    "Cloudnet.C143_factor",
    "Cloudnet.C143_no_wind",
    "Cloudnet.C143_width",
    "Cloudnet.C143_unknown_width",
    "Cloudnet.C143_biases",
    "Cloudnet.C143_number_bias",
    "Cloudnet.C143_written",
    "Cloudnet.C143_known",
    "Cloudnet.C143_values",
    "Cloudnet.C143_status",
    "Cloudnet.C143_status_without_retrieval",
    "Cloudnet.C143_file_biases",
    "Cloudnet.C143_errors",
    "Cloudnet.C143_velocity"
   ],
   "note": "C143_status_without_retrieval, C143_unknown_width and C143_number_bias are findings. Tables are parameters with positive entries; a masked corrected width compares false with every width."
  },
  {
   "property": "C144",
   "status": "proved",
   "theorems": [
    "Cloudnet.C144_written",
    "Cloudnet.C144_all_known",
    "Cloudnet.C144_on_a_line",
    "Cloudnet.C144_measured",
    "Cloudnet.C144_between",
    "Cloudnet.C144_range",
    "Cloudnet.C144_same_profile",
    "Cloudnet.C144_accumulation",
    "Cloudnet.C144_history",
    "Cloudnet.C144_attributes_needed",
    "Cloudnet.C144_attributes"
   ],
   "note": "C144_all_known and C144_on_a_line are findings. Triangulation and nearest point of scipy are parameters with their defining properties as hypotheses; the turbulence itself is computed by the library doppy and not modelled."
  },
  {
   "property": "C145",
   "status": "proved",
   "theorems": [
    "Cloudnet.C145_profiles",
    "Cloudnet.C145_increasing",
    "Cloudnet.C145_hatched",
    "Cloudnet.C145_figure",
    "Cloudnet.C145_model_profiles",
    "Cloudnet.C145_model_hatched",
    "Cloudnet.C145_model_gap",
    "Cloudnet.C145_model_rounding"
   ],
   "note": "C145_model_profiles and C145_model_rounding contain findings."
  },
  {
   "property": "C146",
   "status": "proved",
   "theorems": [
    "Cloudnet.C146_runs",
    "Cloudnet.C146_window",
    "Cloudnet.C146_mean",
    "Cloudnet.C146_range",
    "Cloudnet.C146_curves",
    "Cloudnet.C146_across_gap",
    "Cloudnet.C146_direction",
    "Cloudnet.C146_same_direction",
    "Cloudnet.C146_calm"
   ],
   "note": "C146_across_gap and C146_calm are findings."
  },
  {
   "property": "C147",
   "status": "proved",
   "theorems": [
    "Cloudnet.C147_classes",
    "Cloudnet.C147_gates",
    "Cloudnet.C147_all_above",
    "Cloudnet.C147_cells",
    "Cloudnet.C147_reach",
    "Cloudnet.C147_limits",
    "Cloudnet.C147_margins",
    "Cloudnet.C147_batches",
    "Cloudnet.C147_shaded",
    "Cloudnet.C147_single_flag",
    "Cloudnet.C147_name",
    "Cloudnet.C147_variables",
    "Cloudnet.C147_bad_channel"
   ],
   "note": "C147_all_above, C147_single_flag and C147_bad_channel are findings. Drawing by matplotlib is not modelled."
  },
  {
   "property": "C148",
   "status": "proved",
   "theorems": [
    "Cloudnet.C148_decibels",
    "Cloudnet.C148_bounds",
    "Cloudnet.C148_scale",
    "Cloudnet.C148_on_grid",
    "Cloudnet.C148_variability",
    "Cloudnet.C148_rejected",
    "Cloudnet.C148_for_categorize",
    "Cloudnet.C148_values"
   ],
   "note": "C148_rejected contains the finding on prf. The expansion of the folding velocity to all pixels is C70."
  },
  {
   "property": "C149",
   "status": "proved",
   "theorems": [
    "Cloudnet.C149_rejected",
    "Cloudnet.C149_cloud_fraction",
    "Cloudnet.C149_ice",
    "Cloudnet.C149_liquid",
    "Cloudnet.C149_cirrus_present",
    "Cloudnet.C149_cirrus_values",
    "Cloudnet.C149_sensitivity",
    "Cloudnet.C149_sensitivity_height_fails",
    "Cloudnet.C149_shear_fails"
   ],
   "note": "C149_shear_fails and C149_sensitivity_height_fails are findings. Winds and heights of the model are assumed to have no missing values. Writing the file is not part of it."
  },
  {
   "property": "C150",
   "status": "proved",
   "theorems": [
    "Cloudnet.C150_rejected",
    "Cloudnet.C150_rows",
    "Cloudnet.C150_date",
    "Cloudnet.C150_empty_file",
    "Cloudnet.C150_lower_case",
    "Cloudnet.C150_lower_iwv_fails",
    "Cloudnet.C150_same_kind",
    "Cloudnet.C150_crash",
    "Cloudnet.C150_read"
   ],
   "note": "C150_empty_file, C150_lower_case and C150_lower_iwv_fails are findings. Sorting is any argsort. The decoding of bytes to records is not modelled."
  },
  {
   "property": "C151",
   "status": "proved",
   "theorems": [
    "Cloudnet.C151_profiles",
    "Cloudnet.C151_backscatter",
    "Cloudnet.C151_screened",
    "Cloudnet.C151_depolarisation",
    "Cloudnet.C151_made",
    "Cloudnet.C151_height",
    "Cloudnet.C151_sunbeams",
    "Cloudnet.C151_square"
   ],
   "note": "C151_square is a finding. Gaussian filter, square root, cosine and data under the mask are arbitrary functions; masked values inside beta_att are not modelled (all or none)."
  },
  {
   "property": "C152",
   "status": "proved",
   "theorems": [
    "Cloudnet.C152_times",
    "Cloudnet.C152_basta_profiles",
    "Cloudnet.C152_basta_single",
    "Cloudnet.C152_basta_height",
    "Cloudnet.C152_opened",
    "Cloudnet.C152_date",
    "Cloudnet.C152_basta_made",
    "Cloudnet.C152_basta_units",
    "Cloudnet.C152_bowtie_values",
    "Cloudnet.C152_bowtie_height",
    "Cloudnet.C152_bowtie_made",
    "Cloudnet.C152_bowtie_single",
    "Cloudnet.C152_basta_date"
   ],
   "note": "C152_basta_single, C152_basta_date, C152_basta_units and C152_bowtie_single are findings. Times are assumed to be known; pixels of reflectivity and velocity have the shape of the background mask; cosine, float, int, fromisoformat and argsort are arbitrary functions (argsort any sorting permutation)."
  },
  {
   "property": "C153",
   "status": "proved",
   "theorems": [
    "Cloudnet.C153_read",
    "Cloudnet.C153_copernicus",
    "Cloudnet.C153_copernicus_made",
    "Cloudnet.C153_galileo",
    "Cloudnet.C153_galileo_made",
    "Cloudnet.C153_in_order",
    "Cloudnet.C153_next_day"
   ],
   "note": "C153_next_day is a finding. Elevations and SNR are assumed to be known, the number of profiles different from the number of gates (C110), and the altitude a number; variables with one value per profile other than time and angles are left out."
  },
  {
   "property": "C154",
   "status": "proved",
   "theorems": [
    "Cloudnet.C154_day",
    "Cloudnet.C154_made",
    "Cloudnet.C154_two_days"
   ],
   "note": "C154_two_days is a finding (the docstring warns of it). The number of times is assumed to differ from the number of gates and chirps (C110); other variables with one value per time are selected in the same way and left out; which of the profiles with the same time of day is kept is up to the sort, so C154_made assumes different times."
  },
  {
   "property": "C155",
   "status": "proved",
   "theorems": [
    "Cloudnet.C155_int",
    "Cloudnet.C155_fd12p_date",
    "Cloudnet.C155_fd12p_text",
    "Cloudnet.C155_fd12p_time",
    "Cloudnet.C155_parsivel_date",
    "Cloudnet.C155_parsivel_time",
    "Cloudnet.C155_radiometrics_time",
    "Cloudnet.C155_radiometrics_date",
    "Cloudnet.C155_parsivel_datetime",
    "Cloudnet.C155_written_date",
    "Cloudnet.C155_damaged"
   ],
   "note": "C155_damaged is a finding. Digits are those of ASCII and white space is blank, tab, carriage return and line feed; Python knows more of both."
  },
  {
   "property": "C156",
   "status": "proved",
   "theorems": [
    "Cloudnet.C156_figures",
    "Cloudnet.C156_not_drawn",
    "Cloudnet.C156_small",
    "Cloudnet.C156_classes",
    "Cloudnet.C156_rolling",
    "Cloudnet.C156_vertical",
    "Cloudnet.C156_histogram",
    "Cloudnet.C156_heights",
    "Cloudnet.C156_error_panels",
    "Cloudnet.C156_area_panels",
    "Cloudnet.C156_order",
    "Cloudnet.C156_no_model",
    "Cloudnet.C156_image"
   ],
   "note": "C156_not_drawn and C156_order are findings. Figures are modelled by the data handed to the plotting library; rounding of histograms is a parameter and that of errors is left out."
  },
  {
   "property": "C157",
   "status": "proved",
   "theorems": [
    "Cloudnet.C157_height",
    "Cloudnet.C157_model_height",
    "Cloudnet.C157_satellite_height",
    "Cloudnet.C157_out_of_range",
    "Cloudnet.C157_units",
    "Cloudnet.C157_labels",
    "Cloudnet.C157_superscripts",
    "Cloudnet.C157_image",
    "Cloudnet.C157_rain_scale",
    "Cloudnet.C157_tb",
    "Cloudnet.C157_tb_flags",
    "Cloudnet.C157_last_channel",
    "Cloudnet.C157_flags",
    "Cloudnet.C157_ticks"
   ],
   "note": "C157_rain_scale, C157_tb_flags and C157_last_channel are findings. Letters and digits of units are those of ASCII; zenith angles are numbers; smoothing in time is left out."
  },
  {
   "property": "C158",
   "status": "proved",
   "theorems": [
    "Cloudnet.C158_without_fault",
    "Cloudnet.C158_interrupted",
    "Cloudnet.C158_return",
    "Cloudnet.C158_retry_clean",
    "Cloudnet.C158_retry_loses"
   ],
   "note": "C158_retry_loses is a finding. A variable is written as a whole or not at all; times of the old file are known."
  },
  {
   "property": "C159",
   "status": "proved",
   "theorems": [
    "Cloudnet.C159_level1b",
    "Cloudnet.C159_hatpro_l1c",
    "Cloudnet.C159_categorize",
    "Cloudnet.C159_level3",
    "Cloudnet.C159_product",
    "Cloudnet.C159_level3_rerun"
   ],
   "note": "C159_hatpro_l1c is a finding. Content and attributes of a variable are one step; the file is as if each step reached the disk in order."
  },
  {
   "property": "C160",
   "status": "proved",
   "theorems": [
    "Cloudnet.C160_instrument",
    "Cloudnet.C160_instrument_units",
    "Cloudnet.C160_comments",
    "Cloudnet.C160_categorize",
    "Cloudnet.C160_sources",
    "Cloudnet.C160_threads",
    "Cloudnet.C160_threads_mixed",
    "Cloudnet.C160_l3_time",
    "Cloudnet.C160_l3"
   ],
   "note": "C160_threads and C160_threads_mixed are findings. C160_categorize assumes that variables of an instrument are in the file only if the instrument is there, which generate_categorize ensures. The dictionaries are modelled as functions from keys to entries; the order of keys does not matter for the file."
  },
  {
   "property": "C161",
   "status": "proved",
   "theorems": [
    "Cloudnet.C161_files",
    "Cloudnet.C161_others",
    "Cloudnet.C161_folder_stale",
    "Cloudnet.C161_folder_origin",
    "Cloudnet.C161_listed",
    "Cloudnet.C161_joined",
    "Cloudnet.C161_same_name",
    "Cloudnet.C161_damaged",
    "Cloudnet.C161_checksum",
    "Cloudnet.C161_plot",
    "Cloudnet.C161_image",
    "Cloudnet.C161_image_elsewhere",
    "Cloudnet.C161_unlisted"
   ],
   "note": "C161_folder_stale, C161_same_name, C161_image_elsewhere and C161_unlisted are findings. The client of the portal is external: whether it keeps an existing file is a parameter, and without --force-download the theorems assume that it keeps only files with the content of the portal. Decompression, concatenation and the hash function are parameters."
  },
  {
   "property": "C162",
   "status": "proved",
   "theorems": [
    "Cloudnet.C162_integers",
    "Cloudnet.C162_types",
    "Cloudnet.C162_wraps",
    "Cloudnet.C162_numbers",
    "Cloudnet.C162_no_drift",
    "Cloudnet.C162_order",
    "Cloudnet.C162_fill",
    "Cloudnet.C162_times_equal",
    "Cloudnet.C162_float_types"
   ],
   "note": "C162_wraps, C162_fill and C162_times_equal are findings. Rounding is IEEE 754 to nearest, halves to even, without NaN; the fill values are those of the netCDF library. Reals are exact numbers of a linear ordered field."
  },
  {
   "property": "C163",
   "status": "proved",
   "theorems": [
    "Cloudnet.C163_products",
    "Cloudnet.C163_epsilon",
    "Cloudnet.C163_classification",
    "Cloudnet.C163_level3",
    "Cloudnet.C163_categorize",
    "Cloudnet.C163_categorize_early",
    "Cloudnet.C163_concatenate",
    "Cloudnet.C163_concatenate_success"
   ],
   "note": "C163_categorize_early and parts of the others are findings. Files are named by their role; closing does not fail; that the garbage collector may close files later is not modelled."
  },
  {
   "property": "C164",
   "status": "proved",
   "theorems": [
    "Cloudnet.C164_look",
    "Cloudnet.C164_panels",
    "Cloudnet.C164_effects",
    "Cloudnet.C164_succeeds",
    "Cloudnet.C164_marks",
    "Cloudnet.C164_alone",
    "Cloudnet.C164_sources",
    "Cloudnet.C164_axis",
    "Cloudnet.C164_footer",
    "Cloudnet.C164_footer_again",
    "Cloudnet.C164_marks_elsewhere"
   ],
   "note": "C164_marks and C164_marks_elsewhere are findings. The drawing inside of the axes is a parameter (see C145, C146, C147, C157). textwrap is modelled for words of at most 50 characters without hyphens, with single spaces between them; sizes in pixels are not modelled."
  },
  {
   "property": "C165",
   "status": "proved",
   "theorems": [
    "Cloudnet.C165_echo",
    "Cloudnet.C165_classes",
    "Cloudnet.C165_ice",
    "Cloudnet.C165_droplet_radius",
    "Cloudnet.C165_liquid",
    "Cloudnet.C165_drizzle",
    "Cloudnet.C165_uncorrected",
    "Cloudnet.C165_attenuation",
    "Cloudnet.C165_succeeds",
    "Cloudnet.C165_exclusive"
   ],
   "note": "Composes the models of C44, C47-C49, C01, C02, C71, C139, C140, C142 and C143. Errors of the echo and metadata of the file are left out (C49, C131). The regions of melting and freezing are named by the functions that find them (C82, C83). For profiles where rain is masked the number below the mask is an arbitrary input. Values that are stored are not rounded (C162)."
  },
  {
   "property": "C166",
   "status": "proved",
   "theorems": [
    "Cloudnet.C166_lidar",
    "Cloudnet.C166_mira",
    "Cloudnet.C166_mira_model",
    "Cloudnet.C166_polly",
    "Cloudnet.C166_others",
    "Cloudnet.C166_refused",
    "Cloudnet.C166_backscatter",
    "Cloudnet.C166_coefficients",
    "Cloudnet.C166_level2",
    "Cloudnet.C166_l1c",
    "Cloudnet.C166_same_names"
   ],
   "note": "Settings as a function of the answer of the portal and the names of product and instrument; composed with the models of ceilometers, MIRA and Level 2 of radiometers."
  },
  {
   "property": "C167",
   "status": "proved",
   "theorems": [
    "Cloudnet.C167_iwc",
    "Cloudnet.C167_ier",
    "Cloudnet.C167_der",
    "Cloudnet.C167_lwc",
    "Cloudnet.C167_lwc_error",
    "Cloudnet.C167_drizzle",
    "Cloudnet.C167_classification",
    "Cloudnet.C167_cloud_heights"
   ],
   "note": "Relational theorems between two runs of each product model, on a file and on any selection of its profiles; the iteration of the drizzle retrieval is followed gate by gate."
  },
  {
   "property": "C168",
   "status": "proved",
   "theorems": [
    "Cloudnet.C168_iwc",
    "Cloudnet.C168_ier",
    "Cloudnet.C168_der",
    "Cloudnet.C168_lwc"
   ],
   "note": "Relational theorems between two runs of the product models; for liquid water content both runs are assumed to succeed, since the path decides whether the adjustor fails at the top gate."
  },
  {
   "property": "C169",
   "status": "proved",
   "theorems": [
    "Cloudnet.C169_iwc",
    "Cloudnet.C169_ier",
    "Cloudnet.C169_lwc",
    "Cloudnet.C169_drizzle",
    "Cloudnet.C169_classification"
   ],
   "note": "Equality of the models of whole files for moved coordinates; the classification through its characterisation C71."
  },
  {
   "property": "C170",
   "status": "proved",
   "theorems": [
    "Cloudnet.C170_readable",
    "Cloudnet.C170_lines",
    "Cloudnet.C170_lookup",
    "Cloudnet.C170_tables",
    "Cloudnet.C170_tables_lines",
    "Cloudnet.C170_classification",
    "Cloudnet.C170_ice",
    "Cloudnet.C170_der",
    "Cloudnet.C170_lwc",
    "Cloudnet.C170_bits"
   ],
   "note": "The loop of textwrap is modelled; its splitting into chunks (a regular expression) is any function whose chunks are not empty and make up the text. Findings: values that are defined but never written."
  },
  {
   "property": "C171",
   "status": "proved",
   "theorems": [
    "Cloudnet.C171_forms",
    "Cloudnet.C171_read_back",
    "Cloudnet.C171_distinct",
    "Cloudnet.C171_canonical",
    "Cloudnet.C171_refused",
    "Cloudnet.C171_given"
   ],
   "note": "The parser and the text of uuid.UUID (standard library) are modelled; int(text, 16) is any function that reads hexadecimal digits."
  },
  {
   "property": "C172",
   "status": "proved",
   "theorems": [
    "Cloudnet.C172_dates",
    "Cloudnet.C172_del_keys",
    "Cloudnet.C172_append",
    "Cloudnet.C172_files",
    "Cloudnet.C172_timestamp",
    "Cloudnet.C172_numeric"
   ],
   "note": "int and float of Python are parameters. Findings: the end date is excluded, a key listed twice is a KeyError, impossible dates and trailing text pass for time stamps."
  },
  {
   "property": "C173",
   "status": "proved",
   "theorems": [
    "Cloudnet.C173_written",
    "Cloudnet.C173_shapes",
    "Cloudnet.C173_mira",
    "Cloudnet.C173_mira_single",
    "Cloudnet.C173_own_pixels",
    "Cloudnet.C173_single",
    "Cloudnet.C173_chirps",
    "Cloudnet.C173_unknown",
    "Cloudnet.C173_mira_categorize"
   ],
   "note": "Broadcasting by NumPy and by the netCDF library on assignment is modelled. That a scalar of several raw files becomes one value per profile is C39 (concatenation). Finding: broadcast_nyquist_velocity drops the mask."
  },
  {
   "property": "C174",
   "status": "proved",
   "theorems": [
    "Cloudnet.C174_concatenate",
    "Cloudnet.C174_mira",
    "Cloudnet.C174_lines",
    "Cloudnet.C174_weather_radar",
    "Cloudnet.C174_ties",
    "Cloudnet.C174_rain_gauge"
   ],
   "note": "Equality of whole results (errors included) under rearrangement: names are sorted, profiles are sorted by time, keys enter only by membership. Witnesses for ties and for the rain gauge."
  },
  {
   "property": "C175",
   "status": "proved",
   "theorems": [
    "Cloudnet.C175_iwc",
    "Cloudnet.C175_ier",
    "Cloudnet.C175_classification",
    "Cloudnet.C175_attenuation_status",
    "Cloudnet.C175_gas",
    "Cloudnet.C175_rain",
    "Cloudnet.C175_melting",
    "Cloudnet.C175_drizzle",
    "Cloudnet.C175_liquid"
   ],
   "note": "Two files that agree at the pixel (or at and below it) give equal values there, for every size and content elsewhere. The witness of the exception is evaluated in the kernel."
  },
  {
   "property": "C176",
   "status": "proved",
   "theorems": [
    "Cloudnet.C176_iwc",
    "Cloudnet.C176_ier",
    "Cloudnet.C176_droplets",
    "Cloudnet.C176_liquid",
    "Cloudnet.C176_liquid_error",
    "Cloudnet.C176_negative_error"
   ],
   "note": "Ranges follow for every input from the characterisations C139, C142 and the model of the droplet file. C176_negative_error states the exception."
  },
  {
   "property": "C177",
   "status": "proved",
   "theorems": [
    "Cloudnet.C177_only_masked",
    "Cloudnet.C177_errors_after",
    "Cloudnet.C177_without_errors",
    "Cloudnet.C177_settles",
    "Cloudnet.C177_order_matters",
    "Cloudnet.C177_setbit",
    "Cloudnet.C177_setbit_call"
   ],
   "note": "Induction over the sequence of calls; the number of known elements bounds how often errors can mask more. The witnesses of C177_order_matters are evaluated in the kernel. NaN and masked elements are not distinguished."
  },
  {
   "property": "C178",
   "status": "proved",
   "theorems": [
    "Cloudnet.C178_independent",
    "Cloudnet.C178_caller",
    "Cloudnet.C178_inputs",
    "Cloudnet.C178_shared"
   ],
   "note": "Separation invariant over histories: variables refer to different arrays, arrays still to be given belong to nobody. C178_shared is the exception. Arrays are masked arrays; rebinning and filters are arbitrary functions."
  },
  {
   "property": "C179",
   "status": "proved",
   "theorems": [
    "Cloudnet.C179_time_grid",
    "Cloudnet.C179_exact",
    "Cloudnet.C179_refused",
    "Cloudnet.C179_stored"
   ],
   "note": "IEEE 754 double precision with rounding to nearest even, without overflow. numpy.arange: number of points, first two elements, differences, as in its C code. Steps that divide the day: the number of points is computed in the kernel for all 96 of them (C179 needs it because the quotient is then at a rounding boundary); other steps by error analysis."
  },
  {
   "property": "C180",
   "status": "proved",
   "theorems": [
    "Cloudnet.C180_clock",
    "Cloudnet.C180_hours",
    "Cloudnet.C180_whole_seconds",
    "Cloudnet.C180_negative",
    "Cloudnet.C180_empty"
   ],
   "note": "As C179. numpy.mod is modelled as the exact remainder, rounded; C180_negative is the exception for times before the epoch."
  },
  {
   "property": "C181",
   "status": "proved",
   "theorems": [
    "Cloudnet.C181_edges",
    "Cloudnet.C181_profiles",
    "Cloudnet.C181_midnight_lost",
    "Cloudnet.C181_standard",
    "Cloudnet.C181_time_stamps",
    "Cloudnet.C181_exact"
   ],
   "note": "As C179; numpy.linspace as in its Python code. Times within 1e-12 hours of a boundary go to one of the two neighbours, which one is only stated at 0 and 24 hours (C181_standard, C181_midnight_lost)."
  },
  {
   "property": "C182",
   "status": "proved",
   "theorems": [
    "Cloudnet.C182_window",
    "Cloudnet.C182_freezing"
   ],
   "note": "As C179; numpy.ma.median of the differences, mean of the two middle ones rounded. Windows that are not a multiple of the step are rounded half to even (C79)."
  },
  {
   "property": "C183",
   "status": "proved",
   "theorems": [
    "Cloudnet.C183_time",
    "Cloudnet.C183_date",
    "Cloudnet.C183_exact",
    "Cloudnet.C183_wrong_end"
   ],
   "note": "timedelta as in the C code of Python: whole seconds exact, the fraction times a million in double precision, rounded half to even. Overflow of dates is not modelled. C183_exact shows where the model of dates with exact numbers, used by the other properties, is right."
  },
  {
   "property": "C184",
   "status": "proved",
   "theorems": [
    "Cloudnet.C184_plot",
    "Cloudnet.C184_plotted_after_failure",
    "Cloudnet.C184_l3"
   ],
   "note": "Drawing functions are parameters that return or raise. Exceptions: plotting, value, key, any other. Path(f).parent as text for paths without doubled slashes, dots or a slash at the end."
  },
  {
   "property": "C185",
   "status": "proved",
   "theorems": [
    "Cloudnet.C185_mean",
    "Cloudnet.C185_constant",
    "Cloudnet.C185_single",
    "Cloudnet.C185_mono",
    "Cloudnet.C185_nonneg",
    "Cloudnet.C185_range",
    "Cloudnet.C185_constant_changed"
   ],
   "note": "Addition row after row in float32 (numpy reduces along the first axis this way), division in double precision, result stored as float32; no overflow. Heights are independent."
  },
  {
   "property": "C186",
   "status": "proved",
   "theorems": [
    "Cloudnet.C186_near",
    "Cloudnet.C186_mono",
    "Cloudnet.C186_increasing",
    "Cloudnet.C186_altitude",
    "Cloudnet.C186_equal"
   ],
   "note": "The computed cosine is a parameter; product and sum are rounded in the precision of the computation (a parameter), the stored value in single precision."
  }
 ]
}