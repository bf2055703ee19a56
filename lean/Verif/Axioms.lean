/-
Prints, at build time, the axioms every property theorem depends on.
Generated from MANIFEST.json.
-/
import Verif.Alias.Props
import Verif.Arrays.Props
import Verif.Atmos.Props
import Verif.Attenuation.Props
import Verif.Bits.Props
import Verif.Bundle.Props
import Verif.Calib.Props
import Verif.Categorize.Props
import Verif.Ceilo.Props
import Verif.CeiloDay.Props
import Verif.Chain.Props
import Verif.ChilDay.Props
import Verif.Chilbolton.Props
import Verif.ClassFile.Props
import Verif.Classification.Props
import Verif.Classify.Props
import Verif.Cli.Props
import Verif.CliFiles.Props
import Verif.CliPlots.Props
import Verif.CliRun.Props
import Verif.Components.Props
import Verif.Concat.Props
import Verif.Crash.Props
import Verif.CrashSave.Props
import Verif.Datum.Props
import Verif.Definitions.Props
import Verif.DerFile.Props
import Verif.Disdro.Props
import Verif.Disdrom.Props
import Verif.Disdronator.Props
import Verif.Drizzle.Props
import Verif.DrizzleFile.Props
import Verif.Droplet.Props
import Verif.EpsLidar.Props
import Verif.Epsilon.Props
import Verif.Falling.Props
import Verif.Figure.Props
import Verif.FileOrder.Props
import Verif.FloatBins.Props
import Verif.FloatDate.Props
import Verif.FloatGrid.Props
import Verif.FloatHeight.Props
import Verif.FloatMean.Props
import Verif.FloatWindow.Props
import Verif.FmcwDay.Props
import Verif.Folding.Props
import Verif.Freezing.Props
import Verif.Gauge.Props
import Verif.Geo.Props
import Verif.Handles.Props
import Verif.HatproDay.Props
import Verif.Helpers.Props
import Verif.History.Props
import Verif.Ice.Props
import Verif.IceFile.Props
import Verif.InPlace.Props
import Verif.Insects.Props
import Verif.Interp.Props
import Verif.L3Day.Props
import Verif.L3Figs.Props
import Verif.Lidar.Props
import Verif.Locality.Props
import Verif.Lwc.Props
import Verif.LwcFile.Props
import Verif.Melting.Props
import Verif.Mira.Props
import Verif.ModelEval.Props
import Verif.Mrr.Props
import Verif.MwrTools.Props
import Verif.NcRadar.Props
import Verif.Nwp.Props
import Verif.Output.Props
import Verif.Plot.Props
import Verif.PlotAxes.Props
import Verif.Precip.Props
import Verif.Profiles.Props
import Verif.Radar.Props
import Verif.RadarError.Props
import Verif.RadarFile.Props
import Verif.RadarGrid.Props
import Verif.Radiometrics.Props
import Verif.Rain.Props
import Verif.Ranges.Props
import Verif.Rebin.Props
import Verif.Recalibrated.Props
import Verif.Rpg.Props
import Verif.RpgDay.Props
import Verif.Save.Props
import Verif.Search.Props
import Verif.Source.Props
import Verif.Stamps.Props
import Verif.Station.Props
import Verif.Stored.Props
import Verif.Times.Props
import Verif.WRadar.Props

#print axioms Cloudnet.C01_category_bits_round_trip
#print axioms Cloudnet.C01_category_bits_positions
#print axioms Cloudnet.C01_category_bits_injective
#print axioms Cloudnet.C02_quality_bits_round_trip
#print axioms Cloudnet.C02_quality_bits_positions
#print axioms Cloudnet.C03_corrected_subset
#print axioms Cloudnet.C03_quality_bits
#print axioms Cloudnet.C04_isbit
#print axioms Cloudnet.C04_setbit
#print axioms Cloudnet.C04_isbit_setbit
#print axioms Cloudnet.C04_setbit_idempotent_commutes
#print axioms Cloudnet.C05_target_classification
#print axioms Cloudnet.C05_target_range
#print axioms Cloudnet.C05_target_from_file
#print axioms Cloudnet.C06_detection_status
#print axioms Cloudnet.C06_detection_range
#print axioms Cloudnet.C07_signal_source
#print axioms Cloudnet.C07_signal_source_iff
#print axioms Cloudnet.C08_profile
#print axioms Cloudnet.C08_base_and_top_heights
#print axioms Cloudnet.C08_gate_at_sea_level_fails
#print axioms Cloudnet.C08_above_ground
#print axioms Cloudnet.C09_cloud_mask
#print axioms Cloudnet.C10_radar_attenuation_status
#print axioms Cloudnet.C10_low_frequency
#print axioms Cloudnet.C11_cloud_top_status
#print axioms Cloudnet.C11_cloud_top_nearest
#print axioms Cloudnet.C12_ice_status
#print axioms Cloudnet.C12_data_iff_status
#print axioms Cloudnet.C13_is_rain
#print axioms Cloudnet.C14_supported_bands
#print axioms Cloudnet.C14_iwc_positive_increasing
#print axioms Cloudnet.C14_ier_positive_increasing
#print axioms Cloudnet.C14_ier_warm_decreases
#print axioms Cloudnet.C15_der_value
#print axioms Cloudnet.C15_der_status
#print axioms Cloudnet.C16_drizzle_status
#print axioms Cloudnet.C16_single_profile_raises
#print axioms Cloudnet.C17_drizzle_masking
#print axioms Cloudnet.C18_db_round_trip
#print axioms Cloudnet.C18_error_classes
#print axioms Cloudnet.C18_masked
#print axioms Cloudnet.C18_tiny_diameter_error_overwritten
#print axioms Cloudnet.C19_lwc_conserves_lwp
#print axioms Cloudnet.C19_single_profile_raises
#print axioms Cloudnet.C20_adiabatic_lwc
#print axioms Cloudnet.C20_positive_iff_liquid
#print axioms Cloudnet.C20_increasing_in_layer
#print axioms Cloudnet.C20_zero_gradient_leaks
#print axioms Cloudnet.C21_bases_tops_pair
#print axioms Cloudnet.C21_every_layer_is_paired
#print axioms Cloudnet.C22_profile
#print axioms Cloudnet.C22_status
#print axioms Cloudnet.C22_raises
#print axioms Cloudnet.C23_base
#print axioms Cloudnet.C23_base_raises
#print axioms Cloudnet.C23_top
#print axioms Cloudnet.C23_top_raises
#print axioms Cloudnet.C24_correct_liquid_top
#print axioms Cloudnet.C24_raises
#print axioms Cloudnet.C24_exceeds_limit
#print axioms Cloudnet.C25_ffill
#print axioms Cloudnet.C25_ffill_total
#print axioms Cloudnet.C25_ffill_mask
#print axioms Cloudnet.C25_ffill_idempotent
#print axioms Cloudnet.C26_cumsumr
#print axioms Cloudnet.C26_cumsumr_step
#print axioms Cloudnet.C26_cumsumr_negative_input_fails
#print axioms Cloudnet.C27_filter_isolated
#print axioms Cloudnet.C27_filter_x
#print axioms Cloudnet.C27_filter_isolated_idempotent
#print axioms Cloudnet.C27_filter_x_idempotent
#print axioms Cloudnet.C28_remove_small_objects_faces
#print axioms Cloudnet.C28_remove_small_objects_corners
#print axioms Cloudnet.C28_objects_stay_whole
#print axioms Cloudnet.C28_idempotent
#print axioms Cloudnet.C29_bin_edges
#print axioms Cloudnet.C29_equal_bins
#print axioms Cloudnet.C29_uneven_grid
#print axioms Cloudnet.C29_too_short
#print axioms Cloudnet.C30_rebin_2d_mean
#print axioms Cloudnet.C30_rebin_2d_max
#print axioms Cloudnet.C30_partition
#print axioms Cloudnet.C30_mask_zeros
#print axioms Cloudnet.C30_keepdim
#print axioms Cloudnet.C30_rebin_2d_std
#print axioms Cloudnet.C31_all_zero_fails
#print axioms Cloudnet.C31_rebin_1d_mean
#print axioms Cloudnet.C31_rebin_1d_max
#print axioms Cloudnet.C31_empty_bin_zero
#print axioms Cloudnet.C31_rebin_1d_std
#print axioms Cloudnet.C32_nearest_gate
#print axioms Cloudnet.C33_gap_indices
#print axioms Cloudnet.C34_raises
#print axioms Cloudnet.C34_linear
#print axioms Cloudnet.C34_within_range
#print axioms Cloudnet.C34_nearest
#print axioms Cloudnet.C35_time_grid
#print axioms Cloudnet.C35_last_point_after_midnight
#print axioms Cloudnet.C36_seconds2hours
#print axioms Cloudnet.C36_monotone
#print axioms Cloudnet.C36_datetime2decimal_hours
#print axioms Cloudnet.C37_valid_indices
#print axioms Cloudnet.C37_screen_by_time
#print axioms Cloudnet.C37_screen_raises
#print axioms Cloudnet.C38_remove_duplicates
#print axioms Cloudnet.C38_sort
#print axioms Cloudnet.C38_single_record
#print axioms Cloudnet.C38_nothing_left
#print axioms Cloudnet.C39_missing
#print axioms Cloudnet.C39_concatenate
#print axioms Cloudnet.C39_failed_file_leaves_records
#print axioms Cloudnet.C40_existing_unchanged
#print axioms Cloudnet.C40_update
#print axioms Cloudnet.C40_append
#print axioms Cloudnet.C40_idempotent
#print axioms Cloudnet.C40_order
#print axioms Cloudnet.C40_failures
#print axioms Cloudnet.C40_sequence_unchanged
#print axioms Cloudnet.C40_history
#print axioms Cloudnet.C40_gap_inserted
#print axioms Cloudnet.C41_merge_history
#print axioms Cloudnet.C41_stable
#print axioms Cloudnet.C41_lineage
#print axioms Cloudnet.C42_source_uuids
#print axioms Cloudnet.C42_order_independent
#print axioms Cloudnet.C43_update_attributes
#print axioms Cloudnet.C43_source_table
#print axioms Cloudnet.C43_add_source
#print axioms Cloudnet.C43_add_source_ok
#print axioms Cloudnet.C44_false_radar_liquid
#print axioms Cloudnet.C44_undetected_melting
#print axioms Cloudnet.C44_filter_insects
#print axioms Cloudnet.C44_super_cold
#print axioms Cloudnet.C44_high_ldr
#print axioms Cloudnet.C44_dilation
#print axioms Cloudnet.C44_insects_in_falling
#print axioms Cloudnet.C44_filter_falling
#print axioms Cloudnet.C44_clutter
#print axioms Cloudnet.C44_refine
#print axioms Cloudnet.C44_passes
#print axioms Cloudnet.C44_classify
#print axioms Cloudnet.C44_liquid
#print axioms Cloudnet.C44_droplets
#print axioms Cloudnet.C44_insects
#print axioms Cloudnet.C44_succeeds
#print axioms Cloudnet.C44_clear_pixels_become_falling
#print axioms Cloudnet.C44_wraps_around_midnight
#print axioms Cloudnet.C44_last_profiles_kept
#print axioms Cloudnet.C45_array_to_probability
#print axioms Cloudnet.C45_find_insects
#print axioms Cloudnet.C45_estimates
#print axioms Cloudnet.C45_slanted
#print axioms Cloudnet.C45_probability_range
#print axioms Cloudnet.C45_insects_are_warm
#print axioms Cloudnet.C45_insects_need_radar
#print axioms Cloudnet.C46_falling
#print axioms Cloudnet.C47_two_way
#print axioms Cloudnet.C47_non_decreasing
#print axioms Cloudnet.C47_gas
#print axioms Cloudnet.C48_bookkeeping
#print axioms Cloudnet.C48_rain_amount
#print axioms Cloudnet.C48_melting_amount
#print axioms Cloudnet.C48_liquid_amount
#print axioms Cloudnet.C48_missing_rain_rate_flagged_corrected
#print axioms Cloudnet.C48_melting_formula
#print axioms Cloudnet.C49_correct_atten
#print axioms Cloudnet.C49_never_lowers
#print axioms Cloudnet.C49_error
#print axioms Cloudnet.C50_incomplete_pixels
#print axioms Cloudnet.C50_raises
#print axioms Cloudnet.C51_pointing
#print axioms Cloudnet.C51_unknown_azimuth_kept
#print axioms Cloudnet.C51_second_profile_missing
#print axioms Cloudnet.C51_bad_angles
#print axioms Cloudnet.C52_top_gates
#print axioms Cloudnet.C52_screen
#print axioms Cloudnet.C52_unchanged
#print axioms Cloudnet.C52_smooth
#print axioms Cloudnet.C52_smooth_clear
#print axioms Cloudnet.C53_missing
#print axioms Cloudnet.C53_raises
#print axioms Cloudnet.C53_increment
#print axioms Cloudnet.C53_monotone
#print axioms Cloudnet.C53_exact
#print axioms Cloudnet.C53_counted_again
#print axioms Cloudnet.C54_rows
#print axioms Cloudnet.C54_blank_line_accepted
#print axioms Cloudnet.C54_spectrum
#print axioms Cloudnet.C54_fmi
#print axioms Cloudnet.C54_files
#print axioms Cloudnet.C54_files_misaligned
#print axioms Cloudnet.C54_record
#print axioms Cloudnet.C55_version1
#print axioms Cloudnet.C55_version2
#print axioms Cloudnet.C55_range
#print axioms Cloudnet.C56_expand
#print axioms Cloudnet.C56_padding
#print axioms Cloudnet.C56_raises
#print axioms Cloudnet.C56_moved
#print axioms Cloudnet.C57_flag
#print axioms Cloudnet.C57_screen
#print axioms Cloudnet.C57_unique
#print axioms Cloudnet.C57_date
#print axioms Cloudnet.C57_join
#print axioms Cloudnet.C57_order
#print axioms Cloudnet.C57_columns
#print axioms Cloudnet.C57_too_many
#print axioms Cloudnet.C57_aligned
#print axioms Cloudnet.C58_bins
#print axioms Cloudnet.C58_raises
#print axioms Cloudnet.C59_edges
#print axioms Cloudnet.C59_levels
#print axioms Cloudnet.C59_one_cell
#print axioms Cloudnet.C59_advection
#print axioms Cloudnet.C60_cells
#print axioms Cloudnet.C60_product
#print axioms Cloudnet.C60_succeeds
#print axioms Cloudnet.C60_fractions
#print axioms Cloudnet.C60_area_below_volume
#print axioms Cloudnet.C60_cloud_bits
#print axioms Cloudnet.C61_decreases
#print axioms Cloudnet.C61_unchanged
#print axioms Cloudnet.C61_ice
#print axioms Cloudnet.C61_no_ice
#print axioms Cloudnet.C62_advection_time
#print axioms Cloudnet.C62_bounds
#print axioms Cloudnet.C62_calm
#print axioms Cloudnet.C63_wl_band
#print axioms Cloudnet.C64_select
#print axioms Cloudnet.C64_files
#print axioms Cloudnet.C64_asked
#print axioms Cloudnet.C64_pid_preference_ignored
#print axioms Cloudnet.C64_preferences
#print axioms Cloudnet.C64_brackets
#print axioms Cloudnet.C64_products
#print axioms Cloudnet.C64_model
#print axioms Cloudnet.C65_screening
#print axioms Cloudnet.C65_kept_profiles
#print axioms Cloudnet.C66_output
#print axioms Cloudnet.C66_raises
#print axioms Cloudnet.C67_rain
#print axioms Cloudnet.C67_clutter
#print axioms Cloudnet.C67_single_profile_raises
#print axioms Cloudnet.C67_clutter_reported_in_rain
#print axioms Cloudnet.C68_zero_altitude
#print axioms Cloudnet.C68_zero_altitude_bounds
#print axioms Cloudnet.C68_melting_altitude
#print axioms Cloudnet.C68_freezing_region
#print axioms Cloudnet.C68_upward_closed
#print axioms Cloudnet.C68_highest_gate
#print axioms Cloudnet.C68_raises
#print axioms Cloudnet.C69_l2norm
#print axioms Cloudnet.C69_l2norm_bounds
#print axioms Cloudnet.C69_l2norm_weighted
#print axioms Cloudnet.C70_velocity
#print axioms Cloudnet.C70_equal_velocities
#print axioms Cloudnet.C70_folding
#print axioms Cloudnet.C70_dealiased
#print axioms Cloudnet.C71_classification_file
#print axioms Cloudnet.C72_drizzle_retrieval
#print axioms Cloudnet.C72_positive
#print axioms Cloudnet.C72_diameter_equation
#print axioms Cloudnet.C73_drizzle_products
#print axioms Cloudnet.C73_table_position
#print axioms Cloudnet.C74_bisect_left
#print axioms Cloudnet.C75_edges2mid
#print axioms Cloudnet.C76_source_instruments
#print axioms Cloudnet.C76_extra_sources
#print axioms Cloudnet.C76_extra_sources_distinct
#print axioms Cloudnet.C76_extra_sources_repeated
#print axioms Cloudnet.C77_copy_variables
#print axioms Cloudnet.C77_copy_global
#print axioms Cloudnet.C78_lwc_error
#print axioms Cloudnet.C78_bounds
#print axioms Cloudnet.C78_gradient
#print axioms Cloudnet.C79_round
#print axioms Cloudnet.C79_median_step
#print axioms Cloudnet.C79_n_elements
#print axioms Cloudnet.C80_find_liquid
#print axioms Cloudnet.C80_raises
#print axioms Cloudnet.C80_distance
#print axioms Cloudnet.C80_defaults
#print axioms Cloudnet.C81_interpolate_lwp
#print axioms Cloudnet.C81_zero
#print axioms Cloudnet.C81_measured_values_replaced
#print axioms Cloudnet.C82_from_ldr
#print axioms Cloudnet.C82_from_v
#print axioms Cloudnet.C82_layer
#print axioms Cloudnet.C82_raises
#print axioms Cloudnet.C82_round
#print axioms Cloudnet.C82_profile
#print axioms Cloudnet.C82_smoothing
#print axioms Cloudnet.C82_find
#print axioms Cloudnet.C82_find_smooth
#print axioms Cloudnet.C82_differences
#print axioms Cloudnet.C83_first_gate
#print axioms Cloudnet.C83_spike
#print axioms Cloudnet.C83_stripes
#print axioms Cloudnet.C84_sensitivity
#print axioms Cloudnet.C84_precision
#print axioms Cloudnet.C85_closest_time
#print axioms Cloudnet.C86_chirps
#print axioms Cloudnet.C86_raises
#print axioms Cloudnet.C87_lidar
#print axioms Cloudnet.C87_lidar_refused
#print axioms Cloudnet.C87_lidar_order
#print axioms Cloudnet.C88_inputs
#print axioms Cloudnet.C89_amount
#print axioms Cloudnet.C89_monotone
#print axioms Cloudnet.C90_wind
#print axioms Cloudnet.C91_zenith
#print axioms Cloudnet.C91_two_directions
#print axioms Cloudnet.C92_fill
#print axioms Cloudnet.C92_outliers
#print axioms Cloudnet.C93_consistent
#print axioms Cloudnet.C93_snr
#print axioms Cloudnet.C93_top_gates
#print axioms Cloudnet.C93_first_gates
#print axioms Cloudnet.C93_power
#print axioms Cloudnet.C93_ldr
#print axioms Cloudnet.C94_height
#print axioms Cloudnet.C95_depol
#print axioms Cloudnet.C95_sunbeam
#print axioms Cloudnet.C95_sunbeam_few_gates
#print axioms Cloudnet.C95_sigma
#print axioms Cloudnet.C95_limit
#print axioms Cloudnet.C96_errors
#print axioms Cloudnet.C96_common_area
#print axioms Cloudnet.C97_levels
#print axioms Cloudnet.C97_water_content
#print axioms Cloudnet.C97_limit
#print axioms Cloudnet.C97_resolution
#print axioms Cloudnet.C97_iwc_status
#print axioms Cloudnet.C98_getvar
#print axioms Cloudnet.C98_time
#print axioms Cloudnet.C98_time_units
#print axioms Cloudnet.C98_first_seconds
#print axioms Cloudnet.C98_altitude
#print axioms Cloudnet.C98_height
#print axioms Cloudnet.C98_above_ground
#print axioms Cloudnet.C99_quality
#print axioms Cloudnet.C99_error
#print axioms Cloudnet.C99_error_monotone
#print axioms Cloudnet.C99_grid
#print axioms Cloudnet.C100_variables
#print axioms Cloudnet.C100_grid
#print axioms Cloudnet.C101_lin2db
#print axioms Cloudnet.C101_db2lin
#print axioms Cloudnet.C101_round_trip
#print axioms Cloudnet.C102_gate
#print axioms Cloudnet.C102_reflectivity
#print axioms Cloudnet.C102_too_long
#print axioms Cloudnet.C102_range
#print axioms Cloudnet.C102_accepted
#print axioms Cloudnet.C102_profiles
#print axioms Cloudnet.C102_screening
#print axioms Cloudnet.C102_no_profiles
#print axioms Cloudnet.C102_other_days
#print axioms Cloudnet.C103_variance_odd
#print axioms Cloudnet.C103_variance_even
#print axioms Cloudnet.C103_velocity_scale
#print axioms Cloudnet.C103_bands
#print axioms Cloudnet.C103_dissipation_rate
#print axioms Cloudnet.C103_inertial_subrange
#print axioms Cloudnet.C103_bands_cover
#print axioms Cloudnet.C104_cell
#print axioms Cloudnet.C104_positive
#print axioms Cloudnet.C104_times
#print axioms Cloudnet.C104_windows
#print axioms Cloudnet.C104_fast_radar
#print axioms Cloudnet.C104_moving_gap
#print axioms Cloudnet.C104_stationary
#print axioms Cloudnet.C105_wind_bounds
#print axioms Cloudnet.C105_wind_exact
#print axioms Cloudnet.C105_surface
#print axioms Cloudnet.C106_extension
#print axioms Cloudnet.C106_list
#print axioms Cloudnet.C106_directory
#print axioms Cloudnet.C106_numbered_file_skipped
#print axioms Cloudnet.C107_last
#print axioms Cloudnet.C107_names
#print axioms Cloudnet.C107_header
#print axioms Cloudnet.C108_profiles
#print axioms Cloudnet.C108_times
#print axioms Cloudnet.C108_two_days
#print axioms Cloudnet.C108_midnight_last
#print axioms Cloudnet.C108_model
#print axioms Cloudnet.C108_models
#print axioms Cloudnet.C109_copernicus
#print axioms Cloudnet.C109_first_gates
#print axioms Cloudnet.C109_galileo
#print axioms Cloudnet.C109_galileo_error
#print axioms Cloudnet.C109_basta
#print axioms Cloudnet.C109_clutter_ignores_reflectivity
#print axioms Cloudnet.C110_range_kept
#print axioms Cloudnet.C110_square
#print axioms Cloudnet.C110_galileo_select
#print axioms Cloudnet.C110_galileo_square
#print axioms Cloudnet.C111_accepted
#print axioms Cloudnet.C111_rows
#print axioms Cloudnet.C111_arrays_shared
#print axioms Cloudnet.C112_csv_variables
#print axioms Cloudnet.C112_galati
#print axioms Cloudnet.C112_lampedusa
#print axioms Cloudnet.C112_kenttarova
#print axioms Cloudnet.C112_csv_accepted
#print axioms Cloudnet.C112_csv_columns
#print axioms Cloudnet.C112_toa_tables
#print axioms Cloudnet.C112_csv_tables
#print axioms Cloudnet.C112_toa
#print axioms Cloudnet.C112_toa_strict
#print axioms Cloudnet.C112_short_line
#print axioms Cloudnet.C113_fixed
#print axioms Cloudnet.C113_fixed_fails
#print axioms Cloudnet.C113_fixed_columns
#print axioms Cloudnet.C113_laquila_rows
#print axioms Cloudnet.C113_laquila
#print axioms Cloudnet.C113_cluj
#print axioms Cloudnet.C113_hyytiala
#print axioms Cloudnet.C113_cluj_last_value
#print axioms Cloudnet.C113_title
#print axioms Cloudnet.C113_sirta_accepted
#print axioms Cloudnet.C113_sirta_columns
#print axioms Cloudnet.C113_limassol
#print axioms Cloudnet.C113_limassol_misaligned
#print axioms Cloudnet.C113_fixed_tables
#print axioms Cloudnet.C114_units
#print axioms Cloudnet.C114_accepted
#print axioms Cloudnet.C114_records
#print axioms Cloudnet.C114_limassol
#print axioms Cloudnet.C114_two_days
#print axioms Cloudnet.C114_same_second
#print axioms Cloudnet.C114_lists
#print axioms Cloudnet.C115_rain_rows
#print axioms Cloudnet.C115_rain_protocol
#print axioms Cloudnet.C115_rain_records
#print axioms Cloudnet.C115_rain_monotone
#print axioms Cloudnet.C115_sensor_line
#print axioms Cloudnet.C115_sensor_accepted
#print axioms Cloudnet.C115_sensor_records
#print axioms Cloudnet.C115_unsorted
#print axioms Cloudnet.C115_other_day
#print axioms Cloudnet.C116_accepted
#print axioms Cloudnet.C116_no_data
#print axioms Cloudnet.C116_columns
#print axioms Cloudnet.C116_toa_title
#print axioms Cloudnet.C116_numbered_titles
#print axioms Cloudnet.C116_empty_last
#print axioms Cloudnet.C116_headings
#print axioms Cloudnet.C116_kinds
#print axioms Cloudnet.C117_records
#print axioms Cloudnet.C117_accepted
#print axioms Cloudnet.C117_units
#print axioms Cloudnet.C117_missing
#print axioms Cloudnet.C117_two_days
#print axioms Cloudnet.C117_scrambled_bins
#print axioms Cloudnet.C117_bin_counts
#print axioms Cloudnet.C117_classes
#print axioms Cloudnet.C117_names
#print axioms Cloudnet.C118_accepted
#print axioms Cloudnet.C118_columns
#print axioms Cloudnet.C118_variables
#print axioms Cloudnet.C118_stamped_line
#print axioms Cloudnet.C118_files
#print axioms Cloudnet.C118_one_bad_telegram
#print axioms Cloudnet.C119_lines
#print axioms Cloudnet.C119_files
#print axioms Cloudnet.C119_records
#print axioms Cloudnet.C119_no_date
#print axioms Cloudnet.C119_other_day
#print axioms Cloudnet.C119_bins
#print axioms Cloudnet.C119_speeds
#print axioms Cloudnet.C119_concentration
#print axioms Cloudnet.C119_values
#print axioms Cloudnet.C119_decimal
#print axioms Cloudnet.C120_columns
#print axioms Cloudnet.C120_aligned
#print axioms Cloudnet.C120_misaligned
#print axioms Cloudnet.C120_fields
#print axioms Cloudnet.C120_missing
#print axioms Cloudnet.C121_columns
#print axioms Cloudnet.C121_aligned
#print axioms Cloudnet.C121_aligned_date
#print axioms Cloudnet.C121_short_year
#print axioms Cloudnet.C121_spectrum
#print axioms Cloudnet.C121_hyytiala
#print axioms Cloudnet.C121_message
#print axioms Cloudnet.C121_blocks
#print axioms Cloudnet.C121_unreadable
#print axioms Cloudnet.C121_readable
#print axioms Cloudnet.C121_dispatch
#print axioms Cloudnet.C121_netcdf
#print axioms Cloudnet.C121_kinetic_energy
#print axioms Cloudnet.C121_sensor_heads
#print axioms Cloudnet.C121_leipzig
#print axioms Cloudnet.C121_numbers
#print axioms Cloudnet.C121_dispatch_netcdf
#print axioms Cloudnet.C121_kinds
#print axioms Cloudnet.C121_variables
#print axioms Cloudnet.C121_decimal
#print axioms Cloudnet.C122_range_columns
#print axioms Cloudnet.C122_stamp
#print axioms Cloudnet.C122_reader
#print axioms Cloudnet.C122_raw
#print axioms Cloudnet.C122_empty_field
#print axioms Cloudnet.C122_unsigned
#print axioms Cloudnet.C122_file
#print axioms Cloudnet.C122_wvr_needed
#print axioms Cloudnet.C122_wvr
#print axioms Cloudnet.C122_numeric
#print axioms Cloudnet.C122_datetime
#print axioms Cloudnet.C122_closest
#print axioms Cloudnet.C122_superblocks
#print axioms Cloudnet.C122_records
#print axioms Cloudnet.C123_day
#print axioms Cloudnet.C123_day_exists
#print axioms Cloudnet.C123_height
#print axioms Cloudnet.C123_no_date
#print axioms Cloudnet.C123_wrong_date
#print axioms Cloudnet.C124_profiles
#print axioms Cloudnet.C124_determined
#print axioms Cloudnet.C124_readable
#print axioms Cloudnet.C124_range
#print axioms Cloudnet.C124_range_selected
#print axioms Cloudnet.C124_instrument
#print axioms Cloudnet.C125_given
#print axioms Cloudnet.C125_text
#print axioms Cloudnet.C125_netcdf
#print axioms Cloudnet.C125_unrecognised
#print axioms Cloudnet.C125_negatives
#print axioms Cloudnet.C125_beta
#print axioms Cloudnet.C125_depol
#print axioms Cloudnet.C125_depol_unmasked
#print axioms Cloudnet.C125_version
#print axioms Cloudnet.C125_version_characters
#print axioms Cloudnet.C125_lufft
#print axioms Cloudnet.C126_pairs
#print axioms Cloudnet.C126_channel
#print axioms Cloudnet.C126_rows
#print axioms Cloudnet.C126_errors
#print axioms Cloudnet.C126_epoch
#print axioms Cloudnet.C126_wavelength_new
#print axioms Cloudnet.C126_wavelength_history
#print axioms Cloudnet.C126_screening
#print axioms Cloudnet.C126_zenith
#print axioms Cloudnet.C126_masked_profiles
#print axioms Cloudnet.C126_zenith_key
#print axioms Cloudnet.C127_records
#print axioms Cloudnet.C127_accepted
#print axioms Cloudnet.C127_times
#print axioms Cloudnet.C127_zenith
#print axioms Cloudnet.C127_zenith_all
#print axioms Cloudnet.C127_date
#print axioms Cloudnet.C127_single_record
#print axioms Cloudnet.C127_files
#print axioms Cloudnet.C127_two_days
#print axioms Cloudnet.C128_columns
#print axioms Cloudnet.C128_no_empty_range
#print axioms Cloudnet.C128_numbers
#print axioms Cloudnet.C128_constants
#print axioms Cloudnet.C128_customer
#print axioms Cloudnet.C128_chirps
#print axioms Cloudnet.C128_single_chirp
#print axioms Cloudnet.C128_instrument
#print axioms Cloudnet.C128_units
#print axioms Cloudnet.C128_example
#print axioms Cloudnet.C128_files
#print axioms Cloudnet.C128_no_files
#print axioms Cloudnet.C128_range
#print axioms Cloudnet.C128_profiles
#print axioms Cloudnet.C128_vectors
#print axioms Cloudnet.C129_saved_iff
#print axioms Cloudnet.C129_file
#print axioms Cloudnet.C129_title
#print axioms Cloudnet.C129_digits
#print axioms Cloudnet.C129_failure
#print axioms Cloudnet.C130_identifier
#print axioms Cloudnet.C130_variables
#print axioms Cloudnet.C130_attributes
#print axioms Cloudnet.C130_saved_iff
#print axioms Cloudnet.C130_failure
#print axioms Cloudnet.C130_references
#print axioms Cloudnet.C131_saved_iff
#print axioms Cloudnet.C131_file
#print axioms Cloudnet.C132_saved_iff
#print axioms Cloudnet.C132_names
#print axioms Cloudnet.C132_file
#print axioms Cloudnet.C133_accepted
#print axioms Cloudnet.C133_missing_flags
#print axioms Cloudnet.C133_times
#print axioms Cloudnet.C133_zenith
#print axioms Cloudnet.C133_l1c_iff
#print axioms Cloudnet.C133_l1c_file
#print axioms Cloudnet.C133_coefficients
#print axioms Cloudnet.C133_harmonized_iff
#print axioms Cloudnet.C133_harmonized
#print axioms Cloudnet.C133_generated_iff
#print axioms Cloudnet.C133_chain
#print axioms Cloudnet.C134_source
#print axioms Cloudnet.C134_error
#print axioms Cloudnet.C134_raises
#print axioms Cloudnet.C134_position
#print axioms Cloudnet.C134_alone
#print axioms Cloudnet.C134_altitude
#print axioms Cloudnet.C134_longitude
#print axioms Cloudnet.C134_sign
#print axioms Cloudnet.C134_gps
#print axioms Cloudnet.C135_date
#print axioms Cloudnet.C135_fallback
#print axioms Cloudnet.C135_incomplete
#print axioms Cloudnet.C135_units
#print axioms Cloudnet.C136_cell
#print axioms Cloudnet.C136_edge
#print axioms Cloudnet.C136_values
#print axioms Cloudnet.C136_error
#print axioms Cloudnet.C136_known
#print axioms Cloudnet.C136_inside
#print axioms Cloudnet.C136_range
#print axioms Cloudnet.C136_affine
#print axioms Cloudnet.C136_node
#print axioms Cloudnet.C136_above
#print axioms Cloudnet.C136_below
#print axioms Cloudnet.C136_complete
#print axioms Cloudnet.C136_outside
#print axioms Cloudnet.C136_hidden_fill
#print axioms Cloudnet.C137_type
#print axioms Cloudnet.C137_unknown_type
#print axioms Cloudnet.C137_heights
#print axioms Cloudnet.C137_common_heights
#print axioms Cloudnet.C137_variables
#print axioms Cloudnet.C137_profile
#print axioms Cloudnet.C137_hidden
#print axioms Cloudnet.C137_raises
#print axioms Cloudnet.C137_too_few
#print axioms Cloudnet.C137_target_heights
#print axioms Cloudnet.C137_gaps
#print axioms Cloudnet.C137_linear
#print axioms Cloudnet.C137_attenuations
#print axioms Cloudnet.C137_attenuation_level
#print axioms Cloudnet.C137_wet_bulb
#print axioms Cloudnet.C138_ordinal
#print axioms Cloudnet.C138_single
#print axioms Cloudnet.C138_joined
#print axioms Cloudnet.C138_fails
#print axioms Cloudnet.C138_units
#print axioms Cloudnet.C138_returned_not_used
#print axioms Cloudnet.C138_truncate
#print axioms Cloudnet.C138_text
#print axioms Cloudnet.C139_iwc
#print axioms Cloudnet.C139_error
#print axioms Cloudnet.C139_uncorrected
#print axioms Cloudnet.C139_sensitivity
#print axioms Cloudnet.C139_bias
#print axioms Cloudnet.C139_written
#print axioms Cloudnet.C139_status
#print axioms Cloudnet.C139_ier
#print axioms Cloudnet.C140_known
#print axioms Cloudnet.C140_distribution
#print axioms Cloudnet.C140_closure
#print axioms Cloudnet.C140_number
#print axioms Cloudnet.C140_zero_path
#print axioms Cloudnet.C140_errors
#print axioms Cloudnet.C140_written
#print axioms Cloudnet.C140_status
#print axioms Cloudnet.C140_defaults
#print axioms Cloudnet.C141_reader
#print axioms Cloudnet.C141_made
#print axioms Cloudnet.C141_stops
#print axioms Cloudnet.C141_level2_path
#print axioms Cloudnet.C141_level2_elsewhere
#print axioms Cloudnet.C141_kept
#print axioms Cloudnet.C141_untouched
#print axioms Cloudnet.C141_force_replaces
#print axioms Cloudnet.C141_download_only
#print axioms Cloudnet.C141_names
#print axioms Cloudnet.C141_observations
#print axioms Cloudnet.C141_basta
#print axioms Cloudnet.C142_written
#print axioms Cloudnet.C142_content
#print axioms Cloudnet.C142_closure
#print axioms Cloudnet.C142_status
#print axioms Cloudnet.C142_error
#print axioms Cloudnet.C142_added_empty
#print axioms Cloudnet.C142_superadiabatic
#print axioms Cloudnet.C143_factor
#print axioms Cloudnet.C143_no_wind
#print axioms Cloudnet.C143_width
#print axioms Cloudnet.C143_unknown_width
#print axioms Cloudnet.C143_biases
#print axioms Cloudnet.C143_number_bias
#print axioms Cloudnet.C143_written
#print axioms Cloudnet.C143_known
#print axioms Cloudnet.C143_values
#print axioms Cloudnet.C143_status
#print axioms Cloudnet.C143_status_without_retrieval
#print axioms Cloudnet.C143_file_biases
#print axioms Cloudnet.C143_errors
#print axioms Cloudnet.C143_velocity
#print axioms Cloudnet.C144_written
#print axioms Cloudnet.C144_all_known
#print axioms Cloudnet.C144_on_a_line
#print axioms Cloudnet.C144_measured
#print axioms Cloudnet.C144_between
#print axioms Cloudnet.C144_range
#print axioms Cloudnet.C144_same_profile
#print axioms Cloudnet.C144_accumulation
#print axioms Cloudnet.C144_history
#print axioms Cloudnet.C144_attributes_needed
#print axioms Cloudnet.C144_attributes
#print axioms Cloudnet.C145_profiles
#print axioms Cloudnet.C145_increasing
#print axioms Cloudnet.C145_hatched
#print axioms Cloudnet.C145_figure
#print axioms Cloudnet.C145_model_profiles
#print axioms Cloudnet.C145_model_hatched
#print axioms Cloudnet.C145_model_gap
#print axioms Cloudnet.C145_model_rounding
#print axioms Cloudnet.C146_runs
#print axioms Cloudnet.C146_window
#print axioms Cloudnet.C146_mean
#print axioms Cloudnet.C146_range
#print axioms Cloudnet.C146_curves
#print axioms Cloudnet.C146_across_gap
#print axioms Cloudnet.C146_direction
#print axioms Cloudnet.C146_same_direction
#print axioms Cloudnet.C146_calm
#print axioms Cloudnet.C147_classes
#print axioms Cloudnet.C147_gates
#print axioms Cloudnet.C147_all_above
#print axioms Cloudnet.C147_cells
#print axioms Cloudnet.C147_reach
#print axioms Cloudnet.C147_limits
#print axioms Cloudnet.C147_margins
#print axioms Cloudnet.C147_batches
#print axioms Cloudnet.C147_shaded
#print axioms Cloudnet.C147_single_flag
#print axioms Cloudnet.C147_name
#print axioms Cloudnet.C147_variables
#print axioms Cloudnet.C147_bad_channel
#print axioms Cloudnet.C148_decibels
#print axioms Cloudnet.C148_bounds
#print axioms Cloudnet.C148_scale
#print axioms Cloudnet.C148_on_grid
#print axioms Cloudnet.C148_variability
#print axioms Cloudnet.C148_rejected
#print axioms Cloudnet.C148_for_categorize
#print axioms Cloudnet.C148_values
#print axioms Cloudnet.C149_rejected
#print axioms Cloudnet.C149_cloud_fraction
#print axioms Cloudnet.C149_ice
#print axioms Cloudnet.C149_liquid
#print axioms Cloudnet.C149_cirrus_present
#print axioms Cloudnet.C149_cirrus_values
#print axioms Cloudnet.C149_sensitivity
#print axioms Cloudnet.C149_sensitivity_height_fails
#print axioms Cloudnet.C149_shear_fails
#print axioms Cloudnet.C150_rejected
#print axioms Cloudnet.C150_rows
#print axioms Cloudnet.C150_date
#print axioms Cloudnet.C150_empty_file
#print axioms Cloudnet.C150_lower_case
#print axioms Cloudnet.C150_lower_iwv_fails
#print axioms Cloudnet.C150_same_kind
#print axioms Cloudnet.C150_crash
#print axioms Cloudnet.C150_read
#print axioms Cloudnet.C151_profiles
#print axioms Cloudnet.C151_backscatter
#print axioms Cloudnet.C151_screened
#print axioms Cloudnet.C151_depolarisation
#print axioms Cloudnet.C151_made
#print axioms Cloudnet.C151_height
#print axioms Cloudnet.C151_sunbeams
#print axioms Cloudnet.C151_square
#print axioms Cloudnet.C152_times
#print axioms Cloudnet.C152_basta_profiles
#print axioms Cloudnet.C152_basta_single
#print axioms Cloudnet.C152_basta_height
#print axioms Cloudnet.C152_opened
#print axioms Cloudnet.C152_date
#print axioms Cloudnet.C152_basta_made
#print axioms Cloudnet.C152_basta_units
#print axioms Cloudnet.C152_bowtie_values
#print axioms Cloudnet.C152_bowtie_height
#print axioms Cloudnet.C152_bowtie_made
#print axioms Cloudnet.C152_bowtie_single
#print axioms Cloudnet.C152_basta_date
#print axioms Cloudnet.C153_read
#print axioms Cloudnet.C153_copernicus
#print axioms Cloudnet.C153_copernicus_made
#print axioms Cloudnet.C153_galileo
#print axioms Cloudnet.C153_galileo_made
#print axioms Cloudnet.C153_in_order
#print axioms Cloudnet.C153_next_day
#print axioms Cloudnet.C154_day
#print axioms Cloudnet.C154_made
#print axioms Cloudnet.C154_two_days
#print axioms Cloudnet.C155_int
#print axioms Cloudnet.C155_fd12p_date
#print axioms Cloudnet.C155_fd12p_text
#print axioms Cloudnet.C155_fd12p_time
#print axioms Cloudnet.C155_parsivel_date
#print axioms Cloudnet.C155_parsivel_time
#print axioms Cloudnet.C155_radiometrics_time
#print axioms Cloudnet.C155_radiometrics_date
#print axioms Cloudnet.C155_parsivel_datetime
#print axioms Cloudnet.C155_written_date
#print axioms Cloudnet.C155_damaged
#print axioms Cloudnet.C156_figures
#print axioms Cloudnet.C156_not_drawn
#print axioms Cloudnet.C156_small
#print axioms Cloudnet.C156_classes
#print axioms Cloudnet.C156_rolling
#print axioms Cloudnet.C156_vertical
#print axioms Cloudnet.C156_histogram
#print axioms Cloudnet.C156_heights
#print axioms Cloudnet.C156_error_panels
#print axioms Cloudnet.C156_area_panels
#print axioms Cloudnet.C156_order
#print axioms Cloudnet.C156_no_model
#print axioms Cloudnet.C156_image
#print axioms Cloudnet.C157_height
#print axioms Cloudnet.C157_model_height
#print axioms Cloudnet.C157_satellite_height
#print axioms Cloudnet.C157_out_of_range
#print axioms Cloudnet.C157_units
#print axioms Cloudnet.C157_labels
#print axioms Cloudnet.C157_superscripts
#print axioms Cloudnet.C157_image
#print axioms Cloudnet.C157_rain_scale
#print axioms Cloudnet.C157_tb
#print axioms Cloudnet.C157_tb_flags
#print axioms Cloudnet.C157_last_channel
#print axioms Cloudnet.C157_flags
#print axioms Cloudnet.C157_ticks
#print axioms Cloudnet.C158_without_fault
#print axioms Cloudnet.C158_interrupted
#print axioms Cloudnet.C158_return
#print axioms Cloudnet.C158_retry_clean
#print axioms Cloudnet.C158_retry_loses
#print axioms Cloudnet.C159_level1b
#print axioms Cloudnet.C159_hatpro_l1c
#print axioms Cloudnet.C159_categorize
#print axioms Cloudnet.C159_level3
#print axioms Cloudnet.C159_product
#print axioms Cloudnet.C159_level3_rerun
#print axioms Cloudnet.C160_instrument
#print axioms Cloudnet.C160_instrument_units
#print axioms Cloudnet.C160_comments
#print axioms Cloudnet.C160_categorize
#print axioms Cloudnet.C160_sources
#print axioms Cloudnet.C160_threads
#print axioms Cloudnet.C160_threads_mixed
#print axioms Cloudnet.C160_l3_time
#print axioms Cloudnet.C160_l3
#print axioms Cloudnet.C161_files
#print axioms Cloudnet.C161_others
#print axioms Cloudnet.C161_folder_stale
#print axioms Cloudnet.C161_folder_origin
#print axioms Cloudnet.C161_listed
#print axioms Cloudnet.C161_joined
#print axioms Cloudnet.C161_same_name
#print axioms Cloudnet.C161_damaged
#print axioms Cloudnet.C161_checksum
#print axioms Cloudnet.C161_plot
#print axioms Cloudnet.C161_image
#print axioms Cloudnet.C161_image_elsewhere
#print axioms Cloudnet.C161_unlisted
#print axioms Cloudnet.C162_integers
#print axioms Cloudnet.C162_types
#print axioms Cloudnet.C162_wraps
#print axioms Cloudnet.C162_numbers
#print axioms Cloudnet.C162_no_drift
#print axioms Cloudnet.C162_order
#print axioms Cloudnet.C162_fill
#print axioms Cloudnet.C162_times_equal
#print axioms Cloudnet.C162_float_types
#print axioms Cloudnet.C163_products
#print axioms Cloudnet.C163_epsilon
#print axioms Cloudnet.C163_classification
#print axioms Cloudnet.C163_level3
#print axioms Cloudnet.C163_categorize
#print axioms Cloudnet.C163_categorize_early
#print axioms Cloudnet.C163_concatenate
#print axioms Cloudnet.C163_concatenate_success
#print axioms Cloudnet.C164_look
#print axioms Cloudnet.C164_panels
#print axioms Cloudnet.C164_effects
#print axioms Cloudnet.C164_succeeds
#print axioms Cloudnet.C164_marks
#print axioms Cloudnet.C164_alone
#print axioms Cloudnet.C164_sources
#print axioms Cloudnet.C164_axis
#print axioms Cloudnet.C164_footer
#print axioms Cloudnet.C164_footer_again
#print axioms Cloudnet.C164_marks_elsewhere
#print axioms Cloudnet.C165_echo
#print axioms Cloudnet.C165_classes
#print axioms Cloudnet.C165_ice
#print axioms Cloudnet.C165_droplet_radius
#print axioms Cloudnet.C165_liquid
#print axioms Cloudnet.C165_drizzle
#print axioms Cloudnet.C165_uncorrected
#print axioms Cloudnet.C165_attenuation
#print axioms Cloudnet.C165_succeeds
#print axioms Cloudnet.C165_exclusive
#print axioms Cloudnet.C166_lidar
#print axioms Cloudnet.C166_mira
#print axioms Cloudnet.C166_mira_model
#print axioms Cloudnet.C166_polly
#print axioms Cloudnet.C166_others
#print axioms Cloudnet.C166_refused
#print axioms Cloudnet.C166_backscatter
#print axioms Cloudnet.C166_coefficients
#print axioms Cloudnet.C166_level2
#print axioms Cloudnet.C166_l1c
#print axioms Cloudnet.C166_same_names
#print axioms Cloudnet.C167_iwc
#print axioms Cloudnet.C167_ier
#print axioms Cloudnet.C167_der
#print axioms Cloudnet.C167_lwc
#print axioms Cloudnet.C167_lwc_error
#print axioms Cloudnet.C167_drizzle
#print axioms Cloudnet.C167_classification
#print axioms Cloudnet.C167_cloud_heights
#print axioms Cloudnet.C168_iwc
#print axioms Cloudnet.C168_ier
#print axioms Cloudnet.C168_der
#print axioms Cloudnet.C168_lwc
#print axioms Cloudnet.C169_iwc
#print axioms Cloudnet.C169_ier
#print axioms Cloudnet.C169_lwc
#print axioms Cloudnet.C169_drizzle
#print axioms Cloudnet.C169_classification
#print axioms Cloudnet.C170_readable
#print axioms Cloudnet.C170_lines
#print axioms Cloudnet.C170_lookup
#print axioms Cloudnet.C170_tables
#print axioms Cloudnet.C170_tables_lines
#print axioms Cloudnet.C170_classification
#print axioms Cloudnet.C170_ice
#print axioms Cloudnet.C170_der
#print axioms Cloudnet.C170_lwc
#print axioms Cloudnet.C170_bits
#print axioms Cloudnet.C171_forms
#print axioms Cloudnet.C171_read_back
#print axioms Cloudnet.C171_distinct
#print axioms Cloudnet.C171_canonical
#print axioms Cloudnet.C171_refused
#print axioms Cloudnet.C171_given
#print axioms Cloudnet.C172_dates
#print axioms Cloudnet.C172_del_keys
#print axioms Cloudnet.C172_append
#print axioms Cloudnet.C172_files
#print axioms Cloudnet.C172_timestamp
#print axioms Cloudnet.C172_numeric
#print axioms Cloudnet.C173_written
#print axioms Cloudnet.C173_shapes
#print axioms Cloudnet.C173_mira
#print axioms Cloudnet.C173_mira_single
#print axioms Cloudnet.C173_own_pixels
#print axioms Cloudnet.C173_single
#print axioms Cloudnet.C173_chirps
#print axioms Cloudnet.C173_unknown
#print axioms Cloudnet.C173_mira_categorize
#print axioms Cloudnet.C174_concatenate
#print axioms Cloudnet.C174_mira
#print axioms Cloudnet.C174_lines
#print axioms Cloudnet.C174_weather_radar
#print axioms Cloudnet.C174_ties
#print axioms Cloudnet.C174_rain_gauge
#print axioms Cloudnet.C175_iwc
#print axioms Cloudnet.C175_ier
#print axioms Cloudnet.C175_classification
#print axioms Cloudnet.C175_attenuation_status
#print axioms Cloudnet.C175_gas
#print axioms Cloudnet.C175_rain
#print axioms Cloudnet.C175_melting
#print axioms Cloudnet.C175_drizzle
#print axioms Cloudnet.C175_liquid
#print axioms Cloudnet.C176_iwc
#print axioms Cloudnet.C176_ier
#print axioms Cloudnet.C176_droplets
#print axioms Cloudnet.C176_liquid
#print axioms Cloudnet.C176_liquid_error
#print axioms Cloudnet.C176_negative_error
#print axioms Cloudnet.C177_only_masked
#print axioms Cloudnet.C177_errors_after
#print axioms Cloudnet.C177_without_errors
#print axioms Cloudnet.C177_settles
#print axioms Cloudnet.C177_order_matters
#print axioms Cloudnet.C177_setbit
#print axioms Cloudnet.C177_setbit_call
#print axioms Cloudnet.C178_independent
#print axioms Cloudnet.C178_caller
#print axioms Cloudnet.C178_inputs
#print axioms Cloudnet.C178_shared
#print axioms Cloudnet.C179_time_grid
#print axioms Cloudnet.C179_exact
#print axioms Cloudnet.C179_refused
#print axioms Cloudnet.C179_stored
#print axioms Cloudnet.C180_clock
#print axioms Cloudnet.C180_hours
#print axioms Cloudnet.C180_whole_seconds
#print axioms Cloudnet.C180_negative
#print axioms Cloudnet.C180_empty
#print axioms Cloudnet.C181_edges
#print axioms Cloudnet.C181_profiles
#print axioms Cloudnet.C181_midnight_lost
#print axioms Cloudnet.C181_standard
#print axioms Cloudnet.C181_time_stamps
#print axioms Cloudnet.C181_exact
#print axioms Cloudnet.C182_window
#print axioms Cloudnet.C182_freezing
#print axioms Cloudnet.C183_time
#print axioms Cloudnet.C183_date
#print axioms Cloudnet.C183_exact
#print axioms Cloudnet.C183_wrong_end
#print axioms Cloudnet.C184_plot
#print axioms Cloudnet.C184_plotted_after_failure
#print axioms Cloudnet.C184_l3
#print axioms Cloudnet.C185_mean
#print axioms Cloudnet.C185_constant
#print axioms Cloudnet.C185_single
#print axioms Cloudnet.C185_mono
#print axioms Cloudnet.C185_nonneg
#print axioms Cloudnet.C185_range
#print axioms Cloudnet.C185_constant_changed
#print axioms Cloudnet.C186_near
#print axioms Cloudnet.C186_mono
#print axioms Cloudnet.C186_increasing
#print axioms Cloudnet.C186_altitude
#print axioms Cloudnet.C186_equal
