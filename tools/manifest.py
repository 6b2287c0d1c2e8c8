#!/usr/bin/env python3
"""Regenerates MANIFEST.json from the table below."""
import json
C = {}
def add(pid, status, ths, note):
    C[pid] = {"property": pid, "status": status,
              "theorems": ["Verif.Props." + t for t in ths], "note": note}
add("C01","proved",["C01_crc_table_correct"],"for every byte list the table-driven CRC equals the bitwise CRC")
add("C02","proved",["C02_written_checksum_verifies","C02_only_that_checksum_verifies"],"")
add("C03","proved",["C03_burst_detected_bits","C03_burst_detected"],"")
add("C04","proved",["C04_header_round_trip","C04_damaged_header_refused","builtin_ok"],"")
add("C05","proved",["C05_C08_recording_loads","C05_recording_round_trip"],"")
add("C06","partial",["C06_rectangular","C06_labelled","C06_csv_total","C06_reused_loader_violation"],"rectangular tables for a fresh loader; a loader object reused for a second file violates it (counterexample proved)")
add("C07","partial",["C07_bad_record_hangs","C07_terminates_partial","C07_ends_iff_no_bad_record","C07_corrupted_recording_hangs"],"the code violates the property: loading hangs on a record with a bad checksum (proved); it terminates exactly when there is no such record (proved)")
add("C08","proved",["C08_unknown_id_ignored","C08_unknown_record_transparent","C05_C08_recording_loads"],"")
add("C09","partial",["C09_recording_in_bounds_partial","C09_empty_recording_out_of_bounds","C09_short_file_out_of_bounds","C09_truncated_recording_out_of_bounds"],"in bounds on complete recordings; out-of-bounds reads on empty, short and truncated files are proved")
add("C10","proved",["C10_msg_id_injective","C10_msg_id_truncates","C10_builtin_table"],"")
add("C11","proved",["C11_status_life_cycle"],"")
add("C12","proved",["C12_null_input_no_effect","C12_init_null_options_is_ub","C12_init_total","C12_update_codes"],"null options to rgioe_init is undefined behaviour (proved as the exception)")
add("C13","proved",["C13_queries_read_only"],"")
add("C14","proved",["C14_instances_isolated"],"")
add("C15","proved",["C15_use_given_starts_at_first_imu"],"")
add("C16","proved",["C16_moving_alignment_needs_static_and_motion"],"")
add("C17","proved",["C17_alignment_progress_kept","C17_status_implies_alignment"],"")
add("C18","partial",["C18_fault_config_partial","C18_rejected_init_keeps_navigating"],"the rejected init reports FAULT_CONFIG; the code leaves a previously NAVIGATING status in place (violation proved)")
add("C19","proved",["C19_get_result_writes"],"")
add("C20","partial",["C20_atti_vel_std_partial","C20_get_pos_returns_attitude_std","C20_get_pos_wrong_on_reachable_state"],"attitude and velocity getters; rgioe_get_pos returns the attitude deviations (violation proved)")
add("C21","proved",["C21_unusable_fix_changes_info_only","C21_unusable_fix_invisible"],"")
add("C22","proved",["C22_reinit_forgets","C22_reinit_forgets_moving"],"")
add("C25","proved",["C25_covariance_ignores_values","C25_fix_values_do_not_matter"],"")
add("C27","partial",["C27_last_fix_applied_partial","C27_first_of_two_fixes_is_lost","C27_zupta_loses_zupt","C27_outstanding_share_is_dropped","C27_share_before_first_fix"],"holds for the last fix before an IMU sample; four ways in which the code loses corrections are proved")
add("C30","proved",["C30_schedule"],"")
add("C31","proved",["C31_flags_after_imu","C31_flags_after_gnss","C31_flags_after_odometer","C31_flags_after_speed","C31_flags_after_height"],"")
add("C32","proved",["C32_result_time_is_last_imu","C32_filter_time_is_last_imu"],"")
add("C33","proved",["C33_static_criterion"],"")
add("C35","partial",["C35_after_fix_partial","C35_sixth_height_without_fix"],"holds after a usable fix; without any fix the sixth relative height is fused with base INT32_MIN (violation proved)")
add("C70","partial",["C70_no_junk_use_given","C70_only_previous_velocity_partial","C70_first_velocity_depends_on_memory"],"true for given start values; moving alignment depends on exactly one uninitialised member, the previous velocity (violation exhibited)")
add("C23","proved",["C23_covariance_symmetric","C23_api_covariance_symmetric"],"exact arithmetic")
add("C24","proved",["C24_update_valid"],"exact arithmetic, every dimension")
add("C26","partial",["C26_predict_valid_partial","C26_process_noise_invalid","C26_first_sample_breaks_covariance","C26_lack_of_validity_partial"],"prediction keeps a covariance valid when the added noise is valid; the code's process noise is not (violation proved, down to the covariance after the first sample); what it lacks is exactly bounded (C26_lack_of_validity_partial; along a flight C214)")
add("C37","proved",["C37_reported_deviation"],"exact arithmetic")
add("C68","proved",["C68_initial_covariance"],"exact arithmetic")
add("C28","proved",["C28_C29_filter","C28_C29_api"],"exact arithmetic")
add("C29","proved",["C28_C29_filter","C28_C29_api"],"exact arithmetic")
add("C34","proved",["C34_smoothed_statistics"],"exact arithmetic")
add("C36","proved",["C36_zero_innovation","C36_perfect_measurement","C36_perfect_fix"],"exact arithmetic")
add("C38","proved",["C38_euler_matrix_is_rotation"],"exact arithmetic")
add("C39","proved",["C39_euler_quaternion_agrees","C39_matrix_acts_as_quaternion"],"exact arithmetic")
add("C40","proved",["C40_euler_round_trip","C40_matrix_round_trip","C40_lock_reports_nan"],"exact arithmetic; the NaN branch for every scalar type")
add("C41","proved",["C41_lat_lon_round_trip","C41_position_quaternion"],"exact arithmetic")
add("C42","proved",["C42_skew_is_cross"],"exact arithmetic")
add("C43","proved",["C43_rotation_vector","C43_scalar_part_can_be_negative"],"exact arithmetic")
add("C44","proved",["C44_radii"],"exact arithmetic")
add("C45","partial",["C45_distance_with_heights","C45_distance_without_heights_wrong"],"holds for the six-argument form; the four-argument form violates it (proved)")
add("C46","proved",["C46_ecef"],"exact arithmetic")
add("C47","proved",["C47_ahrs_invariant"],"exact arithmetic")
add("C48","partial",["C48_set_angles","C48_set_quaternion_invisible","C48_quaternion_violation"],"holds for angles; the quaternion form violates it (proved)")
add("C69","proved",["C69_compensation","C69_consequences"],"exact arithmetic")
add("C50","proved",["C50_outage_windows"],"exact arithmetic")
add("C51","partial",["C51_terminates_partial","C51_does_not_terminate","C51_hangs_iff"],"terminates except when step = outage = 0 and start < stop, where it hangs (proved)")
add("C52","proved",["C52_delivered_sorted","delivered_is_merge"],"for every scalar type with a total order on the times")
add("C53","proved",["C53_prefixes","C53_one_source_complete","C53_imu_only","C53_third_file_stops_delivery"],"")
add("C54","proved",["C54_move_to_time","C54_nothing_earlier"],"")
add("C55","proved",["C55_reset_replays"],"")
add("C56","partial",["C56_quality_ignored","C56_invalid_fix_is_fused"],"the code violates the property: the quality read from the file has no influence (proved for every input)")
add("C57","proved",["C57_outage_hides_gnss","C57_hidden_iff_in_window","post_is_replay"],"if the first record is a hidden fix the line written for it is uninitialised memory: excluded by hypothesis")
add("C63","partial",["C63_saved_never_loads","C63_saveConfig_never_loads","C63_missing_keys","C63_round_trip_partial","C63_threshold_truncated","C63_saveConfig_loses_zupta"],"the code violates the property for every configuration (proved); with the twelve missing keys added every saved setting round-trips except the truncated threshold")
add("C64","proved",["C64_get_option","C64_use_given_starts_certain"],"exact arithmetic")
add("C71","proved",["C71_progress"],"")
add("C72","partial",["C72_stop_time_ignored","C72_every_record_written"],"the code violates the property: the stop time has no influence (proved for every input)")
add("C73","proved",["C73_parameter_units","C73_all_or_nothing","C73_missing_key_fails"],"")
add("C74","partial",["C74_gap_statistics","C74_average_too_small"],"count, last and largest gap are right; the mean is always too small (proved)")
add("C58","proved",["C58_fifo_prefix"],"every schedule")
add("C59","partial",["C59_flushed_partial","C59_stop_loses_everything","C59_last_messages_lost","C59_runs_until_stop","C59_stop_returns"],"the code violates the property (proved); the part that holds is C59_flushed_partial")
add("C60","proved",["C60_frame_conversion","C60_record"],"exact arithmetic")
add("C61","partial",["C61_binary_file","C61_extra_record","C61_text_file"],"the samples are delivered exactly and in order; one extra record is always delivered after them (proved)")
add("C62","proved",["C62_gga_line"],"")
add("C65","partial",["C65_layout","C65_overlap","C65_count"],"holds in exactly eleven of the sixteen builds (proved); STATE_CNT is right in all")
add("C66","partial",["C66_accepts_iff_zero","C66_valid_frames_refused","C66_accepted_valid_partial"],"the code violates the property: only all-zero blocks are accepted (proved)")
add("C67","proved",["C67_velocity_raw","C67_velocity"],"")
add("C75","partial",["C75_bad_token_hangs","C75_record_of_a_header","C75_numbers_end_partial"],"the code violates the property for files with a bad token (proved)")
add("C76","partial",["C76_gnss_file","C76_bad_line_truncates","C76_complete","C76_extra_fix","C76_ten_columns_is_ub"],"the code violates the property (proved); what is delivered is characterised exactly")
add("C77","partial",["C77_ascii_is_binary","C77_pva_writer_partial"],"the threaded writer violates the property (proved)")
add("C78","partial",["C78_gyro_scale_misses_attitude","C78_acce_scale_misses_velocity","C78_biases_couple"],"the optional builds violate the property (proved)")
add("C79","proved",["C79_increment","C79_message","C79_scale"],"exact arithmetic")
add("C49","proved",["C49_dcm_orthogonal","C49_dcm_optimal","C49_can_be_reflection"],"exact arithmetic; the SVD is an input assumed to meet Eigen's contract, which leaves the determinant free")
add("C80","partial",["C80_scale_factor","C80_no_odometer"],"with odometer proved; without odometer the code violates it (proved); exact arithmetic, SVD contract")
add("C81","proved",["C81_strapdown_consistent"],"exact arithmetic, away from the poles and the date line; first-order consistency of the step")
add("C82","proved",["C82_coning_exact","C82_sculling_exact"],"exact arithmetic")
add("C83","proved",["C83_feedback","C83_position_innovation","C83_position_sensitivity","C83_velocity_prediction","C83_velocity_sensitivity"],"exact arithmetic; the neglected wheel term is explicit in the theorem")
add("C84","proved",["C84_result", "C84_projected_position", "C84_projected_attitude"],"exact arithmetic")
add("C85","proved",["C85_getters_agree"],"every arithmetic")
add("C86","proved",["C86_handover", "given_ok"],"exact arithmetic")
add("C87","partial",["C87_levelling", "C87_roll_right_iff"],"pitch proved; the code violates it for roll: characterised exactly")
add("C88","partial",["C88_position", "C88_antenna_at_fix_partial", "C88_mounting_misplaces"],"holds without mounting yaw; with it the code violates the property (proved)")
add("C89","partial",["C89_velocity", "C89_remembers", "C89_uniform_motion"],"heading proved; the velocity is right iff fixes are 1 s apart and motion is level (proved)")
add("C90","partial",["C90_deviations", "C90_worse_fix_better_attitude"],"position and velocity proved; the attitude part is violated (proved)")
add("C91","partial",["C91_configured_biases", "C91_static_bias"],"both orders characterised; violated when a fix follows levelling")
add("C92","proved",["C92_gravity", "C92_grows_high", "C92_start_gravity"],"over the reals; C92_grows_high bounds the domain of validity")
add("C93","proved",["C93_linearisation", "C93_transition", "C93_covariance", "C93_gravity_residual"],"over the reals; first order in the step; the neglected gravity-gradient terms are bounded by C93_gravity_residual")
add("C94","proved",["C94_remaining_innovation", "C94_zero_velocity", "C94_zero_rate", "C94_relative_height", "C94_odometer", "C94_odometer_constrained", "C94_constraint", "C94_never_farther", "C94_fix", "C94_wheel_never_farther"],"over the reals")
add("C95","proved",["C95_optimal_gain"],"over the reals")
add("C96","proved",["C96_share", "C96_shares_end"],"every arithmetic")
add("C97","partial",["C97_options", "C97_cmake", "C97_within", "C97_layout", "C97_overlap"],"holds exactly when the odometer option is off; that option violates it (proved)")
add("C98","partial",["C98_default_build", "C98_extended_builds", "C98_fix_is_fatal"],"holds in the default build; every extended build violates it (proved, and the histories that run are characterised for constraint-free setups)")
add("C99","partial",["C99_gyro_scale_wrong_rows", "C99_acce_scale_wrong_rows"],"violated: the coupling is written into the gyroscope-bias (attitude) rows (proved, with the true effect)")
add("C100","partial",["C100_lever_arm_sensitivity"],"violated: wrong sign vertically, scaled by the earth radius horizontally (proved)")
add("C101","partial",["C101_fixed_states", "C101_optional_states"],"holds for the fifteen fixed states; violated by the optional ones, whose variances are characterised")
add("C102","partial",["C102_odometer_scale_never_estimated"],"violated: over every history the estimate stays zero and uncorrelated")
add("C103","proved",["C103_imu_rows", "C103_kalman_rows", "C103_gnss_rows", "C103_meas_rows", "C103_meas_variances", "C103_result_rows", "C103_file_loads"],"every arithmetic; the ahrs and align rows are C157")
add("C104","partial",["C104_result_north_wrong"],"Violated by the code: the theorem bounds the error from below.")
add("C105","partial",["C105_origin", "C105_second_device"],"Violated by the code: the theorem says what the origin really is.")
add("C106","partial",["C103_gnss_rows"],"Violated by the code: the theorem says the columns are zero in every recording.")
add("C107","partial",["C107_outage_ignored"],"Violated: both branches of the outage test leave the switch, the fix is used after it; proved that no outage setting has any influence.")
add("C108","partial",["C108_once_per_close_sample", "C108_middle_fifth", "C108_handed_twice"],"Violated: the fix is handed over once per sample within 0.6/rate of it. Proved: exact count; at least once for regular samples; twice exactly when it lies in the middle fifth of the interval.")
add("C109","partial",["C109_crash_iff_first_is_fix", "C109_reachable"],"Violated: proved that the null pointer is dereferenced exactly when the first processed record is a fix, with a concrete data set.")
add("C110","proved",["C110_old_program"],"For every arithmetic.")
add("C111","partial",["C111_ignored_options", "C111_fused_although_off"],"Violated: proved that enable_gnss (and enable_rts, odo_std, odo_scale_std) has no influence on any answer in any history, and that a fix is fused although GNSS is off.")
add("C112","partial",["C112_ignored_settings", "C111_ignored_options"],"Violated: proved that all settings listed are ignored by the post-processing program.")
add("C113","partial",["C113_scale_applies_to_variance", "C113_not_the_deviation"],"Violated: the variance, not the deviation, is multiplied; proved that the effect is that of sqrt(s)*sigma, with a witness where it differs. Exact arithmetic.")
add("C114","proved",["C114_csv_is_the_recording"],"Printing of numbers is a parameter (any that prints no comma/newline).")
add("C115","partial",["C115_resolution_partial", "C115_whole_seconds", "C115_times_collapse", "C115_reachable", "C115_violation"],"Violated by the code; violation proved on a file, plus the exact behaviour for GPS week times and the resolution that remains.")
add("C116","partial",["C116_matrix", "C116_last_name_missing"],"Matrix part proved; names part violated, proved for every exported dataset.")
add("C117","partial",["C117_progress_partial", "C117_complete_is_100", "C117_end_reached", "C117_violation_unloaded", "C117_violation_small"],"Violated before loading and for tiny files; proved otherwise.")
add("C118","partial",["C118_summary_fits_partial", "C118_exact", "C118_many_errors_overflow", "C118_reachable"],"Violated by files with many unknown records; proved for recordings of configured datasets.")
add("C119","partial",["C119_state_restarts_partial", "C119_schedule_restarts_partial", "C119_old_correction_applied", "C119_reachable", "C119_height_off", "C119_detector_not_restarted", "C119_detector_reachable"],"Violated by the code (not reachable through the C API, which constructs a new filter first); what restarts is proved for every previous state.")
add("C120","partial",["C120_ranges_partial", "C120_latitude_valid_iff", "C120_longitude_beyond_180", "C120_latitude_over_the_pole", "C120_fix_longitude_mod_360"],"Range claim violated; characterised for every quaternion. Modulo-360 claim proved.")
add("C121","partial",["C121_sample_stamps_ignored", "C121_fix_stamp_ignored", "C121_reported_time_partial"],"violated: stamps of samples influence only the reported time, in every history and arithmetic; what holds is that the reported time is that of the last sample")
add("C122","partial",["C122_motion_ignored", "C122_reported_attitude_frozen"],"violated: exactly characterised for every history and arithmetic")
add("C123","partial",["C123_mounting_accumulates", "C123_reported_pitch", "C123_starts_tilted", "C123_pitch_flips", "C123_unmounted_partial"],"violated with a mounting yaw (concrete case: pitch reversed by one fix); exact law for any number of fixes; holds without a mounting yaw")
add("C124","partial",["C124_one_bad_sample", "C124_one_bad_fix", "C124_bad_alignment", "C124_unusable_fix_partial"],"violated, proved for every arithmetic in which not-a-number absorbs and compares false (source semantics; the build's -Ofast lets the compiler assume there is none)")
add("C125","proved",["C125_rest_stays", "C125_rest_api", "C125_balance_is_physical", "C125_physical_step", "C125_zihr_learns_the_earth"],"exact arithmetic; relative height measurements left out of the histories; the zero-angular-rate update is shown to break the property")
add("C126","proved",["C126_navigating_is_the_filter", "C126_given_start", "C126_aligned_start"],"every arithmetic")
add("C127","proved",["C127_filter", "C127_start", "C127_api", "grid_accurate"],"At `RR R`: every operation of the model followed by an arbitrary rounding. Multiples: 60 u for the squared quaternion lengths, 1500 u and 200 u for the matrices. Roundings are placed at the operations of the source; overflow and NaN are excluded by the accuracy hypothesis (see C124 for NaN).")
add("C128","proved",["C128_measured_covariance", "C128_fixes", "C128_reported_deviation"],"over the reals")
add("C129","partial",["C129_information", "C129_order", "C129_adds_up", "C129_fix_order", "C129_correction_order_partial"],"holds of the covariance and the reported deviations; violated by the correction: each update replaces the pending one (C27), witness in C129_correction_order_partial")
add("C130","partial",["C130_rodrigues_partial", "C130_zero_rotation_is_nan"],"proved for every non-zero vector; violated by the zero vector, which gives 0/0 in every entry")
add("C131","partial",["C131_negative_variance", "C131_config_reports_nan", "C131_propagation_partial"],"violated: with a given start from a configuration file (zero deviations, C64) and the constraint due at the first sample, a position variance becomes negative and its deviation is the root of a negative number; propagation alone keeps variances non-negative")
add("C132","proved",["C132_zupt_bounds_velocity", "C132_reported_deviation"],"over the reals, from a covariance that is valid before the sample")
add("C133","partial",["C133_excluded_partial", "C133_result_race", "C133_gravity_race", "C133_velocity_race", "C133_matrix_race", "C133_covariance_race"],"violated through shared gravity and two function-local statics: the result, the velocity and the covariance of one instance can come from the other; holds for every schedule in which time updates and result requests exclude each other")
add("C134","proved",["C134_text_files", "C134_loop_is_filter", "C134_fix_formats", "C134_more_samples_only_add", "C134_final_newline"],"times below INT_MAX (C52); the loop theorem holds for records from any reader")
add("C135","partial",["C135_formats_crash", "C135_unknown_format", "C135_bad_text_never_ends", "C135_readable_partial"],"violated: IMU format 1 (IMD) and GNSS format 1 are undefined behaviour, unknown IMU formats replace the file by one zero sample, a bad token never ends; text files of numbers and all binary files are read to the end and processed")
add("C136","partial",["C136_at_rest_the_tilt_error_grows", "C136_turns_to_the_force_partial", "C136_equilibria", "C136_levels_to_the_force_partial", "C136_limit", "C136_settles_upside_down"],"violated: the correction turns the down axis towards +specific force, i.e. a front-right-down device at rest is driven away from its true attitude (upside down), for every non-zero tilt error; correct for a z-up body frame (C136_turns_to_the_force). Over many samples: from any start within 31 degrees the third axis converges geometrically to the direction of the force (energy argument with the integral and its clamp included), so a front-right-down device held within 31 degrees of upside down settles exactly upside down. Convergence from larger errors is not proved")
add("C137","partial",["C137_magnetometer_form_shrinks_the_quaternion", "C137_nonzero_partial", "C137_magnetometer_fixed_point"],"violated: the quaternion is never renormalised there and its length tends to zero; it stays non-zero and the fixed point is right")
add("C138","partial",["C138_overflow", "C138_filter_counters", "C138_device_partial", "C138_alignment_counter"],"violated after 2^31 samples (signed overflow of up_cnt); holds exactly before that")
add("C139","partial",["C139_playback", "C139_whole_file", "C139_speed_is_ignored", "C139_path_bounded"],"order, completeness and end marker proved; violated by the pace: real_time, speed_up and all times are ignored, one record per event")
add("C140","partial",["C140_no_fix_is_used", "C140_empty_buffer_is_undefined", "C140_waiting_fix_is_replaced", "C140_without_fixes_undefined", "C140_samples_in_order_partial", "C140_samples_lost", "C140_end_marker_is_a_sample"],"violated: inverted test, no fix is ever used in navigation and an empty buffer is read (undefined); samples are lost when eleven wait; the end marker is used as a sample; order and at-most-once hold. Steps of the main thread on a buffer are taken as atomic")
add("C141","partial",["C141_debug_velocity_deviation_partial", "C141_violation"],"violated: the velocity deviations are those of the attitude")
add("C142","partial",["C142_height_is_the_mean", "C142_attitude_step_partial", "C142_not_the_middle"],"height, mean velocity and mean height proved; violated by the latitude: the attitude update uses the latitude half a step beyond the new one (outside the interval) whenever the vehicle moves north or south and the step is short enough")
add("C143","proved",["C143_covariance_is_the_errors", "C143_no_linear_estimate_is_better"],"random quantities are elements of an arbitrary real inner-product space; optimality needs invertible innovation covariances")
add("C144","partial",["C144_date_line", "C144_date_line_size", "C144_same_convention_partial"],"violated: longitudes are subtracted as numbers; a jump by 360 degrees between the first two of three fixes changes the starting east velocity by pi times the radius of the parallel (more than 10^7 m/s below 60 degrees); with one convention throughout the convention does not matter")
add("C145","partial",["C145_runs_form_partial", "C145_frame_ignored", "C145_scale_silent"],"violated: the frame chosen in the form never enters the configuration, and an unreadable odometer scale is silently run as zero; every other field of every run is what the form shows (C145_runs_form_partial, for all histories)")
add("C146","partial",["C146_start", "C146_rejected_changes"],"start runs exactly when everything checked reads and otherwise logs (C146_start); violated part: a rejected start has already overwritten the configuration held by the window (C146_rejected_changes)")
add("C147","partial",["C147_open_start_partial", "C147_format_lost", "C147_time_rounded"],"holds when the numbers read back and the choices are on the form; violated: formats beyond the two offered become -1, and a start time of six digits loses its fraction")
add("C148","partial",["C148_save_ignores_form", "C148_save_after_start_partial", "C148_open_ends"],"violated: save writes the configuration of the last start/open, not the form; and opening a saved file ends the program; directly after a successful start the saved configuration is the one run")
add("C149","partial",["C149_nose_up", "C149_zero_roll", "C149_zero_roll_down", "C149_nose_down", "C149_north_south_swapped"],"nose up: holds; nose down: violated, the north component is the wrong one (plus in place of minus), north and south headings are exchanged")
add("C150","proved",["C150_filter", "C150_angles_output_only"],"for every arithmetic, every sequence of calls")
add("C151","partial",["C151_search_partial", "C151_failed", "C151_no_measurement"],"search and reader position hold; violated: only the time of the record is handed over (the base part is copied), the measurements stay the caller's")
add("C152","partial",["C152_repeated_fix", "C152_steady", "C152_equal_stamps"],"violated: after a repeated fix the start velocity is 3/2 of the displacement per fix (in steady motion 50% too fast); two fixes with one stamp make the velocity not a number for good")
add("C153","partial",["C153_never_starts", "C153_used_partial"],"violated: a zero north deviation is taken as 'no fix yet'; with only such fixes the device never navigates (every history, every arithmetic); after one fix with a deviation it does")
add("C154","proved",["C154_read_back", "C154_times"],"at character level, for finite numbers (infinities and not-a-numbers print as words)")
add("C155","proved",["C155_update", "C155_predict", "C155_history", "C155_better_fix"],"exact arithmetic; for given transition and measurement matrices, noise covariances valid (the code's process noise is not always: C26)")
add("C156","proved",["C156_uncorrelated", "C156_first_fix"],"exact arithmetic")
add("C157","proved",["C157_ahrs_rows", "C157_align_rows"],"every arithmetic")
add("C158","partial",["C158_statistic", "C158_inverted", "C158_never_rejected", "C158_any_jump"],"violated: GetX2 weights the innovation with S instead of its inverse (the statistic grows where it should shrink), and nothing is ever rejected; both characterised exactly")
add("C159","proved",["C159_either_convention"],"over the reals; moving alignment is excluded, there two consecutive fixes must use one convention (C144)")
add("C160","proved",["C160_any_clock", "C160_time_origin"],"over the reals; proved for every replacement of the stamps that keeps different stamps different")
add("C161","proved",["C161_only_ratios_matter"],"for every history of API calls started from a given state; in moving alignment the initial deviations are constants and quotients of deviations (C90), so the statement is about given start states")
add("C162","partial",["C162_rows_partial", "C162_horizontal_wrong"],"proved for all columns except the horizontal displacement, which is wrong in the code; its exact value and the violation are proved")
add("C163","proved",["C163_report_shows_the_file"],"exact arithmetic; the digits printed are those of the number")
add("C164","proved",["C164_mounting_does_not_matter"],"over the reals; for every history of API calls started from a given state (moving alignment assumes the IMU axes to be those of the vehicle, so it is not part of the statement)")
add("C165","partial",["C165_eleven_columns", "C165_result_files_partial", "C165_speed", "C165_missing_file", "C165_bad_word","C165_huge_week", "C165_violated"],"holds for files with eleven columns except that a final new line makes the last record count twice; for the project's own result files (thirteen columns) every eighth record is used, and a line made of the wrong columns is appended when the number of records is divisible by eight; for a missing file or a word that is no number the program never ends and its output grows without bound")
add("C166","partial",["C166_rows_judged","C166_two_sigma", "C166_accepted_partial", "C166_rejected", "C166_concentrated", "C166_accepts_concentrated", "C166_constant", "C166_violated"],"violated: when more than 68.26 % of the errors lie in the lowest bin an exception is swallowed, the error counts as zero and the result is accepted whatever its errors; otherwise acceptance and rejection mean what is stated; equal errors are reported about a centimetre too large")
add("C167","proved",["C167_heading_error"],"over the reals")
add("C168","partial",["C168_position_errors", "C168_zero_partial", "C168_violated"],"holds except at the date line, where longitudes are interpolated and subtracted as numbers")
add("C169","proved",["C169_direction_only", "C169_free_fall", "C169_listens_above_half", "C169_magnetometer"],"over the reals; the first theorem for every history of the filter, the last two for the first reading of a fresh filter with an interval of at most one second")
add("C170","partial",["C170_north_reading_turns_the_device", "C170_second_axis_partial", "C170_heading_convention"],"violated: the code takes the second axis (east, in the convention of the angles it sets and reports) for north, so that a device level and pointing north is turned away by a field pointing north")
add("C171","partial",["C171_sensors_never_shown", "C171_mode_and_flags_as_bias", "C171_marked_times_partial", "C171_bias_plot_partial", "C171_bias_plot_short"],"violated: show_sensors.py takes column 24 of a file of 13 and raises for every result file; the bias plot draws mode and flags as gyroscope bias and then raises. Proved for the part that holds: on a table that has 25 columns, the times marked are those whose bit is set")
add("C172","proved",["C172_velocity_and_height"],"over the reals; horizontal position and attitude (where the two programs take the transport rate at different points) are not compared")
add("C173","partial",["C173_violated", "C173_force_vanishes", "C173_never_grows", "C173_position_partial"],"violated: the unit quaternion computed at line 589 is overwritten by the un-normalised product at line 600, and the matrix is made from the latter; while the device keeps turning the matrix tends to zero. What holds: the columns stay orthogonal and of one length that never grows, and the position quaternion has unit length")
add("C174","partial",["C174_there_and_back", "C174_on_the_ellipsoid", "C174_antimeridian", "C174_same_place"],"over the reals. Violated on the antimeridian, where atan2(0,0) gives longitude zero; proved for every longitude strictly between −180° and 180°")
add("C175","proved",["C175_lever_arm"],"over the reals; for antennas whose longitude is not exactly ±180°")
add("C176","partial",["C176_error_partial", "C176_any_latitude", "C176_after_correction", "standsFor_iff"],"Violated: near the antimeridian any latitude can be read; the error bound elsewhere is proved.")
add("C177","proved",["C177_least_squares", "C177_consistent"],"The loop of the tool; its reader no longer exists in the source, and the dangling block reference is not modelled.")
add("C178","partial",["C178_poses_partial", "C178_out_of_range", "C178_every_file", "C178_rotation", "C178_heading_not_shown", "C178_points_partial"],"Violated: out of range access, repeated pose, roll and heading exchanged. What is read and where the points are is proved.")
add("C179","partial",["C179_restart_exact", "C179_restart_at_200Hz_partial", "C179_always_5ms", "C179_rate_ignored", "C179_bias_kept", "C179_bias_matters"],"violated: the interval is 5 ms at every rate, and the sample is kept uncompensated, which changes the next velocity by a twelfth of the cross products with the compensation. Proved (rounding included) at 5 ms when the last sample was used as measured")
add("C180","partial",["C180_reports_the_epoch_partial", "C180_rest_is_zero", "C180_agrees_with_the_filter"],"violated for scale factors, odometer scale and deviations, which are reported as zero; the rest is reported as it is and agrees with the filter's result")
add("C181","partial",["C181_span_partial", "C181_open_end", "C181_no_start_time"],"violated: with a stop time and no start time nothing is processed although the run reports success, and the sample that first reaches the stop time is processed too; the exact span is proved for every arithmetic")
add("C182","partial",["C182_numbers", "C182_percent_partial", "C182_out_of_range"],"violated: without a stop time the progress is negative, with equal times the division is by zero, and the last sample can send more than 100; a percentage for every sample before the stop time")
add("C183","partial",["C183_in_order", "C183_each_once_partial", "C183_first_missed", "C183_on_the_grid"],"order and at most once hold in every run; violated: a fix that no sample comes near blocks all later ones, e.g. a fix with the stamp of the first sample when samples are a full interval apart (exact arithmetic); all fixes are used when samples are at most one and fixes at least two intervals apart and none has the stamp of the first sample")
add("C184","partial",["C184_told_partial", "C184_silent"],"violated: a missing IMU file, a missing or short odometer file and an unsupported mode end the run without a message; every other failure is reported")
add("C185","partial",["C185_defined_partial", "C185_moving"],"violated: moving alignment with a missing or short GNSS file reads the unset time of the fix; exactly then")
add("C186","proved",["C186_one_figure"],"every history, every arithmetic")
add("C187","partial",["C187_records_partial", "C187_line_end", "C187_appends"],"violated: the line end of the last line adds a point with unset values, and a second text file is appended to the first; exact contents for every file and window state")
add("C188","partial",["C188_mode_as_bias", "C188_whole_files", "C188_seventeen_columns_partial"],"violated for the files the library writes: the GNSS mode and the flags are drawn as gyroscope bias; holds for lines of 17 columns")
add("C189","partial",["C189_last_twice_partial"],"violated: the last result is shown twice, an empty file shows one point of unset values; exact contents for every file")
add("C190","partial",["C190_unreadable_partial", "C190_dropped_files_ignored"],"the first half is proved; violated: dropped files are ignored after every history")
add("C191","partial",["C191_fixed_file_partial", "C191_other_files_partial", "C191_times", "C191_rotation"],"violated: the first sample is dropped and the last one written again two seconds early; exact file contents for every input")
add("C192","partial",["C192_lines_partial"],"violated: the last sample is reported again with the detector fed twice; exact lines for every file")
add("C193","partial",["C193_rows_partial"],"violated: the last result is written twice, and an empty file gives a row of unset values; exact bytes for every file")
add("C194","proved",["C194_attitude_is_composition", "C194_small_turns"],"exact arithmetic; the turn of the frame is taken at the latitude the code uses (C142); rounding: C127")
add("C195","proved",["C195_rounding_drift", "C195_two_hours"],"The turns are those the program computed (their own rounding is not part of the statement); the exact arithmetic counterpart is C194.")
add("C196","proved",["C196_earth_attitude", "C196_same_gyroscopes"],"Over the reals. The mismatch term is zero at rest (example) and stems from the latitude used for the attitude (C142).")
add("C197","proved",["C197_no_jump", "C197_speed_limit"],"over the reals; the error of the earth rate used (latitude read off the extrapolated quaternion, C176) is an explicit term, zero at a place read exactly (earthSeen_eq)")
add("C198","proved",["C198_follows_truth"],"Over the reals. The truth is a differentiable path of rotation matrices; the truncation and frame terms are those of C196. even_turning shows such a motion and its readings.")
add("C199","proved",["C199_force_integral"],"Over the reals; the force integral is any function with the stated derivative (it exists for a continuous force).")
add("C200","proved",["C200_velocity_moves", "C200_free_fall"],"Over the reals.")
add("C201","proved",["C201_strapdown_converges"],"Exact arithmetic (reals). First order in dt: all five updates of a sample (velocity, position quaternion, height, latitude/longitude and attitude) coupled, with the discrete Gronwall argument over any number of samples. An instance (a lift going up) meets the hypotheses.")
add("C202","proved",["C202_errors_grow_in_proportion"],"Exact arithmetic (reals). C201 is the case e = d = 0. Instances: a lift going up, a start one metre too high, a biased gyroscope.")
add("C203","proved",["C203_rounded_flight_follows"],"all of ForwardMechanization at the rounding scalar RR R with R accurate to u (operations, literals, sin, cos, tan, atan, atan2, sqrt, pow); K exists, no numeric value is given; overflow and NaN are outside (C15 ff. treat them)")
add("C204","partial",["C204_loads_accumulate", "C204_not_the_last_file", "C204_missing_file_keeps_data", "C204_headless_file_keeps_data"],"violated: exact characterisation for recordings of one table (files with other tables: C06_reused_loader_violation)")
add("C205","proved",["C205_no_aid_is_the_mechanization", "C205_reports_follow_the_flight"],"first theorem for every arithmetic; second in exact real arithmetic, attitude where the pitch is not within about 8 degrees of the vertical (gimbal lock, C40)")
add("C206","proved",["C206_rounded_reports_follow_the_flight", "C206_rounded_attitude"],"place and velocity, and with an arctangent accurate as an angle the attitude too")
add("C207","proved",["C207_one_line_per_sample", "C207_result_file_follows_the_flight", "C207_rounded_result_file", "C207_rounded_attitude"],"the first theorem for every arithmetic, the second in exact arithmetic, the third (place, velocity) and fourth (attitude too) in every arithmetic with relative error u; the file without a final newline (C134_final_newline: with it no line changes)")
add("C208","proved",["C208_gap_is_the_mechanization", "C208_gap_follows_the_flight", "C208_ready"],"every arithmetic for the equality with the mechanization; the error bound in exact arithmetic; the hypothesis on the held state is shown reachable by C208_ready")
add("C209","proved",["C209_measurement", "C209_fix", "C209_reported", "C209_height"],"Exact arithmetic. Validity of the covariance is C24/C26's subject (kept by every update; by predictions under C26's condition); Cne a rotation is C29. C209_height: the effect on the next reported height of the first share.")
add("C210","partial",["C210_filter_follows_the_flight_partial", "C212_filter_follows_the_flight"],"C212 proves it with nothing assumed about the covariance (bounds on the configuration instead). C210: exact arithmetic; that the covariance is valid with bounded variances when a fix arrives is a hypothesis (C26 shows that the process noise of the code can make it invalid); aids off; the constant grows geometrically with the number of usable fixes, so this bounds what the filter can lose, not what it gains")
add("C211","partial",["C211_one_line_per_record", "C211_result_file_with_fixes_partial", "C213_result_file_with_fixes"],"C213 proves it with nothing assumed about the covariance. C211: which line is written when: every arithmetic; the bound: exact arithmetic, with C210's hypothesis on the covariance met by each fix (C26 shows the code can make it invalid); neither file ends in a newline (C134 says what a final newline adds)")
add("C212","proved",["C212_filter_follows_the_flight"],"Exact arithmetic (reals), aids off, start from given values. Constant and threshold exist; no numeric values are given, and the threshold on the sampling interval may be small. Instances: the lift with any deviations, instabilities and random walks.")
add("C213","proved",["C213_result_file_with_fixes"],"Exact arithmetic (reals), aids off; neither file ends in a newline (C134). With C211_one_line_per_record for which line is written when. Instances: the lift's two files with any instabilities and random walks.")
add("C214","proved",["C214_deviations_stay_bounded"],"Exact arithmetic (reals), where the root of a negative number is 0; on the machine a variance below zero is reported as NaN. Aids off, start from given values. Instances: those of C212.")
add("C215","proved",["C215_fixes_never_add_uncertainty"],"Exact arithmetic (reals), aids off, start from given values; the threshold exists, no numeric value is given. C24 is the counterpart for a covariance known to be valid. Instances: those of C212.")
add("C216","proved",["C216_file_deviations", "C216_fix_lines"],"Exact arithmetic (reals), aids off. The deviations are part of the results and are stored by the binary format of the writer; the text format leaves them out. Instances: those of C213.")
if __name__ == "__main__":
    json.dump({"claims":[C[k] for k in sorted(C)]}, open("/verif/MANIFEST.json","w"), indent=1)
