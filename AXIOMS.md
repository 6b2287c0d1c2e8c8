# Axioms per theorem

Generated by `tools/axioms.py` from `#print axioms`. Only Lean's three standard axioms occur.

* 505 theorems: propext, Classical.choice, Quot.sound
* 41 theorems: propext, Quot.sound
* 11 theorems: none
* 7 theorems: propext

| property | theorem | axioms |
|---|---|---|
| C01 | `Verif.Props.C01_crc_table_correct` | propext, Quot.sound |
| C02 | `Verif.Props.C02_written_checksum_verifies` | propext, Classical.choice, Quot.sound |
| C02 | `Verif.Props.C02_only_that_checksum_verifies` | propext, Classical.choice, Quot.sound |
| C03 | `Verif.Props.C03_burst_detected_bits` | propext, Quot.sound |
| C03 | `Verif.Props.C03_burst_detected` | propext, Quot.sound |
| C04 | `Verif.Props.C04_header_round_trip` | propext, Classical.choice, Quot.sound |
| C04 | `Verif.Props.C04_damaged_header_refused` | propext, Classical.choice, Quot.sound |
| C04 | `Verif.Props.builtin_ok` | propext, Classical.choice, Quot.sound |
| C05, C08 | `Verif.Props.C05_C08_recording_loads` | propext, Classical.choice, Quot.sound |
| C05 | `Verif.Props.C05_recording_round_trip` | propext, Classical.choice, Quot.sound |
| C06 | `Verif.Props.C06_rectangular` | propext, Classical.choice, Quot.sound |
| C06 | `Verif.Props.C06_labelled` | propext, Classical.choice, Quot.sound |
| C06 | `Verif.Props.C06_csv_total` | propext, Quot.sound |
| C06 | `Verif.Props.C06_reused_loader_violation` | propext, Quot.sound |
| C07 | `Verif.Props.C07_bad_record_hangs` | propext, Quot.sound |
| C07 | `Verif.Props.C07_terminates_partial` | propext, Classical.choice, Quot.sound |
| C07 | `Verif.Props.C07_ends_iff_no_bad_record` | propext, Classical.choice, Quot.sound |
| C07 | `Verif.Props.C07_corrupted_recording_hangs` | propext, Classical.choice, Quot.sound |
| C08 | `Verif.Props.C08_unknown_id_ignored` | propext, Quot.sound |
| C08 | `Verif.Props.C08_unknown_record_transparent` | propext, Classical.choice, Quot.sound |
| C09 | `Verif.Props.C09_recording_in_bounds_partial` | propext, Classical.choice, Quot.sound |
| C09 | `Verif.Props.C09_empty_recording_out_of_bounds` | propext, Classical.choice, Quot.sound |
| C09 | `Verif.Props.C09_short_file_out_of_bounds` | propext, Quot.sound |
| C09 | `Verif.Props.C09_truncated_recording_out_of_bounds` | propext, Classical.choice, Quot.sound |
| C10 | `Verif.Props.C10_msg_id_injective` | propext, Classical.choice, Quot.sound |
| C10 | `Verif.Props.C10_msg_id_truncates` | propext, Quot.sound |
| C10 | `Verif.Props.C10_builtin_table` | propext, Classical.choice, Quot.sound |
| C100 | `Verif.Props.C100_lever_arm_sensitivity` | propext, Classical.choice, Quot.sound |
| C101 | `Verif.Props.C101_fixed_states` | propext, Classical.choice, Quot.sound |
| C101 | `Verif.Props.C101_optional_states` | propext, Classical.choice, Quot.sound |
| C102 | `Verif.Props.C102_odometer_scale_never_estimated` | propext, Classical.choice, Quot.sound |
| C103 | `Verif.Props.C103_imu_rows` | propext, Classical.choice, Quot.sound |
| C103 | `Verif.Props.C103_kalman_rows` | propext, Classical.choice, Quot.sound |
| C103, C106 | `Verif.Props.C103_gnss_rows` | propext, Classical.choice, Quot.sound |
| C103 | `Verif.Props.C103_meas_rows` | propext, Classical.choice, Quot.sound |
| C103 | `Verif.Props.C103_meas_variances` | propext, Classical.choice, Quot.sound |
| C103 | `Verif.Props.C103_result_rows` | propext, Classical.choice, Quot.sound |
| C103 | `Verif.Props.C103_file_loads` | propext, Classical.choice, Quot.sound |
| C104 | `Verif.Props.C104_result_north_wrong` | propext, Classical.choice, Quot.sound |
| C105 | `Verif.Props.C105_origin` | propext, Classical.choice, Quot.sound |
| C105 | `Verif.Props.C105_second_device` | propext, Classical.choice, Quot.sound |
| C107 | `Verif.Props.C107_outage_ignored` | propext, Classical.choice, Quot.sound |
| C108 | `Verif.Props.C108_once_per_close_sample` | propext, Quot.sound |
| C108 | `Verif.Props.C108_middle_fifth` | propext, Classical.choice, Quot.sound |
| C108 | `Verif.Props.C108_handed_twice` | propext, Classical.choice, Quot.sound |
| C109 | `Verif.Props.C109_crash_iff_first_is_fix` | propext, Classical.choice, Quot.sound |
| C109 | `Verif.Props.C109_reachable` | propext, Classical.choice, Quot.sound |
| C11 | `Verif.Props.C11_status_life_cycle` | propext, Classical.choice, Quot.sound |
| C110 | `Verif.Props.C110_old_program` | propext, Classical.choice, Quot.sound |
| C111, C112 | `Verif.Props.C111_ignored_options` | propext, Classical.choice, Quot.sound |
| C111 | `Verif.Props.C111_fused_although_off` | propext, Classical.choice, Quot.sound |
| C112 | `Verif.Props.C112_ignored_settings` | propext, Classical.choice, Quot.sound |
| C113 | `Verif.Props.C113_scale_applies_to_variance` | propext, Classical.choice, Quot.sound |
| C113 | `Verif.Props.C113_not_the_deviation` | propext, Classical.choice, Quot.sound |
| C114 | `Verif.Props.C114_csv_is_the_recording` | propext, Classical.choice, Quot.sound |
| C115 | `Verif.Props.C115_resolution_partial` | propext, Classical.choice, Quot.sound |
| C115 | `Verif.Props.C115_whole_seconds` | propext, Classical.choice, Quot.sound |
| C115 | `Verif.Props.C115_times_collapse` | propext, Classical.choice, Quot.sound |
| C115 | `Verif.Props.C115_reachable` | propext, Classical.choice, Quot.sound |
| C115 | `Verif.Props.C115_violation` | propext, Classical.choice, Quot.sound |
| C116 | `Verif.Props.C116_matrix` | propext, Classical.choice, Quot.sound |
| C116 | `Verif.Props.C116_last_name_missing` | propext, Classical.choice, Quot.sound |
| C117 | `Verif.Props.C117_progress_partial` | propext, Quot.sound |
| C117 | `Verif.Props.C117_complete_is_100` | propext, Classical.choice, Quot.sound |
| C117 | `Verif.Props.C117_end_reached` | propext, Classical.choice, Quot.sound |
| C117 | `Verif.Props.C117_violation_unloaded` | none |
| C117 | `Verif.Props.C117_violation_small` | propext, Classical.choice, Quot.sound |
| C118 | `Verif.Props.C118_summary_fits_partial` | propext, Classical.choice, Quot.sound |
| C118 | `Verif.Props.C118_exact` | propext, Classical.choice, Quot.sound |
| C118 | `Verif.Props.C118_many_errors_overflow` | propext, Classical.choice, Quot.sound |
| C118 | `Verif.Props.C118_reachable` | propext, Classical.choice, Quot.sound |
| C119 | `Verif.Props.C119_state_restarts_partial` | propext, Classical.choice, Quot.sound |
| C119 | `Verif.Props.C119_schedule_restarts_partial` | propext, Classical.choice, Quot.sound |
| C119 | `Verif.Props.C119_old_correction_applied` | propext, Classical.choice, Quot.sound |
| C119 | `Verif.Props.C119_reachable` | propext, Classical.choice, Quot.sound |
| C119 | `Verif.Props.C119_height_off` | propext, Classical.choice, Quot.sound |
| C119 | `Verif.Props.C119_detector_not_restarted` | propext, Classical.choice, Quot.sound |
| C119 | `Verif.Props.C119_detector_reachable` | propext, Classical.choice, Quot.sound |
| C12 | `Verif.Props.C12_null_input_no_effect` | propext, Classical.choice, Quot.sound |
| C12 | `Verif.Props.C12_init_null_options_is_ub` | propext, Classical.choice, Quot.sound |
| C12 | `Verif.Props.C12_init_total` | propext, Classical.choice, Quot.sound |
| C12 | `Verif.Props.C12_update_codes` | propext, Classical.choice, Quot.sound |
| C120 | `Verif.Props.C120_ranges_partial` | propext, Classical.choice, Quot.sound |
| C120 | `Verif.Props.C120_latitude_valid_iff` | propext, Classical.choice, Quot.sound |
| C120 | `Verif.Props.C120_longitude_beyond_180` | propext, Classical.choice, Quot.sound |
| C120 | `Verif.Props.C120_latitude_over_the_pole` | propext, Classical.choice, Quot.sound |
| C120 | `Verif.Props.C120_fix_longitude_mod_360` | propext, Classical.choice, Quot.sound |
| C121 | `Verif.Props.C121_sample_stamps_ignored` | propext, Classical.choice, Quot.sound |
| C121 | `Verif.Props.C121_fix_stamp_ignored` | propext, Classical.choice, Quot.sound |
| C121 | `Verif.Props.C121_reported_time_partial` | propext, Classical.choice, Quot.sound |
| C122 | `Verif.Props.C122_motion_ignored` | propext, Classical.choice, Quot.sound |
| C122 | `Verif.Props.C122_reported_attitude_frozen` | propext, Classical.choice, Quot.sound |
| C123 | `Verif.Props.C123_mounting_accumulates` | propext, Classical.choice, Quot.sound |
| C123 | `Verif.Props.C123_reported_pitch` | propext, Classical.choice, Quot.sound |
| C123 | `Verif.Props.C123_starts_tilted` | propext, Classical.choice, Quot.sound |
| C123 | `Verif.Props.C123_pitch_flips` | propext, Classical.choice, Quot.sound |
| C123 | `Verif.Props.C123_unmounted_partial` | propext, Classical.choice, Quot.sound |
| C124 | `Verif.Props.C124_one_bad_sample` | propext, Classical.choice, Quot.sound |
| C124 | `Verif.Props.C124_one_bad_fix` | propext, Classical.choice, Quot.sound |
| C124 | `Verif.Props.C124_bad_alignment` | propext, Classical.choice, Quot.sound |
| C124 | `Verif.Props.C124_unusable_fix_partial` | propext, Classical.choice, Quot.sound |
| C125 | `Verif.Props.C125_rest_stays` | propext, Classical.choice, Quot.sound |
| C125 | `Verif.Props.C125_rest_api` | propext, Classical.choice, Quot.sound |
| C125 | `Verif.Props.C125_balance_is_physical` | propext, Classical.choice, Quot.sound |
| C125 | `Verif.Props.C125_physical_step` | propext, Classical.choice, Quot.sound |
| C125 | `Verif.Props.C125_zihr_learns_the_earth` | propext, Classical.choice, Quot.sound |
| C126 | `Verif.Props.C126_navigating_is_the_filter` | propext, Classical.choice, Quot.sound |
| C126 | `Verif.Props.C126_given_start` | propext, Classical.choice, Quot.sound |
| C126 | `Verif.Props.C126_aligned_start` | propext, Classical.choice, Quot.sound |
| C127 | `Verif.Props.C127_filter` | propext, Classical.choice, Quot.sound |
| C127 | `Verif.Props.C127_start` | propext, Classical.choice, Quot.sound |
| C127 | `Verif.Props.C127_api` | propext, Classical.choice, Quot.sound |
| C127 | `Verif.Props.grid_accurate` | propext, Classical.choice, Quot.sound |
| C128 | `Verif.Props.C128_measured_covariance` | propext, Classical.choice, Quot.sound |
| C128 | `Verif.Props.C128_fixes` | propext, Classical.choice, Quot.sound |
| C128 | `Verif.Props.C128_reported_deviation` | propext, Classical.choice, Quot.sound |
| C129 | `Verif.Props.C129_information` | propext, Classical.choice, Quot.sound |
| C129 | `Verif.Props.C129_order` | propext, Classical.choice, Quot.sound |
| C129 | `Verif.Props.C129_adds_up` | propext, Classical.choice, Quot.sound |
| C129 | `Verif.Props.C129_fix_order` | propext, Classical.choice, Quot.sound |
| C129 | `Verif.Props.C129_correction_order_partial` | propext, Classical.choice, Quot.sound |
| C13 | `Verif.Props.C13_queries_read_only` | propext, Classical.choice, Quot.sound |
| C130 | `Verif.Props.C130_rodrigues_partial` | propext, Classical.choice, Quot.sound |
| C130 | `Verif.Props.C130_zero_rotation_is_nan` | propext, Quot.sound |
| C131 | `Verif.Props.C131_negative_variance` | propext, Classical.choice, Quot.sound |
| C131 | `Verif.Props.C131_config_reports_nan` | propext, Classical.choice, Quot.sound |
| C131 | `Verif.Props.C131_propagation_partial` | propext, Classical.choice, Quot.sound |
| C132 | `Verif.Props.C132_zupt_bounds_velocity` | propext, Classical.choice, Quot.sound |
| C132 | `Verif.Props.C132_reported_deviation` | propext, Classical.choice, Quot.sound |
| C133 | `Verif.Props.C133_excluded_partial` | propext, Classical.choice, Quot.sound |
| C133 | `Verif.Props.C133_result_race` | propext, Classical.choice, Quot.sound |
| C133 | `Verif.Props.C133_gravity_race` | propext, Classical.choice, Quot.sound |
| C133 | `Verif.Props.C133_velocity_race` | propext, Classical.choice, Quot.sound |
| C133 | `Verif.Props.C133_matrix_race` | propext, Classical.choice, Quot.sound |
| C133 | `Verif.Props.C133_covariance_race` | propext, Classical.choice, Quot.sound |
| C134 | `Verif.Props.C134_text_files` | propext, Classical.choice, Quot.sound |
| C134 | `Verif.Props.C134_loop_is_filter` | propext, Classical.choice, Quot.sound |
| C134 | `Verif.Props.C134_fix_formats` | propext, Classical.choice, Quot.sound |
| C134 | `Verif.Props.C134_more_samples_only_add` | propext, Classical.choice, Quot.sound |
| C134 | `Verif.Props.C134_final_newline` | propext, Classical.choice, Quot.sound |
| C135 | `Verif.Props.C135_formats_crash` | propext, Classical.choice, Quot.sound |
| C135 | `Verif.Props.C135_unknown_format` | propext, Classical.choice, Quot.sound |
| C135 | `Verif.Props.C135_bad_text_never_ends` | propext, Classical.choice, Quot.sound |
| C135 | `Verif.Props.C135_readable_partial` | propext, Classical.choice, Quot.sound |
| C136 | `Verif.Props.C136_at_rest_the_tilt_error_grows` | propext, Classical.choice, Quot.sound |
| C136 | `Verif.Props.C136_turns_to_the_force_partial` | propext, Classical.choice, Quot.sound |
| C136 | `Verif.Props.C136_equilibria` | propext, Classical.choice, Quot.sound |
| C136 | `Verif.Props.C136_levels_to_the_force_partial` | propext, Classical.choice, Quot.sound |
| C136 | `Verif.Props.C136_limit` | propext, Classical.choice, Quot.sound |
| C136 | `Verif.Props.C136_settles_upside_down` | propext, Classical.choice, Quot.sound |
| C137 | `Verif.Props.C137_magnetometer_form_shrinks_the_quaternion` | propext, Classical.choice, Quot.sound |
| C137 | `Verif.Props.C137_nonzero_partial` | propext, Classical.choice, Quot.sound |
| C137 | `Verif.Props.C137_magnetometer_fixed_point` | propext, Classical.choice, Quot.sound |
| C138 | `Verif.Props.C138_overflow` | propext, Classical.choice, Quot.sound |
| C138 | `Verif.Props.C138_filter_counters` | propext, Classical.choice, Quot.sound |
| C138 | `Verif.Props.C138_device_partial` | propext, Classical.choice, Quot.sound |
| C138 | `Verif.Props.C138_alignment_counter` | propext, Classical.choice, Quot.sound |
| C139 | `Verif.Props.C139_playback` | propext, Classical.choice, Quot.sound |
| C139 | `Verif.Props.C139_whole_file` | propext, Classical.choice, Quot.sound |
| C139 | `Verif.Props.C139_speed_is_ignored` | propext, Classical.choice, Quot.sound |
| C139 | `Verif.Props.C139_path_bounded` | propext, Classical.choice, Quot.sound |
| C14 | `Verif.Props.C14_instances_isolated` | propext, Classical.choice, Quot.sound |
| C140 | `Verif.Props.C140_no_fix_is_used` | propext, Quot.sound |
| C140 | `Verif.Props.C140_empty_buffer_is_undefined` | propext, Quot.sound |
| C140 | `Verif.Props.C140_waiting_fix_is_replaced` | propext, Classical.choice, Quot.sound |
| C140 | `Verif.Props.C140_without_fixes_undefined` | propext, Quot.sound |
| C140 | `Verif.Props.C140_samples_in_order_partial` | propext, Classical.choice, Quot.sound |
| C140 | `Verif.Props.C140_samples_lost` | propext, Classical.choice, Quot.sound |
| C140 | `Verif.Props.C140_end_marker_is_a_sample` | propext, Quot.sound |
| C141 | `Verif.Props.C141_debug_velocity_deviation_partial` | none |
| C141 | `Verif.Props.C141_violation` | none |
| C142 | `Verif.Props.C142_height_is_the_mean` | propext, Classical.choice, Quot.sound |
| C142 | `Verif.Props.C142_attitude_step_partial` | propext, Classical.choice, Quot.sound |
| C142 | `Verif.Props.C142_not_the_middle` | propext, Classical.choice, Quot.sound |
| C143 | `Verif.Props.C143_covariance_is_the_errors` | propext, Classical.choice, Quot.sound |
| C143 | `Verif.Props.C143_no_linear_estimate_is_better` | propext, Classical.choice, Quot.sound |
| C144 | `Verif.Props.C144_date_line` | propext, Classical.choice, Quot.sound |
| C144 | `Verif.Props.C144_date_line_size` | propext, Classical.choice, Quot.sound |
| C144 | `Verif.Props.C144_same_convention_partial` | propext, Classical.choice, Quot.sound |
| C145 | `Verif.Props.C145_runs_form_partial` | propext, Classical.choice, Quot.sound |
| C145 | `Verif.Props.C145_frame_ignored` | propext, Classical.choice, Quot.sound |
| C145 | `Verif.Props.C145_scale_silent` | propext, Classical.choice, Quot.sound |
| C146 | `Verif.Props.C146_start` | propext, Classical.choice, Quot.sound |
| C146 | `Verif.Props.C146_rejected_changes` | propext, Classical.choice, Quot.sound |
| C147 | `Verif.Props.C147_open_start_partial` | propext, Classical.choice, Quot.sound |
| C147 | `Verif.Props.C147_format_lost` | propext, Classical.choice, Quot.sound |
| C147 | `Verif.Props.C147_time_rounded` | propext, Classical.choice, Quot.sound |
| C148 | `Verif.Props.C148_save_ignores_form` | propext, Classical.choice, Quot.sound |
| C148 | `Verif.Props.C148_save_after_start_partial` | propext, Classical.choice, Quot.sound |
| C148 | `Verif.Props.C148_open_ends` | propext, Classical.choice, Quot.sound |
| C149 | `Verif.Props.C149_nose_up` | propext, Classical.choice, Quot.sound |
| C149 | `Verif.Props.C149_zero_roll` | propext, Classical.choice, Quot.sound |
| C149 | `Verif.Props.C149_zero_roll_down` | propext, Classical.choice, Quot.sound |
| C149 | `Verif.Props.C149_nose_down` | propext, Classical.choice, Quot.sound |
| C149 | `Verif.Props.C149_north_south_swapped` | propext, Classical.choice, Quot.sound |
| C15 | `Verif.Props.C15_use_given_starts_at_first_imu` | propext, Classical.choice, Quot.sound |
| C150 | `Verif.Props.C150_filter` | propext, Classical.choice, Quot.sound |
| C150 | `Verif.Props.C150_angles_output_only` | propext, Classical.choice, Quot.sound |
| C151 | `Verif.Props.C151_search_partial` | propext, Quot.sound |
| C151 | `Verif.Props.C151_failed` | propext |
| C151 | `Verif.Props.C151_no_measurement` | propext, Quot.sound |
| C152 | `Verif.Props.C152_repeated_fix` | propext, Classical.choice, Quot.sound |
| C152 | `Verif.Props.C152_steady` | propext, Classical.choice, Quot.sound |
| C152 | `Verif.Props.C152_equal_stamps` | propext, Classical.choice, Quot.sound |
| C153 | `Verif.Props.C153_never_starts` | propext, Classical.choice, Quot.sound |
| C153 | `Verif.Props.C153_used_partial` | propext, Classical.choice, Quot.sound |
| C154 | `Verif.Props.C154_read_back` | propext, Classical.choice, Quot.sound |
| C154 | `Verif.Props.C154_times` | propext, Classical.choice, Quot.sound |
| C155 | `Verif.Props.C155_update` | propext, Classical.choice, Quot.sound |
| C155 | `Verif.Props.C155_predict` | propext, Classical.choice, Quot.sound |
| C155 | `Verif.Props.C155_history` | propext, Classical.choice, Quot.sound |
| C155 | `Verif.Props.C155_better_fix` | propext, Classical.choice, Quot.sound |
| C156 | `Verif.Props.C156_uncorrelated` | propext, Classical.choice, Quot.sound |
| C156 | `Verif.Props.C156_first_fix` | propext, Classical.choice, Quot.sound |
| C157 | `Verif.Props.C157_ahrs_rows` | propext, Classical.choice, Quot.sound |
| C157 | `Verif.Props.C157_align_rows` | propext, Classical.choice, Quot.sound |
| C158 | `Verif.Props.C158_statistic` | propext, Classical.choice, Quot.sound |
| C158 | `Verif.Props.C158_inverted` | propext, Classical.choice, Quot.sound |
| C158 | `Verif.Props.C158_never_rejected` | propext, Classical.choice, Quot.sound |
| C158 | `Verif.Props.C158_any_jump` | propext, Classical.choice, Quot.sound |
| C159 | `Verif.Props.C159_either_convention` | propext, Classical.choice, Quot.sound |
| C16 | `Verif.Props.C16_moving_alignment_needs_static_and_motion` | propext, Classical.choice, Quot.sound |
| C160 | `Verif.Props.C160_any_clock` | propext, Classical.choice, Quot.sound |
| C160 | `Verif.Props.C160_time_origin` | propext, Classical.choice, Quot.sound |
| C161 | `Verif.Props.C161_only_ratios_matter` | propext, Classical.choice, Quot.sound |
| C162 | `Verif.Props.C162_rows_partial` | propext, Classical.choice, Quot.sound |
| C162 | `Verif.Props.C162_horizontal_wrong` | propext, Classical.choice, Quot.sound |
| C163 | `Verif.Props.C163_report_shows_the_file` | propext, Classical.choice, Quot.sound |
| C164 | `Verif.Props.C164_mounting_does_not_matter` | propext, Classical.choice, Quot.sound |
| C165 | `Verif.Props.C165_eleven_columns` | propext, Classical.choice, Quot.sound |
| C165 | `Verif.Props.C165_result_files_partial` | propext, Classical.choice, Quot.sound |
| C165 | `Verif.Props.C165_speed` | propext, Classical.choice, Quot.sound |
| C165 | `Verif.Props.C165_missing_file` | propext, Classical.choice, Quot.sound |
| C165 | `Verif.Props.C165_bad_word` | propext, Classical.choice, Quot.sound |
| C165 | `Verif.Props.C165_huge_week` | propext, Classical.choice, Quot.sound |
| C165 | `Verif.Props.C165_violated` | propext, Classical.choice, Quot.sound |
| C166 | `Verif.Props.C166_rows_judged` | propext, Classical.choice, Quot.sound |
| C166 | `Verif.Props.C166_two_sigma` | propext, Classical.choice, Quot.sound |
| C166 | `Verif.Props.C166_accepted_partial` | propext, Classical.choice, Quot.sound |
| C166 | `Verif.Props.C166_rejected` | propext, Classical.choice, Quot.sound |
| C166 | `Verif.Props.C166_concentrated` | propext, Classical.choice, Quot.sound |
| C166 | `Verif.Props.C166_accepts_concentrated` | propext, Classical.choice, Quot.sound |
| C166 | `Verif.Props.C166_constant` | propext, Classical.choice, Quot.sound |
| C166 | `Verif.Props.C166_violated` | propext, Classical.choice, Quot.sound |
| C167 | `Verif.Props.C167_heading_error` | propext, Classical.choice, Quot.sound |
| C168 | `Verif.Props.C168_position_errors` | propext, Classical.choice, Quot.sound |
| C168 | `Verif.Props.C168_zero_partial` | propext, Classical.choice, Quot.sound |
| C168 | `Verif.Props.C168_violated` | propext, Classical.choice, Quot.sound |
| C169 | `Verif.Props.C169_direction_only` | propext, Classical.choice, Quot.sound |
| C169 | `Verif.Props.C169_free_fall` | propext, Classical.choice, Quot.sound |
| C169 | `Verif.Props.C169_listens_above_half` | propext, Classical.choice, Quot.sound |
| C169 | `Verif.Props.C169_magnetometer` | propext, Classical.choice, Quot.sound |
| C17 | `Verif.Props.C17_alignment_progress_kept` | propext, Classical.choice, Quot.sound |
| C17 | `Verif.Props.C17_status_implies_alignment` | propext, Classical.choice, Quot.sound |
| C170 | `Verif.Props.C170_north_reading_turns_the_device` | propext, Classical.choice, Quot.sound |
| C170 | `Verif.Props.C170_second_axis_partial` | propext, Classical.choice, Quot.sound |
| C170 | `Verif.Props.C170_heading_convention` | propext, Classical.choice, Quot.sound |
| C171 | `Verif.Props.C171_sensors_never_shown` | propext, Classical.choice, Quot.sound |
| C171 | `Verif.Props.C171_mode_and_flags_as_bias` | propext, Classical.choice, Quot.sound |
| C171 | `Verif.Props.C171_marked_times_partial` | propext, Classical.choice, Quot.sound |
| C171 | `Verif.Props.C171_bias_plot_partial` | propext, Quot.sound |
| C171 | `Verif.Props.C171_bias_plot_short` | propext |
| C172 | `Verif.Props.C172_velocity_and_height` | propext, Classical.choice, Quot.sound |
| C173 | `Verif.Props.C173_violated` | propext, Classical.choice, Quot.sound |
| C173 | `Verif.Props.C173_force_vanishes` | propext, Classical.choice, Quot.sound |
| C173 | `Verif.Props.C173_never_grows` | propext, Classical.choice, Quot.sound |
| C173 | `Verif.Props.C173_position_partial` | propext, Classical.choice, Quot.sound |
| C174 | `Verif.Props.C174_there_and_back` | propext, Classical.choice, Quot.sound |
| C174 | `Verif.Props.C174_on_the_ellipsoid` | propext, Classical.choice, Quot.sound |
| C174 | `Verif.Props.C174_antimeridian` | propext, Classical.choice, Quot.sound |
| C174 | `Verif.Props.C174_same_place` | propext, Classical.choice, Quot.sound |
| C175 | `Verif.Props.C175_lever_arm` | propext, Classical.choice, Quot.sound |
| C176 | `Verif.Props.C176_error_partial` | propext, Classical.choice, Quot.sound |
| C176 | `Verif.Props.C176_any_latitude` | propext, Classical.choice, Quot.sound |
| C176 | `Verif.Props.C176_after_correction` | propext, Classical.choice, Quot.sound |
| C176 | `Verif.Props.standsFor_iff` | propext, Classical.choice, Quot.sound |
| C177 | `Verif.Props.C177_least_squares` | propext, Classical.choice, Quot.sound |
| C177 | `Verif.Props.C177_consistent` | propext, Classical.choice, Quot.sound |
| C178 | `Verif.Props.C178_poses_partial` | propext, Classical.choice, Quot.sound |
| C178 | `Verif.Props.C178_out_of_range` | propext, Classical.choice, Quot.sound |
| C178 | `Verif.Props.C178_every_file` | propext, Classical.choice, Quot.sound |
| C178 | `Verif.Props.C178_rotation` | propext, Classical.choice, Quot.sound |
| C178 | `Verif.Props.C178_heading_not_shown` | propext, Classical.choice, Quot.sound |
| C178 | `Verif.Props.C178_points_partial` | propext, Classical.choice, Quot.sound |
| C179 | `Verif.Props.C179_restart_exact` | propext, Classical.choice, Quot.sound |
| C179 | `Verif.Props.C179_restart_at_200Hz_partial` | propext, Classical.choice, Quot.sound |
| C179 | `Verif.Props.C179_always_5ms` | propext, Classical.choice, Quot.sound |
| C179 | `Verif.Props.C179_rate_ignored` | propext, Classical.choice, Quot.sound |
| C179 | `Verif.Props.C179_bias_kept` | propext, Classical.choice, Quot.sound |
| C179 | `Verif.Props.C179_bias_matters` | propext, Classical.choice, Quot.sound |
| C18 | `Verif.Props.C18_fault_config_partial` | propext, Classical.choice, Quot.sound |
| C18 | `Verif.Props.C18_rejected_init_keeps_navigating` | propext, Classical.choice, Quot.sound |
| C180 | `Verif.Props.C180_reports_the_epoch_partial` | propext, Classical.choice, Quot.sound |
| C180 | `Verif.Props.C180_rest_is_zero` | propext, Classical.choice, Quot.sound |
| C180 | `Verif.Props.C180_agrees_with_the_filter` | propext, Classical.choice, Quot.sound |
| C181 | `Verif.Props.C181_span_partial` | propext, Quot.sound |
| C181 | `Verif.Props.C181_open_end` | propext, Quot.sound |
| C181 | `Verif.Props.C181_no_start_time` | propext, Quot.sound |
| C182 | `Verif.Props.C182_numbers` | propext, Quot.sound |
| C182 | `Verif.Props.C182_percent_partial` | propext, Classical.choice, Quot.sound |
| C182 | `Verif.Props.C182_out_of_range` | propext, Classical.choice, Quot.sound |
| C183 | `Verif.Props.C183_in_order` | propext, Quot.sound |
| C183 | `Verif.Props.C183_each_once_partial` | propext, Classical.choice, Quot.sound |
| C183 | `Verif.Props.C183_first_missed` | propext, Quot.sound |
| C183 | `Verif.Props.C183_on_the_grid` | propext, Classical.choice, Quot.sound |
| C184 | `Verif.Props.C184_told_partial` | propext, Classical.choice, Quot.sound |
| C184 | `Verif.Props.C184_silent` | propext, Quot.sound |
| C185 | `Verif.Props.C185_defined_partial` | propext, Classical.choice, Quot.sound |
| C185 | `Verif.Props.C185_moving` | propext, Classical.choice, Quot.sound |
| C186 | `Verif.Props.C186_one_figure` | propext, Classical.choice, Quot.sound |
| C187 | `Verif.Props.C187_records_partial` | propext, Classical.choice, Quot.sound |
| C187 | `Verif.Props.C187_line_end` | propext, Classical.choice, Quot.sound |
| C187 | `Verif.Props.C187_appends` | propext, Classical.choice, Quot.sound |
| C188 | `Verif.Props.C188_mode_as_bias` | propext, Classical.choice, Quot.sound |
| C188 | `Verif.Props.C188_whole_files` | propext, Classical.choice, Quot.sound |
| C188 | `Verif.Props.C188_seventeen_columns_partial` | propext, Classical.choice, Quot.sound |
| C189 | `Verif.Props.C189_last_twice_partial` | propext, Classical.choice, Quot.sound |
| C19 | `Verif.Props.C19_get_result_writes` | propext, Classical.choice, Quot.sound |
| C190 | `Verif.Props.C190_unreadable_partial` | propext, Classical.choice, Quot.sound |
| C190 | `Verif.Props.C190_dropped_files_ignored` | propext, Classical.choice, Quot.sound |
| C191 | `Verif.Props.C191_fixed_file_partial` | propext |
| C191 | `Verif.Props.C191_other_files_partial` | propext, Quot.sound |
| C191 | `Verif.Props.C191_times` | propext, Classical.choice, Quot.sound |
| C191 | `Verif.Props.C191_rotation` | propext, Classical.choice, Quot.sound |
| C192 | `Verif.Props.C192_lines_partial` | propext, Classical.choice, Quot.sound |
| C193 | `Verif.Props.C193_rows_partial` | propext, Classical.choice, Quot.sound |
| C194 | `Verif.Props.C194_attitude_is_composition` | propext, Classical.choice, Quot.sound |
| C194 | `Verif.Props.C194_small_turns` | propext, Classical.choice, Quot.sound |
| C195 | `Verif.Props.C195_rounding_drift` | propext, Classical.choice, Quot.sound |
| C195 | `Verif.Props.C195_two_hours` | propext, Classical.choice, Quot.sound |
| C196 | `Verif.Props.C196_earth_attitude` | propext, Classical.choice, Quot.sound |
| C196 | `Verif.Props.C196_same_gyroscopes` | propext, Classical.choice, Quot.sound |
| C197 | `Verif.Props.C197_no_jump` | propext, Classical.choice, Quot.sound |
| C197 | `Verif.Props.C197_speed_limit` | propext, Classical.choice, Quot.sound |
| C198 | `Verif.Props.C198_follows_truth` | propext, Classical.choice, Quot.sound |
| C199 | `Verif.Props.C199_force_integral` | propext, Classical.choice, Quot.sound |
| C20 | `Verif.Props.C20_atti_vel_std_partial` | propext, Classical.choice, Quot.sound |
| C20 | `Verif.Props.C20_get_pos_returns_attitude_std` | propext, Classical.choice, Quot.sound |
| C20 | `Verif.Props.C20_get_pos_wrong_on_reachable_state` | propext, Classical.choice, Quot.sound |
| C200 | `Verif.Props.C200_velocity_moves` | propext, Classical.choice, Quot.sound |
| C200 | `Verif.Props.C200_free_fall` | propext, Classical.choice, Quot.sound |
| C201 | `Verif.Props.C201_strapdown_converges` | propext, Classical.choice, Quot.sound |
| C202 | `Verif.Props.C202_errors_grow_in_proportion` | propext, Classical.choice, Quot.sound |
| C203 | `Verif.Props.C203_rounded_flight_follows` | propext, Classical.choice, Quot.sound |
| C204 | `Verif.Props.C204_loads_accumulate` | propext, Classical.choice, Quot.sound |
| C204 | `Verif.Props.C204_not_the_last_file` | propext, Classical.choice, Quot.sound |
| C204 | `Verif.Props.C204_missing_file_keeps_data` | none |
| C204 | `Verif.Props.C204_headless_file_keeps_data` | propext, Quot.sound |
| C205 | `Verif.Props.C205_no_aid_is_the_mechanization` | propext, Classical.choice, Quot.sound |
| C205 | `Verif.Props.C205_reports_follow_the_flight` | propext, Classical.choice, Quot.sound |
| C206 | `Verif.Props.C206_rounded_reports_follow_the_flight` | propext, Classical.choice, Quot.sound |
| C206 | `Verif.Props.C206_rounded_attitude` | propext, Classical.choice, Quot.sound |
| C207 | `Verif.Props.C207_one_line_per_sample` | propext, Classical.choice, Quot.sound |
| C207 | `Verif.Props.C207_result_file_follows_the_flight` | propext, Classical.choice, Quot.sound |
| C207 | `Verif.Props.C207_rounded_result_file` | propext, Classical.choice, Quot.sound |
| C207 | `Verif.Props.C207_rounded_attitude` | propext, Classical.choice, Quot.sound |
| C208 | `Verif.Props.C208_gap_is_the_mechanization` | propext, Classical.choice, Quot.sound |
| C208 | `Verif.Props.C208_gap_follows_the_flight` | propext, Classical.choice, Quot.sound |
| C208 | `Verif.Props.C208_ready` | propext, Classical.choice, Quot.sound |
| C209 | `Verif.Props.C209_measurement` | propext, Classical.choice, Quot.sound |
| C209 | `Verif.Props.C209_fix` | propext, Classical.choice, Quot.sound |
| C209 | `Verif.Props.C209_reported` | propext, Classical.choice, Quot.sound |
| C209 | `Verif.Props.C209_height` | propext, Classical.choice, Quot.sound |
| C21 | `Verif.Props.C21_unusable_fix_changes_info_only` | propext, Classical.choice, Quot.sound |
| C21 | `Verif.Props.C21_unusable_fix_invisible` | propext, Classical.choice, Quot.sound |
| C210 | `Verif.Props.C210_filter_follows_the_flight_partial` | propext, Classical.choice, Quot.sound |
| C210, C212 | `Verif.Props.C212_filter_follows_the_flight` | propext, Classical.choice, Quot.sound |
| C211 | `Verif.Props.C211_one_line_per_record` | propext, Classical.choice, Quot.sound |
| C211 | `Verif.Props.C211_result_file_with_fixes_partial` | propext, Classical.choice, Quot.sound |
| C211, C213 | `Verif.Props.C213_result_file_with_fixes` | propext, Classical.choice, Quot.sound |
| C214 | `Verif.Props.C214_deviations_stay_bounded` | propext, Classical.choice, Quot.sound |
| C215 | `Verif.Props.C215_fixes_never_add_uncertainty` | propext, Classical.choice, Quot.sound |
| C216 | `Verif.Props.C216_file_deviations` | propext, Classical.choice, Quot.sound |
| C216 | `Verif.Props.C216_fix_lines` | propext, Classical.choice, Quot.sound |
| C22 | `Verif.Props.C22_reinit_forgets` | propext, Classical.choice, Quot.sound |
| C22 | `Verif.Props.C22_reinit_forgets_moving` | propext, Classical.choice, Quot.sound |
| C23 | `Verif.Props.C23_covariance_symmetric` | propext, Classical.choice, Quot.sound |
| C23 | `Verif.Props.C23_api_covariance_symmetric` | propext, Classical.choice, Quot.sound |
| C24 | `Verif.Props.C24_update_valid` | propext, Classical.choice, Quot.sound |
| C25 | `Verif.Props.C25_covariance_ignores_values` | propext, Classical.choice, Quot.sound |
| C25 | `Verif.Props.C25_fix_values_do_not_matter` | propext, Classical.choice, Quot.sound |
| C26 | `Verif.Props.C26_predict_valid_partial` | propext, Classical.choice, Quot.sound |
| C26 | `Verif.Props.C26_process_noise_invalid` | propext, Classical.choice, Quot.sound |
| C26 | `Verif.Props.C26_first_sample_breaks_covariance` | propext, Classical.choice, Quot.sound |
| C26 | `Verif.Props.C26_lack_of_validity_partial` | propext, Classical.choice, Quot.sound |
| C27 | `Verif.Props.C27_last_fix_applied_partial` | propext, Classical.choice, Quot.sound |
| C27 | `Verif.Props.C27_first_of_two_fixes_is_lost` | propext, Classical.choice, Quot.sound |
| C27 | `Verif.Props.C27_zupta_loses_zupt` | propext, Classical.choice, Quot.sound |
| C27 | `Verif.Props.C27_outstanding_share_is_dropped` | propext |
| C27 | `Verif.Props.C27_share_before_first_fix` | propext, Classical.choice, Quot.sound |
| C28, C29 | `Verif.Props.C28_C29_filter` | propext, Classical.choice, Quot.sound |
| C28, C29 | `Verif.Props.C28_C29_api` | propext, Classical.choice, Quot.sound |
| C30 | `Verif.Props.C30_schedule` | propext, Classical.choice, Quot.sound |
| C31 | `Verif.Props.C31_flags_after_imu` | propext, Classical.choice, Quot.sound |
| C31 | `Verif.Props.C31_flags_after_gnss` | propext, Classical.choice, Quot.sound |
| C31 | `Verif.Props.C31_flags_after_odometer` | propext, Classical.choice, Quot.sound |
| C31 | `Verif.Props.C31_flags_after_speed` | propext, Classical.choice, Quot.sound |
| C31 | `Verif.Props.C31_flags_after_height` | propext, Classical.choice, Quot.sound |
| C32 | `Verif.Props.C32_result_time_is_last_imu` | propext, Classical.choice, Quot.sound |
| C32 | `Verif.Props.C32_filter_time_is_last_imu` | propext, Classical.choice, Quot.sound |
| C33 | `Verif.Props.C33_static_criterion` | propext, Classical.choice, Quot.sound |
| C34 | `Verif.Props.C34_smoothed_statistics` | propext, Classical.choice, Quot.sound |
| C35 | `Verif.Props.C35_after_fix_partial` | propext, Classical.choice, Quot.sound |
| C35 | `Verif.Props.C35_sixth_height_without_fix` | propext, Classical.choice, Quot.sound |
| C36 | `Verif.Props.C36_zero_innovation` | propext, Classical.choice, Quot.sound |
| C36 | `Verif.Props.C36_perfect_measurement` | propext, Classical.choice, Quot.sound |
| C36 | `Verif.Props.C36_perfect_fix` | propext, Classical.choice, Quot.sound |
| C37 | `Verif.Props.C37_reported_deviation` | propext, Classical.choice, Quot.sound |
| C38 | `Verif.Props.C38_euler_matrix_is_rotation` | propext, Classical.choice, Quot.sound |
| C39 | `Verif.Props.C39_euler_quaternion_agrees` | propext, Classical.choice, Quot.sound |
| C39 | `Verif.Props.C39_matrix_acts_as_quaternion` | propext, Classical.choice, Quot.sound |
| C40 | `Verif.Props.C40_euler_round_trip` | propext, Classical.choice, Quot.sound |
| C40 | `Verif.Props.C40_matrix_round_trip` | propext, Classical.choice, Quot.sound |
| C40 | `Verif.Props.C40_lock_reports_nan` | propext, Classical.choice, Quot.sound |
| C41 | `Verif.Props.C41_lat_lon_round_trip` | propext, Classical.choice, Quot.sound |
| C41 | `Verif.Props.C41_position_quaternion` | propext, Classical.choice, Quot.sound |
| C42 | `Verif.Props.C42_skew_is_cross` | propext, Classical.choice, Quot.sound |
| C43 | `Verif.Props.C43_rotation_vector` | propext, Classical.choice, Quot.sound |
| C43 | `Verif.Props.C43_scalar_part_can_be_negative` | propext, Classical.choice, Quot.sound |
| C44 | `Verif.Props.C44_radii` | propext, Classical.choice, Quot.sound |
| C45 | `Verif.Props.C45_distance_with_heights` | propext, Classical.choice, Quot.sound |
| C45 | `Verif.Props.C45_distance_without_heights_wrong` | propext, Classical.choice, Quot.sound |
| C46 | `Verif.Props.C46_ecef` | propext, Classical.choice, Quot.sound |
| C47 | `Verif.Props.C47_ahrs_invariant` | propext, Classical.choice, Quot.sound |
| C48 | `Verif.Props.C48_set_angles` | propext, Classical.choice, Quot.sound |
| C48 | `Verif.Props.C48_set_quaternion_invisible` | propext, Classical.choice, Quot.sound |
| C48 | `Verif.Props.C48_quaternion_violation` | propext, Classical.choice, Quot.sound |
| C49 | `Verif.Props.C49_dcm_orthogonal` | propext, Classical.choice, Quot.sound |
| C49 | `Verif.Props.C49_dcm_optimal` | propext, Classical.choice, Quot.sound |
| C49 | `Verif.Props.C49_can_be_reflection` | propext, Classical.choice, Quot.sound |
| C50 | `Verif.Props.C50_outage_windows` | propext, Classical.choice, Quot.sound |
| C51 | `Verif.Props.C51_terminates_partial` | propext, Classical.choice, Quot.sound |
| C51 | `Verif.Props.C51_does_not_terminate` | none |
| C51 | `Verif.Props.C51_hangs_iff` | propext, Classical.choice, Quot.sound |
| C52 | `Verif.Props.C52_delivered_sorted` | propext, Classical.choice, Quot.sound |
| C52 | `Verif.Props.delivered_is_merge` | propext, Classical.choice, Quot.sound |
| C53 | `Verif.Props.C53_prefixes` | propext, Classical.choice, Quot.sound |
| C53 | `Verif.Props.C53_one_source_complete` | propext, Classical.choice, Quot.sound |
| C53 | `Verif.Props.C53_imu_only` | propext, Quot.sound |
| C53 | `Verif.Props.C53_third_file_stops_delivery` | propext, Quot.sound |
| C54 | `Verif.Props.C54_move_to_time` | propext, Classical.choice, Quot.sound |
| C54 | `Verif.Props.C54_nothing_earlier` | propext, Classical.choice, Quot.sound |
| C55 | `Verif.Props.C55_reset_replays` | propext, Classical.choice, Quot.sound |
| C56 | `Verif.Props.C56_quality_ignored` | propext, Classical.choice, Quot.sound |
| C56 | `Verif.Props.C56_invalid_fix_is_fused` | propext, Classical.choice, Quot.sound |
| C57 | `Verif.Props.C57_outage_hides_gnss` | propext, Classical.choice, Quot.sound |
| C57 | `Verif.Props.C57_hidden_iff_in_window` | propext, Classical.choice, Quot.sound |
| C57 | `Verif.Props.post_is_replay` | propext, Classical.choice, Quot.sound |
| C58 | `Verif.Props.C58_fifo_prefix` | propext |
| C59 | `Verif.Props.C59_flushed_partial` | propext, Quot.sound |
| C59 | `Verif.Props.C59_stop_loses_everything` | propext, Quot.sound |
| C59 | `Verif.Props.C59_last_messages_lost` | propext |
| C59 | `Verif.Props.C59_runs_until_stop` | propext |
| C59 | `Verif.Props.C59_stop_returns` | propext, Classical.choice, Quot.sound |
| C60 | `Verif.Props.C60_frame_conversion` | propext, Classical.choice, Quot.sound |
| C60 | `Verif.Props.C60_record` | propext, Classical.choice, Quot.sound |
| C61 | `Verif.Props.C61_binary_file` | propext, Quot.sound |
| C61 | `Verif.Props.C61_extra_record` | propext, Classical.choice, Quot.sound |
| C61 | `Verif.Props.C61_text_file` | propext, Classical.choice, Quot.sound |
| C62 | `Verif.Props.C62_gga_line` | propext, Classical.choice, Quot.sound |
| C63 | `Verif.Props.C63_saved_never_loads` | propext, Classical.choice, Quot.sound |
| C63 | `Verif.Props.C63_saveConfig_never_loads` | propext, Classical.choice, Quot.sound |
| C63 | `Verif.Props.C63_missing_keys` | propext, Classical.choice, Quot.sound |
| C63 | `Verif.Props.C63_round_trip_partial` | propext, Classical.choice, Quot.sound |
| C63 | `Verif.Props.C63_threshold_truncated` | propext, Classical.choice, Quot.sound |
| C63 | `Verif.Props.C63_saveConfig_loses_zupta` | propext, Classical.choice, Quot.sound |
| C64 | `Verif.Props.C64_get_option` | propext, Classical.choice, Quot.sound |
| C64 | `Verif.Props.C64_use_given_starts_certain` | propext, Classical.choice, Quot.sound |
| C65 | `Verif.Props.C65_layout` | none |
| C65 | `Verif.Props.C65_overlap` | propext, Quot.sound |
| C65 | `Verif.Props.C65_count` | none |
| C66 | `Verif.Props.C66_accepts_iff_zero` | propext, Quot.sound |
| C66 | `Verif.Props.C66_valid_frames_refused` | propext, Quot.sound |
| C66 | `Verif.Props.C66_accepted_valid_partial` | propext, Quot.sound |
| C67 | `Verif.Props.C67_velocity_raw` | propext, Classical.choice, Quot.sound |
| C67 | `Verif.Props.C67_velocity` | propext, Classical.choice, Quot.sound |
| C68 | `Verif.Props.C68_initial_covariance` | propext, Classical.choice, Quot.sound |
| C69 | `Verif.Props.C69_compensation` | propext, Classical.choice, Quot.sound |
| C69 | `Verif.Props.C69_consequences` | propext, Classical.choice, Quot.sound |
| C70 | `Verif.Props.C70_no_junk_use_given` | propext, Classical.choice, Quot.sound |
| C70 | `Verif.Props.C70_only_previous_velocity_partial` | propext, Classical.choice, Quot.sound |
| C70 | `Verif.Props.C70_first_velocity_depends_on_memory` | propext, Classical.choice, Quot.sound |
| C71 | `Verif.Props.C71_progress` | propext, Classical.choice, Quot.sound |
| C72 | `Verif.Props.C72_stop_time_ignored` | propext, Classical.choice, Quot.sound |
| C72 | `Verif.Props.C72_every_record_written` | propext, Classical.choice, Quot.sound |
| C73 | `Verif.Props.C73_parameter_units` | propext, Classical.choice, Quot.sound |
| C73 | `Verif.Props.C73_all_or_nothing` | propext, Classical.choice, Quot.sound |
| C73 | `Verif.Props.C73_missing_key_fails` | propext, Classical.choice, Quot.sound |
| C74 | `Verif.Props.C74_gap_statistics` | propext, Classical.choice, Quot.sound |
| C74 | `Verif.Props.C74_average_too_small` | propext, Classical.choice, Quot.sound |
| C75 | `Verif.Props.C75_bad_token_hangs` | propext, Quot.sound |
| C75 | `Verif.Props.C75_record_of_a_header` | propext, Quot.sound |
| C75 | `Verif.Props.C75_numbers_end_partial` | propext, Quot.sound |
| C76 | `Verif.Props.C76_gnss_file` | propext, Classical.choice, Quot.sound |
| C76 | `Verif.Props.C76_bad_line_truncates` | propext, Classical.choice, Quot.sound |
| C76 | `Verif.Props.C76_complete` | propext, Classical.choice, Quot.sound |
| C76 | `Verif.Props.C76_extra_fix` | propext, Classical.choice, Quot.sound |
| C76 | `Verif.Props.C76_ten_columns_is_ub` | propext, Classical.choice, Quot.sound |
| C77 | `Verif.Props.C77_ascii_is_binary` | none |
| C77 | `Verif.Props.C77_pva_writer_partial` | none |
| C78 | `Verif.Props.C78_gyro_scale_misses_attitude` | propext, Classical.choice, Quot.sound |
| C78 | `Verif.Props.C78_acce_scale_misses_velocity` | propext, Classical.choice, Quot.sound |
| C78 | `Verif.Props.C78_biases_couple` | propext, Classical.choice, Quot.sound |
| C79 | `Verif.Props.C79_increment` | propext, Classical.choice, Quot.sound |
| C79 | `Verif.Props.C79_message` | propext, Classical.choice, Quot.sound |
| C79 | `Verif.Props.C79_scale` | propext, Classical.choice, Quot.sound |
| C80 | `Verif.Props.C80_scale_factor` | propext, Classical.choice, Quot.sound |
| C80 | `Verif.Props.C80_no_odometer` | propext, Classical.choice, Quot.sound |
| C81 | `Verif.Props.C81_strapdown_consistent` | propext, Classical.choice, Quot.sound |
| C82 | `Verif.Props.C82_coning_exact` | propext, Classical.choice, Quot.sound |
| C82 | `Verif.Props.C82_sculling_exact` | propext, Classical.choice, Quot.sound |
| C83 | `Verif.Props.C83_feedback` | propext, Classical.choice, Quot.sound |
| C83 | `Verif.Props.C83_position_innovation` | propext, Classical.choice, Quot.sound |
| C83 | `Verif.Props.C83_position_sensitivity` | propext, Classical.choice, Quot.sound |
| C83 | `Verif.Props.C83_velocity_prediction` | propext, Classical.choice, Quot.sound |
| C83 | `Verif.Props.C83_velocity_sensitivity` | propext, Classical.choice, Quot.sound |
| C84 | `Verif.Props.C84_result` | propext, Classical.choice, Quot.sound |
| C84 | `Verif.Props.C84_projected_position` | propext, Classical.choice, Quot.sound |
| C84 | `Verif.Props.C84_projected_attitude` | propext, Classical.choice, Quot.sound |
| C85 | `Verif.Props.C85_getters_agree` | propext, Classical.choice, Quot.sound |
| C86 | `Verif.Props.C86_handover` | propext, Classical.choice, Quot.sound |
| C86 | `Verif.Props.given_ok` | propext, Classical.choice, Quot.sound |
| C87 | `Verif.Props.C87_levelling` | propext, Classical.choice, Quot.sound |
| C87 | `Verif.Props.C87_roll_right_iff` | propext, Classical.choice, Quot.sound |
| C88 | `Verif.Props.C88_position` | propext, Classical.choice, Quot.sound |
| C88 | `Verif.Props.C88_antenna_at_fix_partial` | propext, Classical.choice, Quot.sound |
| C88 | `Verif.Props.C88_mounting_misplaces` | propext, Classical.choice, Quot.sound |
| C89 | `Verif.Props.C89_velocity` | propext, Classical.choice, Quot.sound |
| C89 | `Verif.Props.C89_remembers` | propext, Classical.choice, Quot.sound |
| C89 | `Verif.Props.C89_uniform_motion` | propext, Classical.choice, Quot.sound |
| C90 | `Verif.Props.C90_deviations` | propext, Classical.choice, Quot.sound |
| C90 | `Verif.Props.C90_worse_fix_better_attitude` | propext, Classical.choice, Quot.sound |
| C91 | `Verif.Props.C91_configured_biases` | propext, Classical.choice, Quot.sound |
| C91 | `Verif.Props.C91_static_bias` | propext, Classical.choice, Quot.sound |
| C92 | `Verif.Props.C92_gravity` | propext, Classical.choice, Quot.sound |
| C92 | `Verif.Props.C92_grows_high` | propext, Classical.choice, Quot.sound |
| C92 | `Verif.Props.C92_start_gravity` | propext, Classical.choice, Quot.sound |
| C93 | `Verif.Props.C93_linearisation` | propext, Classical.choice, Quot.sound |
| C93 | `Verif.Props.C93_transition` | propext, Classical.choice, Quot.sound |
| C93 | `Verif.Props.C93_covariance` | propext, Classical.choice, Quot.sound |
| C93 | `Verif.Props.C93_gravity_residual` | propext, Classical.choice, Quot.sound |
| C94 | `Verif.Props.C94_remaining_innovation` | propext, Classical.choice, Quot.sound |
| C94 | `Verif.Props.C94_zero_velocity` | propext, Classical.choice, Quot.sound |
| C94 | `Verif.Props.C94_zero_rate` | propext, Classical.choice, Quot.sound |
| C94 | `Verif.Props.C94_relative_height` | propext, Classical.choice, Quot.sound |
| C94 | `Verif.Props.C94_odometer` | propext, Classical.choice, Quot.sound |
| C94 | `Verif.Props.C94_odometer_constrained` | propext, Classical.choice, Quot.sound |
| C94 | `Verif.Props.C94_constraint` | propext, Classical.choice, Quot.sound |
| C94 | `Verif.Props.C94_never_farther` | propext, Classical.choice, Quot.sound |
| C94 | `Verif.Props.C94_fix` | propext, Classical.choice, Quot.sound |
| C94 | `Verif.Props.C94_wheel_never_farther` | propext, Classical.choice, Quot.sound |
| C95 | `Verif.Props.C95_optimal_gain` | propext, Classical.choice, Quot.sound |
| C96 | `Verif.Props.C96_share` | propext, Classical.choice, Quot.sound |
| C96 | `Verif.Props.C96_shares_end` | propext, Classical.choice, Quot.sound |
| C97 | `Verif.Props.C97_options` | none |
| C97 | `Verif.Props.C97_cmake` | none |
| C97 | `Verif.Props.C97_within` | propext, Classical.choice, Quot.sound |
| C97 | `Verif.Props.C97_layout` | propext, Classical.choice, Quot.sound |
| C97 | `Verif.Props.C97_overlap` | propext, Quot.sound |
| C98 | `Verif.Props.C98_default_build` | propext, Classical.choice, Quot.sound |
| C98 | `Verif.Props.C98_extended_builds` | propext, Classical.choice, Quot.sound |
| C98 | `Verif.Props.C98_fix_is_fatal` | propext, Classical.choice, Quot.sound |
| C99 | `Verif.Props.C99_gyro_scale_wrong_rows` | propext, Classical.choice, Quot.sound |
| C99 | `Verif.Props.C99_acce_scale_wrong_rows` | propext, Classical.choice, Quot.sound |
