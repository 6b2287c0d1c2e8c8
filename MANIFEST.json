{
 "claims": [
  {
   "property": "C01",
   "status": "proved",
   "theorems": [
    "Verif.Props.C01_crc_table_correct"
   ],
   "note": "for every byte list the table-driven CRC equals the bitwise CRC"
  },
  {
   "property": "C02",
   "status": "proved",
   "theorems": [
    "Verif.Props.C02_written_checksum_verifies",
    "Verif.Props.C02_only_that_checksum_verifies"
   ],
   "note": ""
  },
  {
   "property": "C03",
   "status": "proved",
   "theorems": [
    "Verif.Props.C03_burst_detected_bits",
    "Verif.Props.C03_burst_detected"
   ],
   "note": ""
  },
  {
   "property": "C04",
   "status": "proved",
   "theorems": [
    "Verif.Props.C04_header_round_trip",
    "Verif.Props.C04_damaged_header_refused",
    "Verif.Props.builtin_ok"
   ],
   "note": ""
  },
  {
   "property": "C05",
   "status": "proved",
   "theorems": [
    "Verif.Props.C05_C08_recording_loads",
    "Verif.Props.C05_recording_round_trip"
   ],
   "note": ""
  },
  {
   "property": "C06",
   "status": "partial",
   "theorems": [
    "Verif.Props.C06_rectangular",
    "Verif.Props.C06_labelled",
    "Verif.Props.C06_csv_total",
    "Verif.Props.C06_reused_loader_violation"
   ],
   "note": "rectangular tables for a fresh loader; a loader object reused for a second file violates it (counterexample proved)"
  },
  {
   "property": "C07",
   "status": "partial",
   "theorems": [
    "Verif.Props.C07_bad_record_hangs",
    "Verif.Props.C07_terminates_partial",
    "Verif.Props.C07_ends_iff_no_bad_record",
    "Verif.Props.C07_corrupted_recording_hangs"
   ],
   "note": "the code violates the property: loading hangs on a record with a bad checksum (proved); it terminates exactly when there is no such record (proved)"
  },
  {
   "property": "C08",
   "status": "proved",
   "theorems": [
    "Verif.Props.C08_unknown_id_ignored",
    "Verif.Props.C08_unknown_record_transparent",
    "Verif.Props.C05_C08_recording_loads"
   ],
   "note": ""
  },
  {
   "property": "C09",
   "status": "partial",
   "theorems": [
    "Verif.Props.C09_recording_in_bounds_partial",
    "Verif.Props.C09_empty_recording_out_of_bounds",
    "Verif.Props.C09_short_file_out_of_bounds",
    "Verif.Props.C09_truncated_recording_out_of_bounds"
   ],
   "note": "in bounds on complete recordings; out-of-bounds reads on empty, short and truncated files are proved"
  },
  {
   "property": "C10",
   "status": "proved",
   "theorems": [
    "Verif.Props.C10_msg_id_injective",
    "Verif.Props.C10_msg_id_truncates",
    "Verif.Props.C10_builtin_table"
   ],
   "note": ""
  },
  {
   "property": "C100",
   "status": "partial",
   "theorems": [
    "Verif.Props.C100_lever_arm_sensitivity"
   ],
   "note": "violated: wrong sign vertically, scaled by the earth radius horizontally (proved)"
  },
  {
   "property": "C101",
   "status": "partial",
   "theorems": [
    "Verif.Props.C101_fixed_states",
    "Verif.Props.C101_optional_states"
   ],
   "note": "holds for the fifteen fixed states; violated by the optional ones, whose variances are characterised"
  },
  {
   "property": "C102",
   "status": "partial",
   "theorems": [
    "Verif.Props.C102_odometer_scale_never_estimated"
   ],
   "note": "violated: over every history the estimate stays zero and uncorrelated"
  },
  {
   "property": "C103",
   "status": "proved",
   "theorems": [
    "Verif.Props.C103_imu_rows",
    "Verif.Props.C103_kalman_rows",
    "Verif.Props.C103_gnss_rows",
    "Verif.Props.C103_meas_rows",
    "Verif.Props.C103_meas_variances",
    "Verif.Props.C103_result_rows",
    "Verif.Props.C103_file_loads"
   ],
   "note": "every arithmetic; the ahrs and align rows are C157"
  },
  {
   "property": "C104",
   "status": "partial",
   "theorems": [
    "Verif.Props.C104_result_north_wrong"
   ],
   "note": "Violated by the code: the theorem bounds the error from below."
  },
  {
   "property": "C105",
   "status": "partial",
   "theorems": [
    "Verif.Props.C105_origin",
    "Verif.Props.C105_second_device"
   ],
   "note": "Violated by the code: the theorem says what the origin really is."
  },
  {
   "property": "C106",
   "status": "partial",
   "theorems": [
    "Verif.Props.C103_gnss_rows"
   ],
   "note": "Violated by the code: the theorem says the columns are zero in every recording."
  },
  {
   "property": "C107",
   "status": "partial",
   "theorems": [
    "Verif.Props.C107_outage_ignored"
   ],
   "note": "Violated: both branches of the outage test leave the switch, the fix is used after it; proved that no outage setting has any influence."
  },
  {
   "property": "C108",
   "status": "partial",
   "theorems": [
    "Verif.Props.C108_once_per_close_sample",
    "Verif.Props.C108_middle_fifth",
    "Verif.Props.C108_handed_twice"
   ],
   "note": "Violated: the fix is handed over once per sample within 0.6/rate of it. Proved: exact count; at least once for regular samples; twice exactly when it lies in the middle fifth of the interval."
  },
  {
   "property": "C109",
   "status": "partial",
   "theorems": [
    "Verif.Props.C109_crash_iff_first_is_fix",
    "Verif.Props.C109_reachable"
   ],
   "note": "Violated: proved that the null pointer is dereferenced exactly when the first processed record is a fix, with a concrete data set."
  },
  {
   "property": "C11",
   "status": "proved",
   "theorems": [
    "Verif.Props.C11_status_life_cycle"
   ],
   "note": ""
  },
  {
   "property": "C110",
   "status": "proved",
   "theorems": [
    "Verif.Props.C110_old_program"
   ],
   "note": "For every arithmetic."
  },
  {
   "property": "C111",
   "status": "partial",
   "theorems": [
    "Verif.Props.C111_ignored_options",
    "Verif.Props.C111_fused_although_off"
   ],
   "note": "Violated: proved that enable_gnss (and enable_rts, odo_std, odo_scale_std) has no influence on any answer in any history, and that a fix is fused although GNSS is off."
  },
  {
   "property": "C112",
   "status": "partial",
   "theorems": [
    "Verif.Props.C112_ignored_settings",
    "Verif.Props.C111_ignored_options"
   ],
   "note": "Violated: proved that all settings listed are ignored by the post-processing program."
  },
  {
   "property": "C113",
   "status": "partial",
   "theorems": [
    "Verif.Props.C113_scale_applies_to_variance",
    "Verif.Props.C113_not_the_deviation"
   ],
   "note": "Violated: the variance, not the deviation, is multiplied; proved that the effect is that of sqrt(s)*sigma, with a witness where it differs. Exact arithmetic."
  },
  {
   "property": "C114",
   "status": "proved",
   "theorems": [
    "Verif.Props.C114_csv_is_the_recording"
   ],
   "note": "Printing of numbers is a parameter (any that prints no comma/newline)."
  },
  {
   "property": "C115",
   "status": "partial",
   "theorems": [
    "Verif.Props.C115_resolution_partial",
    "Verif.Props.C115_whole_seconds",
    "Verif.Props.C115_times_collapse",
    "Verif.Props.C115_reachable",
    "Verif.Props.C115_violation"
   ],
   "note": "Violated by the code; violation proved on a file, plus the exact behaviour for GPS week times and the resolution that remains."
  },
  {
   "property": "C116",
   "status": "partial",
   "theorems": [
    "Verif.Props.C116_matrix",
    "Verif.Props.C116_last_name_missing"
   ],
   "note": "Matrix part proved; names part violated, proved for every exported dataset."
  },
  {
   "property": "C117",
   "status": "partial",
   "theorems": [
    "Verif.Props.C117_progress_partial",
    "Verif.Props.C117_complete_is_100",
    "Verif.Props.C117_end_reached",
    "Verif.Props.C117_violation_unloaded",
    "Verif.Props.C117_violation_small"
   ],
   "note": "Violated before loading and for tiny files; proved otherwise."
  },
  {
   "property": "C118",
   "status": "partial",
   "theorems": [
    "Verif.Props.C118_summary_fits_partial",
    "Verif.Props.C118_exact",
    "Verif.Props.C118_many_errors_overflow",
    "Verif.Props.C118_reachable"
   ],
   "note": "Violated by files with many unknown records; proved for recordings of configured datasets."
  },
  {
   "property": "C119",
   "status": "partial",
   "theorems": [
    "Verif.Props.C119_state_restarts_partial",
    "Verif.Props.C119_schedule_restarts_partial",
    "Verif.Props.C119_old_correction_applied",
    "Verif.Props.C119_reachable",
    "Verif.Props.C119_height_off",
    "Verif.Props.C119_detector_not_restarted",
    "Verif.Props.C119_detector_reachable"
   ],
   "note": "Violated by the code (not reachable through the C API, which constructs a new filter first); what restarts is proved for every previous state."
  },
  {
   "property": "C12",
   "status": "proved",
   "theorems": [
    "Verif.Props.C12_null_input_no_effect",
    "Verif.Props.C12_init_null_options_is_ub",
    "Verif.Props.C12_init_total",
    "Verif.Props.C12_update_codes"
   ],
   "note": "null options to rgioe_init is undefined behaviour (proved as the exception)"
  },
  {
   "property": "C120",
   "status": "partial",
   "theorems": [
    "Verif.Props.C120_ranges_partial",
    "Verif.Props.C120_latitude_valid_iff",
    "Verif.Props.C120_longitude_beyond_180",
    "Verif.Props.C120_latitude_over_the_pole",
    "Verif.Props.C120_fix_longitude_mod_360"
   ],
   "note": "Range claim violated; characterised for every quaternion. Modulo-360 claim proved."
  },
  {
   "property": "C121",
   "status": "partial",
   "theorems": [
    "Verif.Props.C121_sample_stamps_ignored",
    "Verif.Props.C121_fix_stamp_ignored",
    "Verif.Props.C121_reported_time_partial"
   ],
   "note": "violated: stamps of samples influence only the reported time, in every history and arithmetic; what holds is that the reported time is that of the last sample"
  },
  {
   "property": "C122",
   "status": "partial",
   "theorems": [
    "Verif.Props.C122_motion_ignored",
    "Verif.Props.C122_reported_attitude_frozen"
   ],
   "note": "violated: exactly characterised for every history and arithmetic"
  },
  {
   "property": "C123",
   "status": "partial",
   "theorems": [
    "Verif.Props.C123_mounting_accumulates",
    "Verif.Props.C123_reported_pitch",
    "Verif.Props.C123_starts_tilted",
    "Verif.Props.C123_pitch_flips",
    "Verif.Props.C123_unmounted_partial"
   ],
   "note": "violated with a mounting yaw (concrete case: pitch reversed by one fix); exact law for any number of fixes; holds without a mounting yaw"
  },
  {
   "property": "C124",
   "status": "partial",
   "theorems": [
    "Verif.Props.C124_one_bad_sample",
    "Verif.Props.C124_one_bad_fix",
    "Verif.Props.C124_bad_alignment",
    "Verif.Props.C124_unusable_fix_partial"
   ],
   "note": "violated, proved for every arithmetic in which not-a-number absorbs and compares false (source semantics; the build's -Ofast lets the compiler assume there is none)"
  },
  {
   "property": "C125",
   "status": "proved",
   "theorems": [
    "Verif.Props.C125_rest_stays",
    "Verif.Props.C125_rest_api",
    "Verif.Props.C125_balance_is_physical",
    "Verif.Props.C125_physical_step",
    "Verif.Props.C125_zihr_learns_the_earth"
   ],
   "note": "exact arithmetic; relative height measurements left out of the histories; the zero-angular-rate update is shown to break the property"
  },
  {
   "property": "C126",
   "status": "proved",
   "theorems": [
    "Verif.Props.C126_navigating_is_the_filter",
    "Verif.Props.C126_given_start",
    "Verif.Props.C126_aligned_start"
   ],
   "note": "every arithmetic"
  },
  {
   "property": "C127",
   "status": "proved",
   "theorems": [
    "Verif.Props.C127_filter",
    "Verif.Props.C127_start",
    "Verif.Props.C127_api",
    "Verif.Props.grid_accurate"
   ],
   "note": "At `RR R`: every operation of the model followed by an arbitrary rounding. Multiples: 60 u for the squared quaternion lengths, 1500 u and 200 u for the matrices. Roundings are placed at the operations of the source; overflow and NaN are excluded by the accuracy hypothesis (see C124 for NaN)."
  },
  {
   "property": "C128",
   "status": "proved",
   "theorems": [
    "Verif.Props.C128_measured_covariance",
    "Verif.Props.C128_fixes",
    "Verif.Props.C128_reported_deviation"
   ],
   "note": "over the reals"
  },
  {
   "property": "C129",
   "status": "partial",
   "theorems": [
    "Verif.Props.C129_information",
    "Verif.Props.C129_order",
    "Verif.Props.C129_adds_up",
    "Verif.Props.C129_fix_order",
    "Verif.Props.C129_correction_order_partial"
   ],
   "note": "holds of the covariance and the reported deviations; violated by the correction: each update replaces the pending one (C27), witness in C129_correction_order_partial"
  },
  {
   "property": "C13",
   "status": "proved",
   "theorems": [
    "Verif.Props.C13_queries_read_only"
   ],
   "note": ""
  },
  {
   "property": "C130",
   "status": "partial",
   "theorems": [
    "Verif.Props.C130_rodrigues_partial",
    "Verif.Props.C130_zero_rotation_is_nan"
   ],
   "note": "proved for every non-zero vector; violated by the zero vector, which gives 0/0 in every entry"
  },
  {
   "property": "C131",
   "status": "partial",
   "theorems": [
    "Verif.Props.C131_negative_variance",
    "Verif.Props.C131_config_reports_nan",
    "Verif.Props.C131_propagation_partial"
   ],
   "note": "violated: with a given start from a configuration file (zero deviations, C64) and the constraint due at the first sample, a position variance becomes negative and its deviation is the root of a negative number; propagation alone keeps variances non-negative"
  },
  {
   "property": "C132",
   "status": "proved",
   "theorems": [
    "Verif.Props.C132_zupt_bounds_velocity",
    "Verif.Props.C132_reported_deviation"
   ],
   "note": "over the reals, from a covariance that is valid before the sample"
  },
  {
   "property": "C133",
   "status": "partial",
   "theorems": [
    "Verif.Props.C133_excluded_partial",
    "Verif.Props.C133_result_race",
    "Verif.Props.C133_gravity_race",
    "Verif.Props.C133_velocity_race",
    "Verif.Props.C133_matrix_race",
    "Verif.Props.C133_covariance_race"
   ],
   "note": "violated through shared gravity and two function-local statics: the result, the velocity and the covariance of one instance can come from the other; holds for every schedule in which time updates and result requests exclude each other"
  },
  {
   "property": "C134",
   "status": "proved",
   "theorems": [
    "Verif.Props.C134_text_files",
    "Verif.Props.C134_loop_is_filter",
    "Verif.Props.C134_fix_formats",
    "Verif.Props.C134_more_samples_only_add",
    "Verif.Props.C134_final_newline"
   ],
   "note": "times below INT_MAX (C52); the loop theorem holds for records from any reader"
  },
  {
   "property": "C135",
   "status": "partial",
   "theorems": [
    "Verif.Props.C135_formats_crash",
    "Verif.Props.C135_unknown_format",
    "Verif.Props.C135_bad_text_never_ends",
    "Verif.Props.C135_readable_partial"
   ],
   "note": "violated: IMU format 1 (IMD) and GNSS format 1 are undefined behaviour, unknown IMU formats replace the file by one zero sample, a bad token never ends; text files of numbers and all binary files are read to the end and processed"
  },
  {
   "property": "C136",
   "status": "partial",
   "theorems": [
    "Verif.Props.C136_at_rest_the_tilt_error_grows",
    "Verif.Props.C136_turns_to_the_force_partial",
    "Verif.Props.C136_equilibria",
    "Verif.Props.C136_levels_to_the_force_partial",
    "Verif.Props.C136_limit",
    "Verif.Props.C136_settles_upside_down"
   ],
   "note": "violated: the correction turns the down axis towards +specific force, i.e. a front-right-down device at rest is driven away from its true attitude (upside down), for every non-zero tilt error; correct for a z-up body frame (C136_turns_to_the_force). Over many samples: from any start within 31 degrees the third axis converges geometrically to the direction of the force (energy argument with the integral and its clamp included), so a front-right-down device held within 31 degrees of upside down settles exactly upside down. Convergence from larger errors is not proved"
  },
  {
   "property": "C137",
   "status": "partial",
   "theorems": [
    "Verif.Props.C137_magnetometer_form_shrinks_the_quaternion",
    "Verif.Props.C137_nonzero_partial",
    "Verif.Props.C137_magnetometer_fixed_point"
   ],
   "note": "violated: the quaternion is never renormalised there and its length tends to zero; it stays non-zero and the fixed point is right"
  },
  {
   "property": "C138",
   "status": "partial",
   "theorems": [
    "Verif.Props.C138_overflow",
    "Verif.Props.C138_filter_counters",
    "Verif.Props.C138_device_partial",
    "Verif.Props.C138_alignment_counter"
   ],
   "note": "violated after 2^31 samples (signed overflow of up_cnt); holds exactly before that"
  },
  {
   "property": "C139",
   "status": "partial",
   "theorems": [
    "Verif.Props.C139_playback",
    "Verif.Props.C139_whole_file",
    "Verif.Props.C139_speed_is_ignored",
    "Verif.Props.C139_path_bounded"
   ],
   "note": "order, completeness and end marker proved; violated by the pace: real_time, speed_up and all times are ignored, one record per event"
  },
  {
   "property": "C14",
   "status": "proved",
   "theorems": [
    "Verif.Props.C14_instances_isolated"
   ],
   "note": ""
  },
  {
   "property": "C140",
   "status": "partial",
   "theorems": [
    "Verif.Props.C140_no_fix_is_used",
    "Verif.Props.C140_empty_buffer_is_undefined",
    "Verif.Props.C140_waiting_fix_is_replaced",
    "Verif.Props.C140_without_fixes_undefined",
    "Verif.Props.C140_samples_in_order_partial",
    "Verif.Props.C140_samples_lost",
    "Verif.Props.C140_end_marker_is_a_sample"
   ],
   "note": "violated: inverted test, no fix is ever used in navigation and an empty buffer is read (undefined); samples are lost when eleven wait; the end marker is used as a sample; order and at-most-once hold. Steps of the main thread on a buffer are taken as atomic"
  },
  {
   "property": "C141",
   "status": "partial",
   "theorems": [
    "Verif.Props.C141_debug_velocity_deviation_partial",
    "Verif.Props.C141_violation"
   ],
   "note": "violated: the velocity deviations are those of the attitude"
  },
  {
   "property": "C142",
   "status": "partial",
   "theorems": [
    "Verif.Props.C142_height_is_the_mean",
    "Verif.Props.C142_attitude_step_partial",
    "Verif.Props.C142_not_the_middle"
   ],
   "note": "height, mean velocity and mean height proved; violated by the latitude: the attitude update uses the latitude half a step beyond the new one (outside the interval) whenever the vehicle moves north or south and the step is short enough"
  },
  {
   "property": "C143",
   "status": "proved",
   "theorems": [
    "Verif.Props.C143_covariance_is_the_errors",
    "Verif.Props.C143_no_linear_estimate_is_better"
   ],
   "note": "random quantities are elements of an arbitrary real inner-product space; optimality needs invertible innovation covariances"
  },
  {
   "property": "C144",
   "status": "partial",
   "theorems": [
    "Verif.Props.C144_date_line",
    "Verif.Props.C144_date_line_size",
    "Verif.Props.C144_same_convention_partial"
   ],
   "note": "violated: longitudes are subtracted as numbers; a jump by 360 degrees between the first two of three fixes changes the starting east velocity by pi times the radius of the parallel (more than 10^7 m/s below 60 degrees); with one convention throughout the convention does not matter"
  },
  {
   "property": "C145",
   "status": "partial",
   "theorems": [
    "Verif.Props.C145_runs_form_partial",
    "Verif.Props.C145_frame_ignored",
    "Verif.Props.C145_scale_silent"
   ],
   "note": "violated: the frame chosen in the form never enters the configuration, and an unreadable odometer scale is silently run as zero; every other field of every run is what the form shows (C145_runs_form_partial, for all histories)"
  },
  {
   "property": "C146",
   "status": "partial",
   "theorems": [
    "Verif.Props.C146_start",
    "Verif.Props.C146_rejected_changes"
   ],
   "note": "start runs exactly when everything checked reads and otherwise logs (C146_start); violated part: a rejected start has already overwritten the configuration held by the window (C146_rejected_changes)"
  },
  {
   "property": "C147",
   "status": "partial",
   "theorems": [
    "Verif.Props.C147_open_start_partial",
    "Verif.Props.C147_format_lost",
    "Verif.Props.C147_time_rounded"
   ],
   "note": "holds when the numbers read back and the choices are on the form; violated: formats beyond the two offered become -1, and a start time of six digits loses its fraction"
  },
  {
   "property": "C148",
   "status": "partial",
   "theorems": [
    "Verif.Props.C148_save_ignores_form",
    "Verif.Props.C148_save_after_start_partial",
    "Verif.Props.C148_open_ends"
   ],
   "note": "violated: save writes the configuration of the last start/open, not the form; and opening a saved file ends the program; directly after a successful start the saved configuration is the one run"
  },
  {
   "property": "C149",
   "status": "partial",
   "theorems": [
    "Verif.Props.C149_nose_up",
    "Verif.Props.C149_zero_roll",
    "Verif.Props.C149_zero_roll_down",
    "Verif.Props.C149_nose_down",
    "Verif.Props.C149_north_south_swapped"
   ],
   "note": "nose up: holds; nose down: violated, the north component is the wrong one (plus in place of minus), north and south headings are exchanged"
  },
  {
   "property": "C15",
   "status": "proved",
   "theorems": [
    "Verif.Props.C15_use_given_starts_at_first_imu"
   ],
   "note": ""
  },
  {
   "property": "C150",
   "status": "proved",
   "theorems": [
    "Verif.Props.C150_filter",
    "Verif.Props.C150_angles_output_only"
   ],
   "note": "for every arithmetic, every sequence of calls"
  },
  {
   "property": "C151",
   "status": "partial",
   "theorems": [
    "Verif.Props.C151_search_partial",
    "Verif.Props.C151_failed",
    "Verif.Props.C151_no_measurement"
   ],
   "note": "search and reader position hold; violated: only the time of the record is handed over (the base part is copied), the measurements stay the caller's"
  },
  {
   "property": "C152",
   "status": "partial",
   "theorems": [
    "Verif.Props.C152_repeated_fix",
    "Verif.Props.C152_steady",
    "Verif.Props.C152_equal_stamps"
   ],
   "note": "violated: after a repeated fix the start velocity is 3/2 of the displacement per fix (in steady motion 50% too fast); two fixes with one stamp make the velocity not a number for good"
  },
  {
   "property": "C153",
   "status": "partial",
   "theorems": [
    "Verif.Props.C153_never_starts",
    "Verif.Props.C153_used_partial"
   ],
   "note": "violated: a zero north deviation is taken as 'no fix yet'; with only such fixes the device never navigates (every history, every arithmetic); after one fix with a deviation it does"
  },
  {
   "property": "C154",
   "status": "proved",
   "theorems": [
    "Verif.Props.C154_read_back",
    "Verif.Props.C154_times"
   ],
   "note": "at character level, for finite numbers (infinities and not-a-numbers print as words)"
  },
  {
   "property": "C155",
   "status": "proved",
   "theorems": [
    "Verif.Props.C155_update",
    "Verif.Props.C155_predict",
    "Verif.Props.C155_history",
    "Verif.Props.C155_better_fix"
   ],
   "note": "exact arithmetic; for given transition and measurement matrices, noise covariances valid (the code's process noise is not always: C26)"
  },
  {
   "property": "C156",
   "status": "proved",
   "theorems": [
    "Verif.Props.C156_uncorrelated",
    "Verif.Props.C156_first_fix"
   ],
   "note": "exact arithmetic"
  },
  {
   "property": "C157",
   "status": "proved",
   "theorems": [
    "Verif.Props.C157_ahrs_rows",
    "Verif.Props.C157_align_rows"
   ],
   "note": "every arithmetic"
  },
  {
   "property": "C158",
   "status": "partial",
   "theorems": [
    "Verif.Props.C158_statistic",
    "Verif.Props.C158_inverted",
    "Verif.Props.C158_never_rejected",
    "Verif.Props.C158_any_jump"
   ],
   "note": "violated: GetX2 weights the innovation with S instead of its inverse (the statistic grows where it should shrink), and nothing is ever rejected; both characterised exactly"
  },
  {
   "property": "C159",
   "status": "proved",
   "theorems": [
    "Verif.Props.C159_either_convention"
   ],
   "note": "over the reals; moving alignment is excluded, there two consecutive fixes must use one convention (C144)"
  },
  {
   "property": "C16",
   "status": "proved",
   "theorems": [
    "Verif.Props.C16_moving_alignment_needs_static_and_motion"
   ],
   "note": ""
  },
  {
   "property": "C160",
   "status": "proved",
   "theorems": [
    "Verif.Props.C160_any_clock",
    "Verif.Props.C160_time_origin"
   ],
   "note": "over the reals; proved for every replacement of the stamps that keeps different stamps different"
  },
  {
   "property": "C161",
   "status": "proved",
   "theorems": [
    "Verif.Props.C161_only_ratios_matter"
   ],
   "note": "for every history of API calls started from a given state; in moving alignment the initial deviations are constants and quotients of deviations (C90), so the statement is about given start states"
  },
  {
   "property": "C162",
   "status": "partial",
   "theorems": [
    "Verif.Props.C162_rows_partial",
    "Verif.Props.C162_horizontal_wrong"
   ],
   "note": "proved for all columns except the horizontal displacement, which is wrong in the code; its exact value and the violation are proved"
  },
  {
   "property": "C163",
   "status": "proved",
   "theorems": [
    "Verif.Props.C163_report_shows_the_file"
   ],
   "note": "exact arithmetic; the digits printed are those of the number"
  },
  {
   "property": "C164",
   "status": "proved",
   "theorems": [
    "Verif.Props.C164_mounting_does_not_matter"
   ],
   "note": "over the reals; for every history of API calls started from a given state (moving alignment assumes the IMU axes to be those of the vehicle, so it is not part of the statement)"
  },
  {
   "property": "C165",
   "status": "partial",
   "theorems": [
    "Verif.Props.C165_eleven_columns",
    "Verif.Props.C165_result_files_partial",
    "Verif.Props.C165_speed",
    "Verif.Props.C165_missing_file",
    "Verif.Props.C165_bad_word",
    "Verif.Props.C165_huge_week",
    "Verif.Props.C165_violated"
   ],
   "note": "holds for files with eleven columns except that a final new line makes the last record count twice; for the project's own result files (thirteen columns) every eighth record is used, and a line made of the wrong columns is appended when the number of records is divisible by eight; for a missing file or a word that is no number the program never ends and its output grows without bound"
  },
  {
   "property": "C166",
   "status": "partial",
   "theorems": [
    "Verif.Props.C166_rows_judged",
    "Verif.Props.C166_two_sigma",
    "Verif.Props.C166_accepted_partial",
    "Verif.Props.C166_rejected",
    "Verif.Props.C166_concentrated",
    "Verif.Props.C166_accepts_concentrated",
    "Verif.Props.C166_constant",
    "Verif.Props.C166_violated"
   ],
   "note": "violated: when more than 68.26 % of the errors lie in the lowest bin an exception is swallowed, the error counts as zero and the result is accepted whatever its errors; otherwise acceptance and rejection mean what is stated; equal errors are reported about a centimetre too large"
  },
  {
   "property": "C167",
   "status": "proved",
   "theorems": [
    "Verif.Props.C167_heading_error"
   ],
   "note": "over the reals"
  },
  {
   "property": "C168",
   "status": "partial",
   "theorems": [
    "Verif.Props.C168_position_errors",
    "Verif.Props.C168_zero_partial",
    "Verif.Props.C168_violated"
   ],
   "note": "holds except at the date line, where longitudes are interpolated and subtracted as numbers"
  },
  {
   "property": "C169",
   "status": "proved",
   "theorems": [
    "Verif.Props.C169_direction_only",
    "Verif.Props.C169_free_fall",
    "Verif.Props.C169_listens_above_half",
    "Verif.Props.C169_magnetometer"
   ],
   "note": "over the reals; the first theorem for every history of the filter, the last two for the first reading of a fresh filter with an interval of at most one second"
  },
  {
   "property": "C17",
   "status": "proved",
   "theorems": [
    "Verif.Props.C17_alignment_progress_kept",
    "Verif.Props.C17_status_implies_alignment"
   ],
   "note": ""
  },
  {
   "property": "C170",
   "status": "partial",
   "theorems": [
    "Verif.Props.C170_north_reading_turns_the_device",
    "Verif.Props.C170_second_axis_partial",
    "Verif.Props.C170_heading_convention"
   ],
   "note": "violated: the code takes the second axis (east, in the convention of the angles it sets and reports) for north, so that a device level and pointing north is turned away by a field pointing north"
  },
  {
   "property": "C171",
   "status": "partial",
   "theorems": [
    "Verif.Props.C171_sensors_never_shown",
    "Verif.Props.C171_mode_and_flags_as_bias",
    "Verif.Props.C171_marked_times_partial",
    "Verif.Props.C171_bias_plot_partial",
    "Verif.Props.C171_bias_plot_short"
   ],
   "note": "violated: show_sensors.py takes column 24 of a file of 13 and raises for every result file; the bias plot draws mode and flags as gyroscope bias and then raises. Proved for the part that holds: on a table that has 25 columns, the times marked are those whose bit is set"
  },
  {
   "property": "C172",
   "status": "proved",
   "theorems": [
    "Verif.Props.C172_velocity_and_height"
   ],
   "note": "over the reals; horizontal position and attitude (where the two programs take the transport rate at different points) are not compared"
  },
  {
   "property": "C173",
   "status": "partial",
   "theorems": [
    "Verif.Props.C173_violated",
    "Verif.Props.C173_force_vanishes",
    "Verif.Props.C173_never_grows",
    "Verif.Props.C173_position_partial"
   ],
   "note": "violated: the unit quaternion computed at line 589 is overwritten by the un-normalised product at line 600, and the matrix is made from the latter; while the device keeps turning the matrix tends to zero. What holds: the columns stay orthogonal and of one length that never grows, and the position quaternion has unit length"
  },
  {
   "property": "C174",
   "status": "partial",
   "theorems": [
    "Verif.Props.C174_there_and_back",
    "Verif.Props.C174_on_the_ellipsoid",
    "Verif.Props.C174_antimeridian",
    "Verif.Props.C174_same_place"
   ],
   "note": "over the reals. Violated on the antimeridian, where atan2(0,0) gives longitude zero; proved for every longitude strictly between \u2212180\u00b0 and 180\u00b0"
  },
  {
   "property": "C175",
   "status": "proved",
   "theorems": [
    "Verif.Props.C175_lever_arm"
   ],
   "note": "over the reals; for antennas whose longitude is not exactly \u00b1180\u00b0"
  },
  {
   "property": "C176",
   "status": "partial",
   "theorems": [
    "Verif.Props.C176_error_partial",
    "Verif.Props.C176_any_latitude",
    "Verif.Props.C176_after_correction",
    "Verif.Props.standsFor_iff"
   ],
   "note": "Violated: near the antimeridian any latitude can be read; the error bound elsewhere is proved."
  },
  {
   "property": "C177",
   "status": "proved",
   "theorems": [
    "Verif.Props.C177_least_squares",
    "Verif.Props.C177_consistent"
   ],
   "note": "The loop of the tool; its reader no longer exists in the source, and the dangling block reference is not modelled."
  },
  {
   "property": "C178",
   "status": "partial",
   "theorems": [
    "Verif.Props.C178_poses_partial",
    "Verif.Props.C178_out_of_range",
    "Verif.Props.C178_every_file",
    "Verif.Props.C178_rotation",
    "Verif.Props.C178_heading_not_shown",
    "Verif.Props.C178_points_partial"
   ],
   "note": "Violated: out of range access, repeated pose, roll and heading exchanged. What is read and where the points are is proved."
  },
  {
   "property": "C179",
   "status": "partial",
   "theorems": [
    "Verif.Props.C179_restart_exact",
    "Verif.Props.C179_restart_at_200Hz_partial",
    "Verif.Props.C179_always_5ms",
    "Verif.Props.C179_rate_ignored",
    "Verif.Props.C179_bias_kept",
    "Verif.Props.C179_bias_matters"
   ],
   "note": "violated: the interval is 5 ms at every rate, and the sample is kept uncompensated, which changes the next velocity by a twelfth of the cross products with the compensation. Proved (rounding included) at 5 ms when the last sample was used as measured"
  },
  {
   "property": "C18",
   "status": "partial",
   "theorems": [
    "Verif.Props.C18_fault_config_partial",
    "Verif.Props.C18_rejected_init_keeps_navigating"
   ],
   "note": "the rejected init reports FAULT_CONFIG; the code leaves a previously NAVIGATING status in place (violation proved)"
  },
  {
   "property": "C180",
   "status": "partial",
   "theorems": [
    "Verif.Props.C180_reports_the_epoch_partial",
    "Verif.Props.C180_rest_is_zero",
    "Verif.Props.C180_agrees_with_the_filter"
   ],
   "note": "violated for scale factors, odometer scale and deviations, which are reported as zero; the rest is reported as it is and agrees with the filter's result"
  },
  {
   "property": "C181",
   "status": "partial",
   "theorems": [
    "Verif.Props.C181_span_partial",
    "Verif.Props.C181_open_end",
    "Verif.Props.C181_no_start_time"
   ],
   "note": "violated: with a stop time and no start time nothing is processed although the run reports success, and the sample that first reaches the stop time is processed too; the exact span is proved for every arithmetic"
  },
  {
   "property": "C182",
   "status": "partial",
   "theorems": [
    "Verif.Props.C182_numbers",
    "Verif.Props.C182_percent_partial",
    "Verif.Props.C182_out_of_range"
   ],
   "note": "violated: without a stop time the progress is negative, with equal times the division is by zero, and the last sample can send more than 100; a percentage for every sample before the stop time"
  },
  {
   "property": "C183",
   "status": "partial",
   "theorems": [
    "Verif.Props.C183_in_order",
    "Verif.Props.C183_each_once_partial",
    "Verif.Props.C183_first_missed",
    "Verif.Props.C183_on_the_grid"
   ],
   "note": "order and at most once hold in every run; violated: a fix that no sample comes near blocks all later ones, e.g. a fix with the stamp of the first sample when samples are a full interval apart (exact arithmetic); all fixes are used when samples are at most one and fixes at least two intervals apart and none has the stamp of the first sample"
  },
  {
   "property": "C184",
   "status": "partial",
   "theorems": [
    "Verif.Props.C184_told_partial",
    "Verif.Props.C184_silent"
   ],
   "note": "violated: a missing IMU file, a missing or short odometer file and an unsupported mode end the run without a message; every other failure is reported"
  },
  {
   "property": "C185",
   "status": "partial",
   "theorems": [
    "Verif.Props.C185_defined_partial",
    "Verif.Props.C185_moving"
   ],
   "note": "violated: moving alignment with a missing or short GNSS file reads the unset time of the fix; exactly then"
  },
  {
   "property": "C186",
   "status": "proved",
   "theorems": [
    "Verif.Props.C186_one_figure"
   ],
   "note": "every history, every arithmetic"
  },
  {
   "property": "C187",
   "status": "partial",
   "theorems": [
    "Verif.Props.C187_records_partial",
    "Verif.Props.C187_line_end",
    "Verif.Props.C187_appends"
   ],
   "note": "violated: the line end of the last line adds a point with unset values, and a second text file is appended to the first; exact contents for every file and window state"
  },
  {
   "property": "C188",
   "status": "partial",
   "theorems": [
    "Verif.Props.C188_mode_as_bias",
    "Verif.Props.C188_whole_files",
    "Verif.Props.C188_seventeen_columns_partial"
   ],
   "note": "violated for the files the library writes: the GNSS mode and the flags are drawn as gyroscope bias; holds for lines of 17 columns"
  },
  {
   "property": "C189",
   "status": "partial",
   "theorems": [
    "Verif.Props.C189_last_twice_partial"
   ],
   "note": "violated: the last result is shown twice, an empty file shows one point of unset values; exact contents for every file"
  },
  {
   "property": "C19",
   "status": "proved",
   "theorems": [
    "Verif.Props.C19_get_result_writes"
   ],
   "note": ""
  },
  {
   "property": "C190",
   "status": "partial",
   "theorems": [
    "Verif.Props.C190_unreadable_partial",
    "Verif.Props.C190_dropped_files_ignored"
   ],
   "note": "the first half is proved; violated: dropped files are ignored after every history"
  },
  {
   "property": "C191",
   "status": "partial",
   "theorems": [
    "Verif.Props.C191_fixed_file_partial",
    "Verif.Props.C191_other_files_partial",
    "Verif.Props.C191_times",
    "Verif.Props.C191_rotation"
   ],
   "note": "violated: the first sample is dropped and the last one written again two seconds early; exact file contents for every input"
  },
  {
   "property": "C192",
   "status": "partial",
   "theorems": [
    "Verif.Props.C192_lines_partial"
   ],
   "note": "violated: the last sample is reported again with the detector fed twice; exact lines for every file"
  },
  {
   "property": "C193",
   "status": "partial",
   "theorems": [
    "Verif.Props.C193_rows_partial"
   ],
   "note": "violated: the last result is written twice, and an empty file gives a row of unset values; exact bytes for every file"
  },
  {
   "property": "C194",
   "status": "proved",
   "theorems": [
    "Verif.Props.C194_attitude_is_composition",
    "Verif.Props.C194_small_turns"
   ],
   "note": "exact arithmetic; the turn of the frame is taken at the latitude the code uses (C142); rounding: C127"
  },
  {
   "property": "C195",
   "status": "proved",
   "theorems": [
    "Verif.Props.C195_rounding_drift",
    "Verif.Props.C195_two_hours"
   ],
   "note": "The turns are those the program computed (their own rounding is not part of the statement); the exact arithmetic counterpart is C194."
  },
  {
   "property": "C196",
   "status": "proved",
   "theorems": [
    "Verif.Props.C196_earth_attitude",
    "Verif.Props.C196_same_gyroscopes"
   ],
   "note": "Over the reals. The mismatch term is zero at rest (example) and stems from the latitude used for the attitude (C142)."
  },
  {
   "property": "C197",
   "status": "proved",
   "theorems": [
    "Verif.Props.C197_no_jump",
    "Verif.Props.C197_speed_limit"
   ],
   "note": "over the reals; the error of the earth rate used (latitude read off the extrapolated quaternion, C176) is an explicit term, zero at a place read exactly (earthSeen_eq)"
  },
  {
   "property": "C198",
   "status": "proved",
   "theorems": [
    "Verif.Props.C198_follows_truth"
   ],
   "note": "Over the reals. The truth is a differentiable path of rotation matrices; the truncation and frame terms are those of C196. even_turning shows such a motion and its readings."
  },
  {
   "property": "C199",
   "status": "proved",
   "theorems": [
    "Verif.Props.C199_force_integral"
   ],
   "note": "Over the reals; the force integral is any function with the stated derivative (it exists for a continuous force)."
  },
  {
   "property": "C20",
   "status": "partial",
   "theorems": [
    "Verif.Props.C20_atti_vel_std_partial",
    "Verif.Props.C20_get_pos_returns_attitude_std",
    "Verif.Props.C20_get_pos_wrong_on_reachable_state"
   ],
   "note": "attitude and velocity getters; rgioe_get_pos returns the attitude deviations (violation proved)"
  },
  {
   "property": "C200",
   "status": "proved",
   "theorems": [
    "Verif.Props.C200_velocity_moves",
    "Verif.Props.C200_free_fall"
   ],
   "note": "Over the reals."
  },
  {
   "property": "C201",
   "status": "proved",
   "theorems": [
    "Verif.Props.C201_strapdown_converges"
   ],
   "note": "Exact arithmetic (reals). First order in dt: all five updates of a sample (velocity, position quaternion, height, latitude/longitude and attitude) coupled, with the discrete Gronwall argument over any number of samples. An instance (a lift going up) meets the hypotheses."
  },
  {
   "property": "C202",
   "status": "proved",
   "theorems": [
    "Verif.Props.C202_errors_grow_in_proportion"
   ],
   "note": "Exact arithmetic (reals). C201 is the case e = d = 0. Instances: a lift going up, a start one metre too high, a biased gyroscope."
  },
  {
   "property": "C203",
   "status": "proved",
   "theorems": [
    "Verif.Props.C203_rounded_flight_follows"
   ],
   "note": "all of ForwardMechanization at the rounding scalar RR R with R accurate to u (operations, literals, sin, cos, tan, atan, atan2, sqrt, pow); K exists, no numeric value is given; overflow and NaN are outside (C15 ff. treat them)"
  },
  {
   "property": "C204",
   "status": "partial",
   "theorems": [
    "Verif.Props.C204_loads_accumulate",
    "Verif.Props.C204_not_the_last_file",
    "Verif.Props.C204_missing_file_keeps_data",
    "Verif.Props.C204_headless_file_keeps_data"
   ],
   "note": "violated: exact characterisation for recordings of one table (files with other tables: C06_reused_loader_violation)"
  },
  {
   "property": "C205",
   "status": "proved",
   "theorems": [
    "Verif.Props.C205_no_aid_is_the_mechanization",
    "Verif.Props.C205_reports_follow_the_flight"
   ],
   "note": "first theorem for every arithmetic; second in exact real arithmetic, attitude where the pitch is not within about 8 degrees of the vertical (gimbal lock, C40)"
  },
  {
   "property": "C206",
   "status": "proved",
   "theorems": [
    "Verif.Props.C206_rounded_reports_follow_the_flight",
    "Verif.Props.C206_rounded_attitude"
   ],
   "note": "place and velocity, and with an arctangent accurate as an angle the attitude too"
  },
  {
   "property": "C207",
   "status": "proved",
   "theorems": [
    "Verif.Props.C207_one_line_per_sample",
    "Verif.Props.C207_result_file_follows_the_flight",
    "Verif.Props.C207_rounded_result_file",
    "Verif.Props.C207_rounded_attitude"
   ],
   "note": "the first theorem for every arithmetic, the second in exact arithmetic, the third (place, velocity) and fourth (attitude too) in every arithmetic with relative error u; the file without a final newline (C134_final_newline: with it no line changes)"
  },
  {
   "property": "C208",
   "status": "proved",
   "theorems": [
    "Verif.Props.C208_gap_is_the_mechanization",
    "Verif.Props.C208_gap_follows_the_flight",
    "Verif.Props.C208_ready"
   ],
   "note": "every arithmetic for the equality with the mechanization; the error bound in exact arithmetic; the hypothesis on the held state is shown reachable by C208_ready"
  },
  {
   "property": "C209",
   "status": "proved",
   "theorems": [
    "Verif.Props.C209_measurement",
    "Verif.Props.C209_fix",
    "Verif.Props.C209_reported",
    "Verif.Props.C209_height"
   ],
   "note": "Exact arithmetic. Validity of the covariance is C24/C26's subject (kept by every update; by predictions under C26's condition); Cne a rotation is C29. C209_height: the effect on the next reported height of the first share."
  },
  {
   "property": "C21",
   "status": "proved",
   "theorems": [
    "Verif.Props.C21_unusable_fix_changes_info_only",
    "Verif.Props.C21_unusable_fix_invisible"
   ],
   "note": ""
  },
  {
   "property": "C210",
   "status": "partial",
   "theorems": [
    "Verif.Props.C210_filter_follows_the_flight_partial",
    "Verif.Props.C212_filter_follows_the_flight"
   ],
   "note": "C212 proves it with nothing assumed about the covariance (bounds on the configuration instead). C210: exact arithmetic; that the covariance is valid with bounded variances when a fix arrives is a hypothesis (C26 shows that the process noise of the code can make it invalid); aids off; the constant grows geometrically with the number of usable fixes, so this bounds what the filter can lose, not what it gains"
  },
  {
   "property": "C211",
   "status": "partial",
   "theorems": [
    "Verif.Props.C211_one_line_per_record",
    "Verif.Props.C211_result_file_with_fixes_partial",
    "Verif.Props.C213_result_file_with_fixes"
   ],
   "note": "C213 proves it with nothing assumed about the covariance. C211: which line is written when: every arithmetic; the bound: exact arithmetic, with C210's hypothesis on the covariance met by each fix (C26 shows the code can make it invalid); neither file ends in a newline (C134 says what a final newline adds)"
  },
  {
   "property": "C212",
   "status": "proved",
   "theorems": [
    "Verif.Props.C212_filter_follows_the_flight"
   ],
   "note": "Exact arithmetic (reals), aids off, start from given values. Constant and threshold exist; no numeric values are given, and the threshold on the sampling interval may be small. Instances: the lift with any deviations, instabilities and random walks."
  },
  {
   "property": "C213",
   "status": "proved",
   "theorems": [
    "Verif.Props.C213_result_file_with_fixes"
   ],
   "note": "Exact arithmetic (reals), aids off; neither file ends in a newline (C134). With C211_one_line_per_record for which line is written when. Instances: the lift's two files with any instabilities and random walks."
  },
  {
   "property": "C214",
   "status": "proved",
   "theorems": [
    "Verif.Props.C214_deviations_stay_bounded"
   ],
   "note": "Exact arithmetic (reals), where the root of a negative number is 0; on the machine a variance below zero is reported as NaN. Aids off, start from given values. Instances: those of C212."
  },
  {
   "property": "C215",
   "status": "proved",
   "theorems": [
    "Verif.Props.C215_fixes_never_add_uncertainty"
   ],
   "note": "Exact arithmetic (reals), aids off, start from given values; the threshold exists, no numeric value is given. C24 is the counterpart for a covariance known to be valid. Instances: those of C212."
  },
  {
   "property": "C216",
   "status": "proved",
   "theorems": [
    "Verif.Props.C216_file_deviations",
    "Verif.Props.C216_fix_lines"
   ],
   "note": "Exact arithmetic (reals), aids off. The deviations are part of the results and are stored by the binary format of the writer; the text format leaves them out. Instances: those of C213."
  },
  {
   "property": "C22",
   "status": "proved",
   "theorems": [
    "Verif.Props.C22_reinit_forgets",
    "Verif.Props.C22_reinit_forgets_moving"
   ],
   "note": ""
  },
  {
   "property": "C23",
   "status": "proved",
   "theorems": [
    "Verif.Props.C23_covariance_symmetric",
    "Verif.Props.C23_api_covariance_symmetric"
   ],
   "note": "exact arithmetic"
  },
  {
   "property": "C24",
   "status": "proved",
   "theorems": [
    "Verif.Props.C24_update_valid"
   ],
   "note": "exact arithmetic, every dimension"
  },
  {
   "property": "C25",
   "status": "proved",
   "theorems": [
    "Verif.Props.C25_covariance_ignores_values",
    "Verif.Props.C25_fix_values_do_not_matter"
   ],
   "note": ""
  },
  {
   "property": "C26",
   "status": "partial",
   "theorems": [
    "Verif.Props.C26_predict_valid_partial",
    "Verif.Props.C26_process_noise_invalid",
    "Verif.Props.C26_first_sample_breaks_covariance",
    "Verif.Props.C26_lack_of_validity_partial"
   ],
   "note": "prediction keeps a covariance valid when the added noise is valid; the code's process noise is not (violation proved, down to the covariance after the first sample); what it lacks is exactly bounded (C26_lack_of_validity_partial; along a flight C214)"
  },
  {
   "property": "C27",
   "status": "partial",
   "theorems": [
    "Verif.Props.C27_last_fix_applied_partial",
    "Verif.Props.C27_first_of_two_fixes_is_lost",
    "Verif.Props.C27_zupta_loses_zupt",
    "Verif.Props.C27_outstanding_share_is_dropped",
    "Verif.Props.C27_share_before_first_fix"
   ],
   "note": "holds for the last fix before an IMU sample; four ways in which the code loses corrections are proved"
  },
  {
   "property": "C28",
   "status": "proved",
   "theorems": [
    "Verif.Props.C28_C29_filter",
    "Verif.Props.C28_C29_api"
   ],
   "note": "exact arithmetic"
  },
  {
   "property": "C29",
   "status": "proved",
   "theorems": [
    "Verif.Props.C28_C29_filter",
    "Verif.Props.C28_C29_api"
   ],
   "note": "exact arithmetic"
  },
  {
   "property": "C30",
   "status": "proved",
   "theorems": [
    "Verif.Props.C30_schedule"
   ],
   "note": ""
  },
  {
   "property": "C31",
   "status": "proved",
   "theorems": [
    "Verif.Props.C31_flags_after_imu",
    "Verif.Props.C31_flags_after_gnss",
    "Verif.Props.C31_flags_after_odometer",
    "Verif.Props.C31_flags_after_speed",
    "Verif.Props.C31_flags_after_height"
   ],
   "note": ""
  },
  {
   "property": "C32",
   "status": "proved",
   "theorems": [
    "Verif.Props.C32_result_time_is_last_imu",
    "Verif.Props.C32_filter_time_is_last_imu"
   ],
   "note": ""
  },
  {
   "property": "C33",
   "status": "proved",
   "theorems": [
    "Verif.Props.C33_static_criterion"
   ],
   "note": ""
  },
  {
   "property": "C34",
   "status": "proved",
   "theorems": [
    "Verif.Props.C34_smoothed_statistics"
   ],
   "note": "exact arithmetic"
  },
  {
   "property": "C35",
   "status": "partial",
   "theorems": [
    "Verif.Props.C35_after_fix_partial",
    "Verif.Props.C35_sixth_height_without_fix"
   ],
   "note": "holds after a usable fix; without any fix the sixth relative height is fused with base INT32_MIN (violation proved)"
  },
  {
   "property": "C36",
   "status": "proved",
   "theorems": [
    "Verif.Props.C36_zero_innovation",
    "Verif.Props.C36_perfect_measurement",
    "Verif.Props.C36_perfect_fix"
   ],
   "note": "exact arithmetic"
  },
  {
   "property": "C37",
   "status": "proved",
   "theorems": [
    "Verif.Props.C37_reported_deviation"
   ],
   "note": "exact arithmetic"
  },
  {
   "property": "C38",
   "status": "proved",
   "theorems": [
    "Verif.Props.C38_euler_matrix_is_rotation"
   ],
   "note": "exact arithmetic"
  },
  {
   "property": "C39",
   "status": "proved",
   "theorems": [
    "Verif.Props.C39_euler_quaternion_agrees",
    "Verif.Props.C39_matrix_acts_as_quaternion"
   ],
   "note": "exact arithmetic"
  },
  {
   "property": "C40",
   "status": "proved",
   "theorems": [
    "Verif.Props.C40_euler_round_trip",
    "Verif.Props.C40_matrix_round_trip",
    "Verif.Props.C40_lock_reports_nan"
   ],
   "note": "exact arithmetic; the NaN branch for every scalar type"
  },
  {
   "property": "C41",
   "status": "proved",
   "theorems": [
    "Verif.Props.C41_lat_lon_round_trip",
    "Verif.Props.C41_position_quaternion"
   ],
   "note": "exact arithmetic"
  },
  {
   "property": "C42",
   "status": "proved",
   "theorems": [
    "Verif.Props.C42_skew_is_cross"
   ],
   "note": "exact arithmetic"
  },
  {
   "property": "C43",
   "status": "proved",
   "theorems": [
    "Verif.Props.C43_rotation_vector",
    "Verif.Props.C43_scalar_part_can_be_negative"
   ],
   "note": "exact arithmetic"
  },
  {
   "property": "C44",
   "status": "proved",
   "theorems": [
    "Verif.Props.C44_radii"
   ],
   "note": "exact arithmetic"
  },
  {
   "property": "C45",
   "status": "partial",
   "theorems": [
    "Verif.Props.C45_distance_with_heights",
    "Verif.Props.C45_distance_without_heights_wrong"
   ],
   "note": "holds for the six-argument form; the four-argument form violates it (proved)"
  },
  {
   "property": "C46",
   "status": "proved",
   "theorems": [
    "Verif.Props.C46_ecef"
   ],
   "note": "exact arithmetic"
  },
  {
   "property": "C47",
   "status": "proved",
   "theorems": [
    "Verif.Props.C47_ahrs_invariant"
   ],
   "note": "exact arithmetic"
  },
  {
   "property": "C48",
   "status": "partial",
   "theorems": [
    "Verif.Props.C48_set_angles",
    "Verif.Props.C48_set_quaternion_invisible",
    "Verif.Props.C48_quaternion_violation"
   ],
   "note": "holds for angles; the quaternion form violates it (proved)"
  },
  {
   "property": "C49",
   "status": "proved",
   "theorems": [
    "Verif.Props.C49_dcm_orthogonal",
    "Verif.Props.C49_dcm_optimal",
    "Verif.Props.C49_can_be_reflection"
   ],
   "note": "exact arithmetic; the SVD is an input assumed to meet Eigen's contract, which leaves the determinant free"
  },
  {
   "property": "C50",
   "status": "proved",
   "theorems": [
    "Verif.Props.C50_outage_windows"
   ],
   "note": "exact arithmetic"
  },
  {
   "property": "C51",
   "status": "partial",
   "theorems": [
    "Verif.Props.C51_terminates_partial",
    "Verif.Props.C51_does_not_terminate",
    "Verif.Props.C51_hangs_iff"
   ],
   "note": "terminates except when step = outage = 0 and start < stop, where it hangs (proved)"
  },
  {
   "property": "C52",
   "status": "proved",
   "theorems": [
    "Verif.Props.C52_delivered_sorted",
    "Verif.Props.delivered_is_merge"
   ],
   "note": "for every scalar type with a total order on the times"
  },
  {
   "property": "C53",
   "status": "proved",
   "theorems": [
    "Verif.Props.C53_prefixes",
    "Verif.Props.C53_one_source_complete",
    "Verif.Props.C53_imu_only",
    "Verif.Props.C53_third_file_stops_delivery"
   ],
   "note": ""
  },
  {
   "property": "C54",
   "status": "proved",
   "theorems": [
    "Verif.Props.C54_move_to_time",
    "Verif.Props.C54_nothing_earlier"
   ],
   "note": ""
  },
  {
   "property": "C55",
   "status": "proved",
   "theorems": [
    "Verif.Props.C55_reset_replays"
   ],
   "note": ""
  },
  {
   "property": "C56",
   "status": "partial",
   "theorems": [
    "Verif.Props.C56_quality_ignored",
    "Verif.Props.C56_invalid_fix_is_fused"
   ],
   "note": "the code violates the property: the quality read from the file has no influence (proved for every input)"
  },
  {
   "property": "C57",
   "status": "proved",
   "theorems": [
    "Verif.Props.C57_outage_hides_gnss",
    "Verif.Props.C57_hidden_iff_in_window",
    "Verif.Props.post_is_replay"
   ],
   "note": "if the first record is a hidden fix the line written for it is uninitialised memory: excluded by hypothesis"
  },
  {
   "property": "C58",
   "status": "proved",
   "theorems": [
    "Verif.Props.C58_fifo_prefix"
   ],
   "note": "every schedule"
  },
  {
   "property": "C59",
   "status": "partial",
   "theorems": [
    "Verif.Props.C59_flushed_partial",
    "Verif.Props.C59_stop_loses_everything",
    "Verif.Props.C59_last_messages_lost",
    "Verif.Props.C59_runs_until_stop",
    "Verif.Props.C59_stop_returns"
   ],
   "note": "the code violates the property (proved); the part that holds is C59_flushed_partial"
  },
  {
   "property": "C60",
   "status": "proved",
   "theorems": [
    "Verif.Props.C60_frame_conversion",
    "Verif.Props.C60_record"
   ],
   "note": "exact arithmetic"
  },
  {
   "property": "C61",
   "status": "partial",
   "theorems": [
    "Verif.Props.C61_binary_file",
    "Verif.Props.C61_extra_record",
    "Verif.Props.C61_text_file"
   ],
   "note": "the samples are delivered exactly and in order; one extra record is always delivered after them (proved)"
  },
  {
   "property": "C62",
   "status": "proved",
   "theorems": [
    "Verif.Props.C62_gga_line"
   ],
   "note": ""
  },
  {
   "property": "C63",
   "status": "partial",
   "theorems": [
    "Verif.Props.C63_saved_never_loads",
    "Verif.Props.C63_saveConfig_never_loads",
    "Verif.Props.C63_missing_keys",
    "Verif.Props.C63_round_trip_partial",
    "Verif.Props.C63_threshold_truncated",
    "Verif.Props.C63_saveConfig_loses_zupta"
   ],
   "note": "the code violates the property for every configuration (proved); with the twelve missing keys added every saved setting round-trips except the truncated threshold"
  },
  {
   "property": "C64",
   "status": "proved",
   "theorems": [
    "Verif.Props.C64_get_option",
    "Verif.Props.C64_use_given_starts_certain"
   ],
   "note": "exact arithmetic"
  },
  {
   "property": "C65",
   "status": "partial",
   "theorems": [
    "Verif.Props.C65_layout",
    "Verif.Props.C65_overlap",
    "Verif.Props.C65_count"
   ],
   "note": "holds in exactly eleven of the sixteen builds (proved); STATE_CNT is right in all"
  },
  {
   "property": "C66",
   "status": "partial",
   "theorems": [
    "Verif.Props.C66_accepts_iff_zero",
    "Verif.Props.C66_valid_frames_refused",
    "Verif.Props.C66_accepted_valid_partial"
   ],
   "note": "the code violates the property: only all-zero blocks are accepted (proved)"
  },
  {
   "property": "C67",
   "status": "proved",
   "theorems": [
    "Verif.Props.C67_velocity_raw",
    "Verif.Props.C67_velocity"
   ],
   "note": ""
  },
  {
   "property": "C68",
   "status": "proved",
   "theorems": [
    "Verif.Props.C68_initial_covariance"
   ],
   "note": "exact arithmetic"
  },
  {
   "property": "C69",
   "status": "proved",
   "theorems": [
    "Verif.Props.C69_compensation",
    "Verif.Props.C69_consequences"
   ],
   "note": "exact arithmetic"
  },
  {
   "property": "C70",
   "status": "partial",
   "theorems": [
    "Verif.Props.C70_no_junk_use_given",
    "Verif.Props.C70_only_previous_velocity_partial",
    "Verif.Props.C70_first_velocity_depends_on_memory"
   ],
   "note": "true for given start values; moving alignment depends on exactly one uninitialised member, the previous velocity (violation exhibited)"
  },
  {
   "property": "C71",
   "status": "proved",
   "theorems": [
    "Verif.Props.C71_progress"
   ],
   "note": ""
  },
  {
   "property": "C72",
   "status": "partial",
   "theorems": [
    "Verif.Props.C72_stop_time_ignored",
    "Verif.Props.C72_every_record_written"
   ],
   "note": "the code violates the property: the stop time has no influence (proved for every input)"
  },
  {
   "property": "C73",
   "status": "proved",
   "theorems": [
    "Verif.Props.C73_parameter_units",
    "Verif.Props.C73_all_or_nothing",
    "Verif.Props.C73_missing_key_fails"
   ],
   "note": ""
  },
  {
   "property": "C74",
   "status": "partial",
   "theorems": [
    "Verif.Props.C74_gap_statistics",
    "Verif.Props.C74_average_too_small"
   ],
   "note": "count, last and largest gap are right; the mean is always too small (proved)"
  },
  {
   "property": "C75",
   "status": "partial",
   "theorems": [
    "Verif.Props.C75_bad_token_hangs",
    "Verif.Props.C75_record_of_a_header",
    "Verif.Props.C75_numbers_end_partial"
   ],
   "note": "the code violates the property for files with a bad token (proved)"
  },
  {
   "property": "C76",
   "status": "partial",
   "theorems": [
    "Verif.Props.C76_gnss_file",
    "Verif.Props.C76_bad_line_truncates",
    "Verif.Props.C76_complete",
    "Verif.Props.C76_extra_fix",
    "Verif.Props.C76_ten_columns_is_ub"
   ],
   "note": "the code violates the property (proved); what is delivered is characterised exactly"
  },
  {
   "property": "C77",
   "status": "partial",
   "theorems": [
    "Verif.Props.C77_ascii_is_binary",
    "Verif.Props.C77_pva_writer_partial"
   ],
   "note": "the threaded writer violates the property (proved)"
  },
  {
   "property": "C78",
   "status": "partial",
   "theorems": [
    "Verif.Props.C78_gyro_scale_misses_attitude",
    "Verif.Props.C78_acce_scale_misses_velocity",
    "Verif.Props.C78_biases_couple"
   ],
   "note": "the optional builds violate the property (proved)"
  },
  {
   "property": "C79",
   "status": "proved",
   "theorems": [
    "Verif.Props.C79_increment",
    "Verif.Props.C79_message",
    "Verif.Props.C79_scale"
   ],
   "note": "exact arithmetic"
  },
  {
   "property": "C80",
   "status": "partial",
   "theorems": [
    "Verif.Props.C80_scale_factor",
    "Verif.Props.C80_no_odometer"
   ],
   "note": "with odometer proved; without odometer the code violates it (proved); exact arithmetic, SVD contract"
  },
  {
   "property": "C81",
   "status": "proved",
   "theorems": [
    "Verif.Props.C81_strapdown_consistent"
   ],
   "note": "exact arithmetic, away from the poles and the date line; first-order consistency of the step"
  },
  {
   "property": "C82",
   "status": "proved",
   "theorems": [
    "Verif.Props.C82_coning_exact",
    "Verif.Props.C82_sculling_exact"
   ],
   "note": "exact arithmetic"
  },
  {
   "property": "C83",
   "status": "proved",
   "theorems": [
    "Verif.Props.C83_feedback",
    "Verif.Props.C83_position_innovation",
    "Verif.Props.C83_position_sensitivity",
    "Verif.Props.C83_velocity_prediction",
    "Verif.Props.C83_velocity_sensitivity"
   ],
   "note": "exact arithmetic; the neglected wheel term is explicit in the theorem"
  },
  {
   "property": "C84",
   "status": "proved",
   "theorems": [
    "Verif.Props.C84_result",
    "Verif.Props.C84_projected_position",
    "Verif.Props.C84_projected_attitude"
   ],
   "note": "exact arithmetic"
  },
  {
   "property": "C85",
   "status": "proved",
   "theorems": [
    "Verif.Props.C85_getters_agree"
   ],
   "note": "every arithmetic"
  },
  {
   "property": "C86",
   "status": "proved",
   "theorems": [
    "Verif.Props.C86_handover",
    "Verif.Props.given_ok"
   ],
   "note": "exact arithmetic"
  },
  {
   "property": "C87",
   "status": "partial",
   "theorems": [
    "Verif.Props.C87_levelling",
    "Verif.Props.C87_roll_right_iff"
   ],
   "note": "pitch proved; the code violates it for roll: characterised exactly"
  },
  {
   "property": "C88",
   "status": "partial",
   "theorems": [
    "Verif.Props.C88_position",
    "Verif.Props.C88_antenna_at_fix_partial",
    "Verif.Props.C88_mounting_misplaces"
   ],
   "note": "holds without mounting yaw; with it the code violates the property (proved)"
  },
  {
   "property": "C89",
   "status": "partial",
   "theorems": [
    "Verif.Props.C89_velocity",
    "Verif.Props.C89_remembers",
    "Verif.Props.C89_uniform_motion"
   ],
   "note": "heading proved; the velocity is right iff fixes are 1 s apart and motion is level (proved)"
  },
  {
   "property": "C90",
   "status": "partial",
   "theorems": [
    "Verif.Props.C90_deviations",
    "Verif.Props.C90_worse_fix_better_attitude"
   ],
   "note": "position and velocity proved; the attitude part is violated (proved)"
  },
  {
   "property": "C91",
   "status": "partial",
   "theorems": [
    "Verif.Props.C91_configured_biases",
    "Verif.Props.C91_static_bias"
   ],
   "note": "both orders characterised; violated when a fix follows levelling"
  },
  {
   "property": "C92",
   "status": "proved",
   "theorems": [
    "Verif.Props.C92_gravity",
    "Verif.Props.C92_grows_high",
    "Verif.Props.C92_start_gravity"
   ],
   "note": "over the reals; C92_grows_high bounds the domain of validity"
  },
  {
   "property": "C93",
   "status": "proved",
   "theorems": [
    "Verif.Props.C93_linearisation",
    "Verif.Props.C93_transition",
    "Verif.Props.C93_covariance",
    "Verif.Props.C93_gravity_residual"
   ],
   "note": "over the reals; first order in the step; the neglected gravity-gradient terms are bounded by C93_gravity_residual"
  },
  {
   "property": "C94",
   "status": "proved",
   "theorems": [
    "Verif.Props.C94_remaining_innovation",
    "Verif.Props.C94_zero_velocity",
    "Verif.Props.C94_zero_rate",
    "Verif.Props.C94_relative_height",
    "Verif.Props.C94_odometer",
    "Verif.Props.C94_odometer_constrained",
    "Verif.Props.C94_constraint",
    "Verif.Props.C94_never_farther",
    "Verif.Props.C94_fix",
    "Verif.Props.C94_wheel_never_farther"
   ],
   "note": "over the reals"
  },
  {
   "property": "C95",
   "status": "proved",
   "theorems": [
    "Verif.Props.C95_optimal_gain"
   ],
   "note": "over the reals"
  },
  {
   "property": "C96",
   "status": "proved",
   "theorems": [
    "Verif.Props.C96_share",
    "Verif.Props.C96_shares_end"
   ],
   "note": "every arithmetic"
  },
  {
   "property": "C97",
   "status": "partial",
   "theorems": [
    "Verif.Props.C97_options",
    "Verif.Props.C97_cmake",
    "Verif.Props.C97_within",
    "Verif.Props.C97_layout",
    "Verif.Props.C97_overlap"
   ],
   "note": "holds exactly when the odometer option is off; that option violates it (proved)"
  },
  {
   "property": "C98",
   "status": "partial",
   "theorems": [
    "Verif.Props.C98_default_build",
    "Verif.Props.C98_extended_builds",
    "Verif.Props.C98_fix_is_fatal"
   ],
   "note": "holds in the default build; every extended build violates it (proved, and the histories that run are characterised for constraint-free setups)"
  },
  {
   "property": "C99",
   "status": "partial",
   "theorems": [
    "Verif.Props.C99_gyro_scale_wrong_rows",
    "Verif.Props.C99_acce_scale_wrong_rows"
   ],
   "note": "violated: the coupling is written into the gyroscope-bias (attitude) rows (proved, with the true effect)"
  }
 ]
}