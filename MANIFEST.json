{"claims": [
{"property": "C01", "status": "proved", "theorems": ["StateEstimation.Props.C01_predict_nonfuture_noop", "StateEstimation.Props.C01_predict_nonfuture_unobservable"], "note": ""},
{"property": "C02", "status": "proved", "theorems": ["StateEstimation.Props.C02_past_control_ignored", "StateEstimation.Props.C02_past_measurement_ignored"], "note": ""},
{"property": "C03", "status": "proved", "theorems": ["StateEstimation.Props.C03_inorder_sets_clock", "StateEstimation.Props.C03_allowed_past_keeps_clock", "StateEstimation.Props.C03_late_input_keeps_clock", "StateEstimation.Props.C03_C20_predict_time_effect", "StateEstimation.Props.C03_C18_C20_predict_control_effect", "StateEstimation.Props.C03_C18_correct_effect", "StateEstimation.Props.C03_allowed_past_effect"], "note": ""},
{"property": "C04", "status": "proved", "theorems": ["StateEstimation.Props.C04_time_never_decreases"], "note": "For clocks without rounding (integers, rationals, reals). For doubles see C64_refuted_clock_goes_back and C64_double_clock_monotone."},
{"property": "C05", "status": "proved", "theorems": ["StateEstimation.Props.C05_enqueue_isolated", "StateEstimation.Props.C05_direct_calls_keep_queues", "StateEstimation.Props.C05_emptying"], "note": ""},
{"property": "C06", "status": "proved", "theorems": ["StateEstimation.Props.C06_C25_queue_effect_plain", "StateEstimation.Props.C06_C25_queue_effect_rewind", "StateEstimation.Props.C06_processQueues_is_direct", "StateEstimation.Props.C06_tie_triggers_rewind"], "note": "processQueues equals the sequence of direct calls for batches whose times strictly increase from the filter time; with equal time stamps the direct calls and the batch differ (C06_tie_triggers_rewind)."},
{"property": "C07", "status": "proved", "theorems": ["StateEstimation.Props.C07_enqueue_order_irrelevant"], "note": ""},
{"property": "C08", "status": "proved", "theorems": ["StateEstimation.Props.C08_refused_without_older_state", "StateEstimation.Props.C08_C25_accepted_replays"], "note": ""},
{"property": "C09", "status": "proved", "theorems": ["StateEstimation.Props.C09_out_of_order_controls"], "note": "Over model classes that are memoryless; C106 shows that the six filters of the library with any stateless model classes are."},
{"property": "C10", "status": "partial", "theorems": ["StateEstimation.Props.C10_out_of_order_mixture_partial", "StateEstimation.Props.C10_refuted"], "note": "Full claim false of the code (C10_refuted): rewinding does not restore the control in use, so a late measurement is reached with a control from its future. Partial: any mixture of measurements, control-free predictions and repetitions of the control in use. C106: all six filters of the library and SixDRates meet the hypotheses."},
{"property": "C11", "status": "partial", "theorems": ["StateEstimation.Props.C11_revert_contract", "StateEstimation.Props.C11_retained_sorted", "StateEstimation.Props.C11_revert_undoes_input", "StateEstimation.Props.C11_refuted_control_not_reverted"], "note": "revertToState restores state, covariance, time; the remembered control is not reverted (C11_refuted_control_not_reverted)."},
{"property": "C12", "status": "proved", "theorems": ["StateEstimation.Props.C12_failed_revert_noop", "StateEstimation.Props.C12_revert_idempotent"], "note": ""},
{"property": "C13", "status": "proved", "theorems": ["StateEstimation.Props.C13_history_loops_safe", "StateEstimation.Props.C13_no_call_fails"], "note": ""},
{"property": "C14", "status": "partial", "theorems": ["StateEstimation.Props.C14_newest_in_window_partial", "StateEstimation.Props.C14_refuted", "StateEstimation.Props.C14_history_grows_without_bound", "StateEstimation.Props.C14_unbounded_memory"], "note": "Full claim false: pruning looks only at the newest end, see C14_refuted, C14_unbounded_memory."},
{"property": "C15", "status": "proved", "theorems": ["StateEstimation.Props.C15_queues_keep_window", "StateEstimation.Props.C15_pruning_keeps_window"], "note": ""},
{"property": "C16", "status": "partial", "theorems": ["StateEstimation.Props.C16_initialize_sets", "StateEstimation.Props.C16_initialize_fresh_partial", "StateEstimation.Props.C16_only_control_leaks_partial", "StateEstimation.Props.C16_refuted"], "note": "Full claim false: initialize keeps the remembered control (C16_refuted). Partial: everything else is as in a fresh filter."},
{"property": "C17", "status": "proved", "theorems": ["StateEstimation.Props.C17_history_forgotten", "StateEstimation.Props.C17_replays_only_new_inputs"], "note": ""},
{"property": "C18", "status": "proved", "theorems": ["StateEstimation.Props.C03_C18_C20_predict_control_effect", "StateEstimation.Props.C03_C18_correct_effect", "StateEstimation.Props.C18_stationary_control", "StateEstimation.Props.C18_moving_control", "StateEstimation.Props.C18_measurement", "StateEstimation.Props.C18_user_control", "StateEstimation.Props.C18_user_moving_control", "StateEstimation.Props.C18_user_measurement", "StateEstimation.Props.C18_user_control_ukf", "StateEstimation.Props.C18_user_measurement_ukf"], "note": ""},
{"property": "C19", "status": "partial", "theorems": ["StateEstimation.Props.C19_future_measurement_partial", "StateEstimation.Props.C19_refuted_predicate", "StateEstimation.Props.C19_refuted_dt"], "note": "Full claim false (C19_refuted_predicate: the stationary predicate is shown a different control; C19_refuted_dt: the correction sees a different dt). Partial theorem: holds whenever neither of the two distinguishes."},
{"property": "C20", "status": "proved", "theorems": ["StateEstimation.Props.C03_C20_predict_time_effect", "StateEstimation.Props.C03_C18_C20_predict_control_effect", "StateEstimation.Props.C20_predict_time_uses_control", "StateEstimation.Props.C20_latest_control_remembered", "StateEstimation.Props.C20_inorder_either_mode", "StateEstimation.Props.C20_construct_remembers_none"], "note": ""},
{"property": "C21", "status": "proved", "theorems": ["StateEstimation.Props.C21_modes_agree_in_order"], "note": ""},
{"property": "C22", "status": "partial", "theorems": ["StateEstimation.Props.C22_refuted_rewind_off", "StateEstimation.Props.C22_refuted_rewind_on", "StateEstimation.Props.C22_rewind_partial", "StateEstimation.Props.C22_plain_partial"], "note": "Full claim false in both modes (refuted); partial theorems give the conditions under which it holds."},
{"property": "C23", "status": "partial", "theorems": ["StateEstimation.Props.C23_refuted", "StateEstimation.Props.C23_no_ties_partial"], "note": "Full claim false: std::sort is not stable (C23_refuted); without ties it holds, and with ties among readings only it holds for the KF and for the EKF and UKF with affine sensors (C142)."},
{"property": "C24", "status": "partial", "theorems": ["StateEstimation.Props.C24_refuted", "StateEstimation.Props.C24_next_call_partial"], "note": "Full claim false (C24_refuted): a measurement or predict(t) in between puts the old control covariance back. Partial: the control directly following the setter uses the new value."},
{"property": "C25", "status": "proved", "theorems": ["StateEstimation.Props.C25_late_input_effect", "StateEstimation.Props.C06_C25_queue_effect_plain", "StateEstimation.Props.C06_C25_queue_effect_rewind", "StateEstimation.Props.C25_inputs_after_queues", "StateEstimation.Props.C08_C25_accepted_replays", "StateEstimation.Props.C25_inputs_after_replay"], "note": ""},
{"property": "C26", "status": "proved", "theorems": ["StateEstimation.Props.C26_kf_sizes", "StateEstimation.Props.C26_ekf_sizes", "StateEstimation.Props.C26_C29_kf", "StateEstimation.Props.C26_C29_ekf", "StateEstimation.Props.C26_ukf_sizes"], "note": ""},
{"property": "C27", "status": "proved", "theorems": ["StateEstimation.Props.C27_kf_predict", "StateEstimation.Props.C27_ekf_predict"], "note": ""},
{"property": "C28", "status": "proved", "theorems": ["StateEstimation.Props.C28_C30_kf_correct", "StateEstimation.Props.C28_C30_ekf_correct"], "note": ""},
{"property": "C29", "status": "proved", "theorems": ["StateEstimation.Props.C26_C29_kf", "StateEstimation.Props.C26_C29_ekf"], "note": ""},
{"property": "C30", "status": "proved", "theorems": ["StateEstimation.Props.C28_C30_kf_correct", "StateEstimation.Props.C28_C30_ekf_correct"], "note": ""},
{"property": "C31", "status": "proved", "theorems": ["StateEstimation.Props.C31_ekf_perfect_measurement", "StateEstimation.Props.C31_ekf_equal_certainty", "StateEstimation.Props.C31_perfect_measurement", "StateEstimation.Props.C31_equal_certainty", "StateEstimation.Props.C31_covariance_independent_of_value", "StateEstimation.Props.C31_expected_measurement", "StateEstimation.Props.C31_ekf_expected_measurement"], "note": ""},
{"property": "C32", "status": "proved", "theorems": ["StateEstimation.Props.C32_measurements_commute", "StateEstimation.Props.C32_any_order"], "note": ""},
{"property": "C33", "status": "proved", "theorems": ["StateEstimation.Props.C33_ekf_eq_kf"], "note": ""},
{"property": "C34", "status": "proved", "theorems": ["StateEstimation.Props.C34_weights", "StateEstimation.Props.C34_defaults", "StateEstimation.Props.C34_degenerate"], "note": ""},
{"property": "C35", "status": "proved", "theorems": ["StateEstimation.Props.C35_ukf_eq_ekf", "StateEstimation.Props.C35_ukf_eq_kf"], "note": ""},
{"property": "C36", "status": "proved", "theorems": ["StateEstimation.Props.C36_C37_ukf_every_history", "StateEstimation.Props.C36_ukf_predict"], "note": ""},
{"property": "C37", "status": "proved", "theorems": ["StateEstimation.Props.C36_C37_ukf_every_history", "StateEstimation.Props.C37_ukf_correct"], "note": ""},
{"property": "C38", "status": "partial", "theorems": ["StateEstimation.Props.C38_state_independent_partial", "StateEstimation.Props.C38_refuted"], "note": "Full claim false for state dependent noise Jacobians (C38_refuted); holds when they do not depend on the state."},
{"property": "C39", "status": "proved", "theorems": ["StateEstimation.Props.C39_kfvs_all_active", "StateEstimation.Props.C39_ekfvs_all_active", "StateEstimation.Props.C39_ukfvs_all_active", "StateEstimation.Props.C39_sigma", "StateEstimation.Props.C39_lists"], "note": ""},
{"property": "C40", "status": "partial", "theorems": ["StateEstimation.Props.C40_refuted_ekfvs", "StateEstimation.Props.C40_C41_ukfvs_correct", "StateEstimation.Props.C40_kfvs_correct_partial", "StateEstimation.Props.C40_ekfvs_correct_partial", "StateEstimation.Props.C40_refuted_kfvs"], "note": "Full claim false (C40_refuted_kfvs, C40_refuted_ekfvs); partial theorems for correct."},
{"property": "C41", "status": "proved", "theorems": ["StateEstimation.Props.C41_kfvs_predict", "StateEstimation.Props.C41_ekfvs_predict", "StateEstimation.Props.C41_kfvs_correct", "StateEstimation.Props.C41_ekfvs_correct", "StateEstimation.Props.C41_ukfvs_predict", "StateEstimation.Props.C40_C41_ukfvs_correct"], "note": ""},
{"property": "C42", "status": "partial", "theorems": ["StateEstimation.Props.C42_kfvs_active_partial", "StateEstimation.Props.C42_kfvs_separated_partial", "StateEstimation.Props.C42_ekfvs_active_partial", "StateEstimation.Props.C42_ekfvs_separated_partial", "StateEstimation.Props.C42_ukfvs_active_partial", "StateEstimation.Props.C42_ukfvs_separated_partial", "StateEstimation.Props.C42_refuted"], "note": "Full claim false (C42_refuted): the full covariance can lose positive semidefiniteness; the active block always keeps it."},
{"property": "C43", "status": "proved", "theorems": ["StateEstimation.Props.C43_insert_vector", "StateEstimation.Props.C43_extract_vector", "StateEstimation.Props.C43_zeroed_vector", "StateEstimation.Props.C43_insert_matrix", "StateEstimation.Props.C43_extract_matrix", "StateEstimation.Props.C43_zeroed_matrix", "StateEstimation.Props.C43_square", "StateEstimation.Props.C43_empty_map"], "note": ""},
{"property": "C44", "status": "proved", "theorems": ["StateEstimation.Props.C44_states", "StateEstimation.Props.C44_controls", "StateEstimation.Props.C44_measurements", "StateEstimation.Props.C44_marks_always_sized", "StateEstimation.Props.C44_empty_means_all", "StateEstimation.Props.C44_sizes", "StateEstimation.Props.C44_all_at_construction", "StateEstimation.Props.C44_usable"], "note": ""},
{"property": "C45", "status": "partial", "theorems": ["StateEstimation.Props.C45_invalid_ignored_partial", "StateEstimation.Props.C45_refuted_only_invalid", "StateEstimation.Props.C45_refuted_repeated_kept", "StateEstimation.Props.C45_refuted_repeated_overconfident"], "note": "Full claim false: a list of only invalid indices activates everything; repeated indices are kept and make KalmanFilterVS overconfident (variance 1/(N^2+1) after one measurement). Partial: invalid indices next to a valid one are ignored."},
{"property": "C46", "status": "proved", "theorems": ["StateEstimation.Props.C46_constrainAngle", "StateEstimation.Props.C46_constrainAngles"], "note": ""},
{"property": "C47", "status": "proved", "theorems": ["StateEstimation.Props.C47_angleDifference", "StateEstimation.Props.C47_angleDifferences"], "note": ""},
{"property": "C48", "status": "proved", "theorems": ["StateEstimation.Props.C48_addState", "StateEstimation.Props.C48_subtractState", "StateEstimation.Props.C48_weightedSum"], "note": ""},
{"property": "C49", "status": "proved", "theorems": ["StateEstimation.Props.C49_weightedAngleSum", "StateEstimation.Props.C49_negative_weight", "StateEstimation.Props.C49_cancelled"], "note": ""},
{"property": "C50", "status": "proved", "theorems": ["StateEstimation.Props.C50_add", "StateEstimation.Props.C50_sub"], "note": ""},
{"property": "C51", "status": "partial", "theorems": ["StateEstimation.Props.C51_planar", "StateEstimation.Props.C51_default", "StateEstimation.Props.C51_six_d_value", "StateEstimation.Props.C51_refuted_six_d", "StateEstimation.Props.C51_six_d_partial"], "note": "False for six_d_rates (C51_refuted_six_d: two equal columns with weights 1/2 return gravity of twice the magnitude); proved for the default operation and planar_2d; the partial theorem gives the exact six_d_rates result."},
{"property": "C52", "status": "proved", "theorems": ["StateEstimation.Props.C52_unit", "StateEstimation.Props.C52_opposite", "StateEstimation.Props.C52_inverse", "StateEstimation.Props.C52_compose", "StateEstimation.Props.C52_integrate", "StateEstimation.Props.C52_rotation", "StateEstimation.Props.C52_rotation_compose", "StateEstimation.Props.C52_axis", "StateEstimation.Props.C52_angle"], "note": ""},
{"property": "C53", "status": "proved", "theorems": ["StateEstimation.Props.C53_velocity", "StateEstimation.Props.C53_position", "StateEstimation.Props.C53_zero_rotation", "StateEstimation.Props.C53_velocity_bounded", "StateEstimation.Props.C53_same_velocity", "StateEstimation.Props.C53_position_bounded"], "note": ""},
{"property": "C54", "status": "proved", "theorems": ["StateEstimation.Props.C54_predict", "StateEstimation.Props.C54_inactive"], "note": ""},
{"property": "C55", "status": "partial", "theorems": ["StateEstimation.Props.C55_rates_every_direction_partial", "StateEstimation.Props.C55_C56_odom_partial", "StateEstimation.Props.C55_C56_imu_partial", "StateEstimation.Props.C55_sensors_constructed", "StateEstimation.Props.C55_rates_partial", "StateEstimation.Props.C55_refuted_rates"], "note": "Exact derivative proved for the sensor models. For SixDRates the claim is false (C55_refuted_rates); C55_rates_partial and C55_rates_every_direction_partial bound the difference between G() and the derivative of g() in every direction."},
{"property": "C56", "status": "partial", "theorems": ["StateEstimation.Props.C56_odom_prediction", "StateEstimation.Props.C56_imu_prediction", "StateEstimation.Props.C55_C56_odom_partial", "StateEstimation.Props.C55_C56_imu_partial", "StateEstimation.Props.C56_refuted_odom", "StateEstimation.Props.C56_refuted_imu"], "note": "False (C56_refuted_odom, C56_refuted_imu): setTf(identity) after another transform leaves H of the old one. h() always refers to the latest transform (proved); H() does unless the last call set the identity after another transform (partial)."},
{"property": "C57", "status": "proved", "theorems": ["StateEstimation.Props.C57_identity", "StateEstimation.Props.C57_compose", "StateEstimation.Props.C57_inverse"], "note": ""},
{"property": "C58", "status": "partial", "theorems": ["StateEstimation.Props.C58_velocity_point", "StateEstimation.Props.C58_acceleration_point", "StateEstimation.Props.C58_refuted", "StateEstimation.Props.C58_refuted_compose", "StateEstimation.Props.C58_partial", "StateEstimation.Props.C58_compose_partial"], "note": "False (C58_refuted*): the velocity transform uses the lever arm R^T t, the acceleration transform t. Partial: holds for pure translations or pure rotations."},
{"property": "C59", "status": "proved", "theorems": ["StateEstimation.Props.C59_symmetric", "StateEstimation.Props.C59_psd", "StateEstimation.Props.C59_trace", "StateEstimation.Props.C59_compose", "StateEstimation.Props.C59_quadratic"], "note": ""},
{"property": "C60", "status": "partial", "theorems": ["StateEstimation.Props.C60_aligned", "StateEstimation.Props.C60_zero", "StateEstimation.Props.C60_refuted"], "note": "Proved for every gravity vector except those pointing exactly along +z, where the code divides by zero (C60_refuted...)."},
{"property": "C61", "status": "proved", "theorems": ["StateEstimation.Props.C61_with_gravity", "StateEstimation.Props.C61_without_gravity", "StateEstimation.Props.C61_gyro", "StateEstimation.Props.C61_unique"], "note": ""},
{"property": "C62", "status": "proved", "theorems": ["StateEstimation.Props.C62_signs", "StateEstimation.Props.C62_best", "StateEstimation.Props.C62_single", "StateEstimation.Props.C62_length"], "note": ""},
{"property": "C63", "status": "partial", "theorems": ["StateEstimation.Props.C63_count", "StateEstimation.Props.C63_on_ellipse", "StateEstimation.Props.C63_distinct", "StateEstimation.Props.C63_covariance_partial", "StateEstimation.Props.C63_refuted"], "note": "The error-ellipse geometry is proved; the covariance version is refuted (uses eigenvalues instead of their square roots)."},
{"property": "C64", "status": "partial", "theorems": ["StateEstimation.Props.C64_refuted", "StateEstimation.Props.C64_refuted_clock_goes_back", "StateEstimation.Props.C64_double_clock_monotone", "StateEstimation.Props.C64_partial", "StateEstimation.Props.C64_grid_partial", "StateEstimation.Props.C64_grid_clock_partial"], "note": "False (C64_refuted: from 0.7 an input stamped 2.9 leaves the clock at 2.9000000000000004 and a second input stamped 2.9 is dropped; C64_refuted_clock_goes_back). Proved: rounding never moves the clock back with rewinding off; exact when the stamp is at most twice the state time (Sterbenz) or stamps lie on a common binary grid (all Unix times 2004-2038), then every API run equals the run on an exact clock."},
{"property": "C65", "status": "partial", "theorems": ["StateEstimation.Props.C65_partial", "StateEstimation.Props.C65_refuted_rewind", "StateEstimation.Props.C65_refuted_never_recovers", "StateEstimation.Props.C65_refuted_measurement", "StateEstimation.Props.C65_refuted_queue"], "note": "False with rewinding on, with past measurements allowed, and for queued inputs (refuted; the clock becomes NaN and never recovers). Partial: rewinding off without past measurements."},
{"property": "C66", "status": "partial", "theorems": ["StateEstimation.Props.C66_planar_partial", "StateEstimation.Props.C66_refuted_six_d", "StateEstimation.Props.C66_six_d_partial"], "note": "False for six_d_rates (C66_refuted_six_d: the gravity difference is rescaled to 9.8062); the partial theorem gives what holds; planar_2d proved up to heading normalisation."},
{"property": "C67", "status": "partial", "theorems": ["StateEstimation.Props.C67_refuted_more_states", "StateEstimation.Props.C67_refuted_fewer_states", "StateEstimation.Props.C67_new_parameters_partial"], "note": "False (C67_refuted_more_states, C67_refuted_fewer_states). Partial: it holds when setSigmaPointParameters is called after setActiveStates."},
{"property": "C68", "status": "proved", "theorems": ["StateEstimation.Props.C36_ukf_predict", "StateEstimation.Props.C37_ukf_correct"], "note": "C36_ukf_predict and C37_ukf_correct state the complete equations."},
{"property": "C69", "status": "proved", "theorems": ["StateEstimation.Props.C69_gravity"], "note": ""},
{"property": "C70", "status": "partial", "theorems": ["StateEstimation.Props.C70_terminates_partial", "StateEstimation.Props.C70_refuted", "StateEstimation.Props.C70_exact_partial"], "note": "Full claim false: for every double with |a| > 2^56 constrainAngle never returns (C70_refuted). Partial: for |a| <= 2^56 it returns a double in [-M_PI, M_PI], unchanged if it was already there; for |a| <= 64 no step rounds."},
{"property": "C71", "status": "proved", "theorems": ["StateEstimation.Props.C71_angleDifference", "StateEstimation.Props.C71_antisymmetric", "StateEstimation.Props.C71_exact"], "note": "For all doubles the result is the rounded difference plus a whole number of turns 2*M_PI, exactly, in [-M_PI, M_PI], and antisymmetric."},
{"property": "C72", "status": "proved", "theorems": ["StateEstimation.Props.C72_kf_units", "StateEstimation.Props.C72_ekf_units"], "note": ""},
{"property": "C73", "status": "proved", "theorems": ["StateEstimation.Props.C73_covariance_data_free"], "note": ""},
{"property": "C74", "status": "proved", "theorems": ["StateEstimation.Props.C74_all_in_order_calls", "StateEstimation.Props.C74_reported_covariance_is_error_covariance"], "note": ""},
{"property": "C75", "status": "partial", "theorems": ["StateEstimation.Props.C75_noise_partial", "StateEstimation.Props.C75_refuted_bias_variance_never_grows"], "note": "False for the biases (C75_refuted_bias_variance_never_grows: the rows of the noise Jacobian for the biases are zero, so in every run no process noise ever increases a bias variance). Partial: the exact effect on velocity, acceleration and rate, and a third-order bound for gravity."},
{"property": "C76", "status": "proved", "theorems": ["StateEstimation.Props.C76_flags"], "note": ""},
{"property": "C77", "status": "proved", "theorems": ["StateEstimation.Props.C77_sequential_is_stacked"], "note": ""},
{"property": "C78", "status": "proved", "theorems": ["StateEstimation.Props.C78_other_sensors_kf", "StateEstimation.Props.C78_other_sensors_ekf", "StateEstimation.Props.C78_other_sensors_kfvs", "StateEstimation.Props.C78_other_sensors_ekfvs", "StateEstimation.Props.C78_other_sensors_ukf", "StateEstimation.Props.C78_other_sensors_ukfvs"], "note": ""},
{"property": "C79", "status": "proved", "theorems": ["StateEstimation.Props.C79_getSubset", "StateEstimation.Props.C79_getSubset2", "StateEstimation.Props.C79_getSubsetSq", "StateEstimation.Props.C79_writeVec", "StateEstimation.Props.C79_writeMat2", "StateEstimation.Props.C79_writeMatSq", "StateEstimation.Props.C79_roundtrip_vector", "StateEstimation.Props.C79_roundtrip_matrix", "StateEstimation.Props.C79_long_list_never_returns", "StateEstimation.Props.C79_long_list_is_dropped"], "note": ""},
{"property": "C80", "status": "proved", "theorems": ["StateEstimation.Props.C80_load", "StateEstimation.Props.C80_failed", "StateEstimation.Props.C80_pieces", "StateEstimation.Props.C80_blank_line_at_end"], "note": ""},
{"property": "C81", "status": "proved", "theorems": ["StateEstimation.Props.C81_round_trip", "StateEstimation.Props.C81_small", "StateEstimation.Props.C81_headerless"], "note": ""},
{"property": "C82", "status": "proved", "theorems": ["StateEstimation.Props.C82_run", "StateEstimation.Props.C82_bad_input", "StateEstimation.Props.C82_empty"], "note": ""},
{"property": "C83", "status": "partial", "theorems": ["StateEstimation.Props.C83_standstill_partial", "StateEstimation.Props.C83_start", "StateEstimation.Props.C83_start_refuted"], "note": "Second half false of the code (C83_start_refuted: no bound on the error exists; C83_start gives the exact estimates). C83_standstill_partial proves the first half."},
{"property": "C84", "status": "partial", "theorems": ["StateEstimation.Props.C84_header_refuted", "StateEstimation.Props.C84_header_partial"], "note": "Count holds; distinctness is false (C84_header_refuted). Partial: names of states and of the covariances between the first ten states."},
{"property": "C85", "status": "proved", "theorems": ["StateEstimation.Props.C85_clock", "StateEstimation.Props.C85_origin"], "note": ""},
{"property": "C86", "status": "proved", "theorems": ["StateEstimation.Props.C86_monotone"], "note": ""},
{"property": "C87", "status": "proved", "theorems": ["StateEstimation.Props.C87_best_explanation"], "note": ""},
{"property": "C88", "status": "proved", "theorems": ["StateEstimation.Props.C88_superposition"], "note": ""},
{"property": "C89", "status": "proved", "theorems": ["StateEstimation.Props.C89_best_linear_estimate"], "note": ""},
{"property": "C90", "status": "partial", "theorems": ["StateEstimation.Props.C90_correction_partial", "StateEstimation.Props.C90_variance_nonneg_partial", "StateEstimation.Props.C90_negative_variance", "StateEstimation.Props.C90_negative_variance_hyps"], "note": "Full claim false (C90_negative_variance: variance 5*2^60, sensor coefficient 7, measurement variance 1 give -1280). Partial: sensor coefficients +-2^k (in particular a sensor of the state itself), every variance and every sequence of calls, short of reciprocals that underflow."},
{"property": "C91", "status": "partial", "theorems": ["StateEstimation.Props.C91_factor_partial", "StateEstimation.Props.C91_ukf_every_history_partial", "StateEstimation.Props.C91_known_last_partial", "StateEstimation.Props.C91_refuted"], "note": "Full claim false (C91_refuted): the factorisation stops at the first zero pivot and nobody checks. Partial: positive definite covariances (all sizes, every history), and exactly known components in the last places."},
{"property": "C92", "status": "proved", "theorems": ["StateEstimation.Props.C92_metering_changes_nothing", "StateEstimation.Props.C92_work_of_a_call", "StateEstimation.Props.C92_work_in_order", "StateEstimation.Props.C92_total_work", "StateEstimation.Props.C92_total_work_plain"], "note": ""},
{"property": "C93", "status": "partial", "theorems": ["StateEstimation.Props.C93_share_sensors_kf", "StateEstimation.Props.C93_share_sensors_ekf", "StateEstimation.Props.C93_share_sensors_ukf", "StateEstimation.Props.C93_share_all_kf_partial", "StateEstimation.Props.C93_share_all_ekf_partial", "StateEstimation.Props.C93_share_all_ukf_partial", "StateEstimation.Props.C93_refuted", "StateEstimation.Props.C93_share_sensors_kf_vs", "StateEstimation.Props.C93_share_sensors_ekf_vs", "StateEstimation.Props.C93_share_sensors_ukf_vs", "StateEstimation.Props.C93_share_all_kf_vs_partial", "StateEstimation.Props.C93_share_all_ekf_vs_partial", "StateEstimation.Props.C93_share_all_ukf_vs_partial"], "note": "Full for common measurement models (all six filter classes, every interleaving, any change to the private system models). With a common system model: full as long as the user does not change the models between calls; otherwise false (C93_refuted: predict(t) of one filter restores its old control covariance)."},
{"property": "C94", "status": "proved", "theorems": ["StateEstimation.Props.C94_kf", "StateEstimation.Props.C94_ekf", "StateEstimation.Props.C94_average"], "note": ""},
{"property": "C95", "status": "proved", "theorems": ["StateEstimation.Props.C95_kf", "StateEstimation.Props.C95_ekf"], "note": ""},
{"property": "C96", "status": "proved", "theorems": ["StateEstimation.Props.C96_ukf", "StateEstimation.Props.C96_ukfvs", "StateEstimation.Props.C96_setSigma", "StateEstimation.Props.C96_setActive", "StateEstimation.Props.C96_setActive_then_setSigma", "StateEstimation.Props.C96_sixD", "StateEstimation.Props.C96_leaky", "StateEstimation.Props.C96_ukfvs_needs_parameters"], "note": ""},
{"property": "C97", "status": "proved", "theorems": ["StateEstimation.Props.C97_kf", "StateEstimation.Props.C97_ekf", "StateEstimation.Props.C97_kfvs", "StateEstimation.Props.C97_ekfvs", "StateEstimation.Props.C97_sixd", "StateEstimation.Props.C97_imu", "StateEstimation.Props.C97_odom"], "note": ""},
{"property": "C98", "status": "proved", "theorems": ["StateEstimation.Props.C98_kf", "StateEstimation.Props.C98_ekf"], "note": ""},
{"property": "C99", "status": "proved", "theorems": ["StateEstimation.Props.C99_ukf_units", "StateEstimation.Props.C99_order_matters"], "note": ""},
{"property": "C100", "status": "partial", "theorems": ["StateEstimation.Props.C100_partial", "StateEstimation.Props.C100_refuted_poisons", "StateEstimation.Props.C100_refuted_never_recovers", "StateEstimation.Props.C100_refuted_control"], "note": "The full claim (a NaN is rejected or heals) is false of the code: C100_refuted_*. C100_partial proves what holds: NaN-free data keeps every state NaN-free, and times and covariances are unaffected by NaN data."},
{"property": "C101", "status": "proved", "theorems": ["StateEstimation.Props.C101_never_grows", "StateEstimation.Props.C101_covariance", "StateEstimation.Props.C101_state"], "note": ""},
{"property": "C102", "status": "proved", "theorems": ["StateEstimation.Props.C102_any_two", "StateEstimation.Props.C102_settles"], "note": ""},
{"property": "C103", "status": "partial", "theorems": ["StateEstimation.Props.C103_measured_partial", "StateEstimation.Props.C103_prediction_partial", "StateEstimation.Props.C103_refuted_symmetry", "StateEstimation.Props.C103_refuted_prediction", "StateEstimation.Props.C103_refuted_variance", "StateEstimation.Props.C103_refuted_hyps"], "note": "The full claim (symmetric, variances not negative) is false of the code in double precision: C103_refuted_*. Proved: the measured component behaves bit for bit as in a one-state filter (C90), and constant-velocity or random-walk predictions with control noise on one state keep exact symmetry."},
{"property": "C104", "status": "proved", "theorems": ["StateEstimation.Props.C104_orientation", "StateEstimation.Props.C104_velocity", "StateEstimation.Props.C104_position"], "note": ""},
{"property": "C105", "status": "partial", "theorems": ["StateEstimation.Props.C105_motion_partial", "StateEstimation.Props.C105_refuted_gravity", "StateEstimation.Props.C105_refuted_quarter_turn", "StateEstimation.Props.C105_refuted_velocity"], "note": "The full claim is false of the code: C105_refuted_*. C105_motion_partial states exactly what is predicted: exact without rotation; with rotation the velocity in the old frame and gravity turned twice too far."},
{"property": "C106", "status": "proved", "theorems": ["StateEstimation.Props.C106_kf", "StateEstimation.Props.C106_kf_vs", "StateEstimation.Props.C106_ekf", "StateEstimation.Props.C106_ekf_vs", "StateEstimation.Props.C106_ukf", "StateEstimation.Props.C106_ukf_vs", "StateEstimation.Props.C106_six_d"], "note": ""},
{"property": "C107", "status": "proved", "theorems": ["StateEstimation.Props.C107_late_best_explanation", "StateEstimation.Props.C107_late_best_linear"], "note": ""},
{"property": "C108", "status": "partial", "theorems": ["StateEstimation.Props.C108_kf_partial", "StateEstimation.Props.C108_ekf_partial", "StateEstimation.Props.C108_linear_partial", "StateEstimation.Props.C108_linear_in_order_partial", "StateEstimation.Props.C108_question_before_control", "StateEstimation.Props.C108_control_refuted", "StateEstimation.Props.C108_noise_refuted", "StateEstimation.Props.C108_six_d_refuted", "StateEstimation.Props.C108_six_d_steps"], "note": "Proved for questions before measurements and predictions with models whose predictions compose (without rewind mode; in order in every mode). The full claim is false of the code: questions before a new control (C108_control_refuted), models whose noise does not scale with time (C108_noise_refuted), and SixDRates (C108_six_d_refuted, C108_six_d_steps)."},
{"property": "C109", "status": "partial", "theorems": ["StateEstimation.Props.C109_at_rest_refuted", "StateEstimation.Props.C109_bounded_partial", "StateEstimation.Props.C109_correct_partial"], "note": "The full claim is false of the code (C109_at_rest_refuted: one prediction multiplies gravity by about 35 and blows up its variance). Proved: gravity stays below 37 x 9.8062 after every call sequence, and each correction rescales it."},
{"property": "C110", "status": "proved", "theorems": ["StateEstimation.Props.C110_overstated", "StateEstimation.Props.C110_understated", "StateEstimation.Props.C110_same_reading_twice"], "note": ""},
{"property": "C111", "status": "proved", "theorems": ["StateEstimation.Props.C111_books_decide", "StateEstimation.Props.C111_kf", "StateEstimation.Props.C111_kf_vs", "StateEstimation.Props.C111_ekf", "StateEstimation.Props.C111_ekf_vs", "StateEstimation.Props.C111_ukf", "StateEstimation.Props.C111_ukf_vs"], "note": ""},
{"property": "C112", "status": "proved", "theorems": ["StateEstimation.Props.C112_information", "StateEstimation.Props.C112_merge"], "note": ""},
{"property": "C113", "status": "partial", "theorems": ["StateEstimation.Props.C113_switching_in_order", "StateEstimation.Props.C113_gap_lost", "StateEstimation.Props.C113_switching_late_refuted"], "note": "In-order data: proved in full. Late data after switching off and on: the full claim is false of the code (C113_switching_late_refuted), and C113_gap_lost says exactly what is lost."},
{"property": "C114", "status": "proved", "theorems": ["StateEstimation.Props.C114_longer_window"], "note": ""},
{"property": "C115", "status": "proved", "theorems": ["StateEstimation.Props.C115_nothing_lost", "StateEstimation.Props.C115_as_longer_window", "StateEstimation.Props.C115_books_decide", "StateEstimation.Props.C115_kf", "StateEstimation.Props.C115_kf_vs", "StateEstimation.Props.C115_ekf", "StateEstimation.Props.C115_ekf_vs", "StateEstimation.Props.C115_ukf", "StateEstimation.Props.C115_ukf_vs"], "note": ""},
{"property": "C116", "status": "proved", "theorems": ["StateEstimation.Props.C116_kf", "StateEstimation.Props.C116_ekf", "StateEstimation.Props.C116_ukf", "StateEstimation.Props.C116_kf_vs", "StateEstimation.Props.C116_ekf_vs", "StateEstimation.Props.C116_ukf_vs"], "note": ""},
{"property": "C117", "status": "proved", "theorems": ["StateEstimation.Props.C117_kf", "StateEstimation.Props.C117_ekf", "StateEstimation.Props.C117_kf_vs", "StateEstimation.Props.C117_ekf_vs", "StateEstimation.Props.C117_ukf", "StateEstimation.Props.C117_ukf_vs"], "note": ""},
{"property": "C118", "status": "proved", "theorems": ["StateEstimation.Props.C118_system", "StateEstimation.Props.C118_system_checked", "StateEstimation.Props.C118_measurement", "StateEstimation.Props.C118_measurement_checked", "StateEstimation.Props.C118_kf_predict", "StateEstimation.Props.C118_kf_correct"], "note": ""},
{"property": "C119", "status": "proved", "theorems": ["StateEstimation.Props.C119_continuous"], "note": ""},
{"property": "C120", "status": "proved", "theorems": ["StateEstimation.Props.C120_kf", "StateEstimation.Props.C120_ekf", "StateEstimation.Props.C120_kf_vs", "StateEstimation.Props.C120_ekf_vs"], "note": ""},
{"property": "C121", "status": "partial", "theorems": ["StateEstimation.Props.C121_output_only", "StateEstimation.Props.C121_otherwise_silent", "StateEstimation.Props.C121_message_iff_refused_partial", "StateEstimation.Props.C121_refuted_without_rewind", "StateEstimation.Props.C121_refuted_queue"], "note": "Proved: with rewinding on, a direct call writes exactly one message (right kind, right time) iff the input is older than everything remembered, and then changes nothing; otherwise it is applied; nothing else ever writes. Full claim false: inputs dropped from the queues, and late inputs with rewinding off, leave no message (refuted on concrete runs)."},
{"property": "C122", "status": "proved", "theorems": ["StateEstimation.Props.C122_kf", "StateEstimation.Props.C122_ekf", "StateEstimation.Props.C122_kf_vs", "StateEstimation.Props.C122_ekf_vs", "StateEstimation.Props.C122_kf_sharp", "StateEstimation.Props.C122_ekf_sharp"], "note": ""},
{"property": "C123", "status": "proved", "theorems": ["StateEstimation.Props.C123_total_error", "StateEstimation.Props.C123_errors_fade", "StateEstimation.Props.C123_exact_data", "StateEstimation.Props.C123_bounded_errors"], "note": ""},
{"property": "C124", "status": "proved", "theorems": ["StateEstimation.Props.C124_kfvs", "StateEstimation.Props.C124_ekfvs", "StateEstimation.Props.C124_ukfvs"], "note": ""},
{"property": "C125", "status": "proved", "theorems": ["StateEstimation.Props.C125_fewer", "StateEstimation.Props.C125_in_order", "StateEstimation.Props.C125_late", "StateEstimation.Props.C125_noise_per_call", "StateEstimation.Props.C125_ekf_needs_linear"], "note": ""},
{"property": "C126", "status": "proved", "theorems": ["StateEstimation.Props.C126_body_axes", "StateEstimation.Props.C126_setup", "StateEstimation.Props.C126_move", "StateEstimation.Props.C126_process_noise", "StateEstimation.Props.C126_isotropic"], "note": ""},
{"property": "C127", "status": "proved", "theorems": ["StateEstimation.Props.C127_innovations_are_white", "StateEstimation.Props.C127_normalised_squares"], "note": ""},
{"property": "C128", "status": "proved", "theorems": ["StateEstimation.Props.C128_misfit_is_sum_of_innovations"], "note": ""},
{"property": "C129", "status": "proved", "theorems": ["StateEstimation.Props.C129_planar_add", "StateEstimation.Props.C129_difference", "StateEstimation.Props.C129_planar_sub", "StateEstimation.Props.C129_opposite", "StateEstimation.Props.C129_planar_wsum", "StateEstimation.Props.C129_planar_class", "StateEstimation.Props.C129_planar_averages", "StateEstimation.Props.C129_ekf", "StateEstimation.Props.C129_ukf"], "note": ""},
{"property": "C130", "status": "proved", "theorems": ["StateEstimation.Props.C130_predict_mean", "StateEstimation.Props.C130_predict_covariance", "StateEstimation.Props.C130_correct_mean", "StateEstimation.Props.C130_correct_exact", "StateEstimation.Props.C130_honest", "StateEstimation.Props.C130_beside_ekf"], "note": ""},
{"property": "C131", "status": "proved", "theorems": ["StateEstimation.Props.C131_ekf_follows", "StateEstimation.Props.C131_ekf_converges"], "note": ""},
{"property": "C132", "status": "proved", "theorems": ["StateEstimation.Props.C132_bounded", "StateEstimation.Props.C132_needed", "StateEstimation.Props.C132_settles", "StateEstimation.Props.C132_follows"], "note": ""},
{"property": "C133", "status": "proved", "theorems": ["StateEstimation.Props.C133_bounded_errors"], "note": ""},
{"property": "C134", "status": "proved", "theorems": ["StateEstimation.Props.C134_ekf_predict", "StateEstimation.Props.C134_ukf_predict", "StateEstimation.Props.C134_ukf_third_order", "StateEstimation.Props.C134_attained"], "note": ""},
{"property": "C135", "status": "proved", "theorems": ["StateEstimation.Props.C135_ekf_correct", "StateEstimation.Props.C135_ukf_correct"], "note": ""},
{"property": "C136", "status": "proved", "theorems": ["StateEstimation.Props.C136_kf", "StateEstimation.Props.C136_ekf", "StateEstimation.Props.C136_ukf"], "note": ""},
{"property": "C137", "status": "proved", "theorems": ["StateEstimation.Props.C137_gauss_newton"], "note": ""},
{"property": "C138", "status": "proved", "theorems": ["StateEstimation.Props.C138_kf", "StateEstimation.Props.C138_ekf"], "note": ""},
{"property": "C139", "status": "proved", "theorems": ["StateEstimation.Props.C139_ukf_agrees_with_ekf"], "note": ""},
{"property": "C140", "status": "partial", "theorems": ["StateEstimation.Props.C140_affine_partial", "StateEstimation.Props.C140_order_refuted"], "note": ""},
{"property": "C141", "status": "proved", "theorems": ["StateEstimation.Props.C141_ekf", "StateEstimation.Props.C141_ukf", "StateEstimation.Props.C141_sixD_ekf", "StateEstimation.Props.C141_sixD_ukf"], "note": ""},
{"property": "C142", "status": "proved", "theorems": ["StateEstimation.Props.C142_kf", "StateEstimation.Props.C142_ekf", "StateEstimation.Props.C142_ukf"], "note": ""},
{"property": "C143", "status": "proved", "theorems": ["StateEstimation.Props.C143_ukf_corrects_as_ekf"], "note": ""},
{"property": "C144", "status": "proved", "theorems": ["StateEstimation.Props.C144_biases_stay", "StateEstimation.Props.C144_odometers"], "note": ""},
{"property": "C145", "status": "proved", "theorems": ["StateEstimation.Props.C145_resume_rewind", "StateEstimation.Props.C145_in_order_can_be_placed", "StateEstimation.Props.C145_resume_plain", "StateEstimation.Props.C145_kf", "StateEstimation.Props.C145_kf_vs", "StateEstimation.Props.C145_ekf", "StateEstimation.Props.C145_ekf_vs", "StateEstimation.Props.C145_ukf", "StateEstimation.Props.C145_ukf_vs"], "note": ""},
{"property": "C146", "status": "proved", "theorems": ["StateEstimation.Props.C146_kf", "StateEstimation.Props.C146_ekf"], "note": "The UKF is left out: its Cholesky factorisation needs a positive definite covariance, which L C L' = 0 excludes."},
{"property": "C147", "status": "proved", "theorems": ["StateEstimation.Props.C147_kf", "StateEstimation.Props.C147_ekf"], "note": ""},
{"property": "C148", "status": "proved", "theorems": ["StateEstimation.Props.C148_ukf", "StateEstimation.Props.C148_ekf", "StateEstimation.Props.C148_ukf_correct"], "note": ""},
{"property": "C149", "status": "proved", "theorems": ["StateEstimation.Props.C149_predict"], "note": ""},
{"property": "C150", "status": "proved", "theorems": ["StateEstimation.Props.C150_predict"], "note": ""},
{"property": "C151", "status": "proved", "theorems": ["StateEstimation.Props.C151_even", "StateEstimation.Props.C151_ekf_even", "StateEstimation.Props.C151_odd"], "note": ""},
{"property": "C152", "status": "partial", "theorems": ["StateEstimation.Props.C152_predict_partial", "StateEstimation.Props.C152_defaults_refuted"], "note": "Proved: the EKF always, and the UKF for all parameters with alpha^2 (n + kappa) >= n. Refuted for the UKF's default parameters by C152_defaults_refuted; the full claim is false of the code."},
{"property": "C153", "status": "proved", "theorems": ["StateEstimation.Props.C153_kf_mirror", "StateEstimation.Props.C153_ekf_mirror", "StateEstimation.Props.C153_kf_symmetric", "StateEstimation.Props.C153_ekf_symmetric"], "note": ""},
{"property": "C154", "status": "proved", "theorems": ["StateEstimation.Props.C154_ukf", "StateEstimation.Props.C154_ekf"], "note": ""},
{"property": "C155", "status": "partial", "theorems": ["StateEstimation.Props.C155_predict_partial", "StateEstimation.Props.C155_correct", "StateEstimation.Props.C155_refuted"], "note": "Proved: every correction, and every prediction of a model whose noise Jacobians do not depend on the state. Refuted for noise that depends on the state by C155_refuted; the full claim is false of the code."}
]}
