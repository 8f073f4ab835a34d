# Axioms of the theorems in MANIFEST.json

As printed by `#print axioms`. No theorem depends on anything but `propext`, `Classical.choice` and `Quot.sound`.

## none (4 theorems)

C44_unclaimed, C128_same_order, C148_truncation, C157_keys_apart

## propext (23 theorems)

C17_brax_step_spec, C17_brax_reset_spec, C19_rejected_step_changes_nothing, C20_failed_reset_partial, C44_empty_rejected, C61_mask, C67_violated, C67_shape_check_partial, C114_other_class, C114_derived_class, C115_trajectory, C115_metadata, C115_zeros, C129_nonzero_partial, C129_zero_violated, C129_unseeded_partial, C129_global, C183_reset_metrics_partial, C183_step_metrics_exact, C184_resets_exact, C184_stream_partial, C184_first_skipped, C186_ends

## propext, Quot.sound (59 theorems)

C04_scenario_immutable, C05_time_advances, C09_violated, C11_validity_is_ignored, C11_violated, C11_uncontrolled_actions_unused_partial, C12_violated, C14_rollout_spec, C14_rollout_succeeds, C16_violated, C19_step_values, C20_violated, C44_last_claimant, C44_order_irrelevant, C56_process_share, C61_default_position, C61_read, C61_write_back, C61_read_back, C61_disjoint_commute, C61_clamped, C68_update, C68_objects_independent, C86_one_dimension_partial, C105_is_done, C106_never, C114_metric_result, C114_violated, C115_accepts_iff, C115_flat, C115_pose, C129_global_violated, C140_step, C140_expert, C148_step, C148_expert, C151_step, C151_steps, C151_ignored, C152_step_partial, C152_steps_closed, C152_entering_step_partial, C152_violated, C152_state_expert_leaks, C157_fresh_keys, C157_rollout_key_free, C178_created, C178_accepts, C178_rows, C184_independent, C184_violated, C185_step, C185_expert, C185_marks_violated, C185_marks_exact, C186_step, C186_expert, C187_step, C187_expert

## propext, Classical.choice, Quot.sound (872 theorems)

C01_reset_spec, C01_reset_forgets_simulation, C01_reset_idempotent, C01_reset_restarts_episode, C02_reset_ok_iff, C02_reset_error, C03_step_writes_only_next, C03_history_immutable, C05_episode_clock, C05_done_iff_truncated, C06_step_moves, C07_validity_without_injection, C07_nothing_appears, C08_step_validity_with_injection, C08_uncontrolled_presence_is_logged, C09_appears_at_logged_pose_partial, C10_control_mask_constant, C10_control_mask_from_scenario, C11_fallback_partial, C12_z_and_size_frozen, C12_full_replay_partial, C13_expert_rollout_reproduces_log, C15_rollout_prefix, C16_step_past_end_partial, C17_brax_episode, C18_brax_reset_done_partial, C18_violated, C19_protocol, C21_wrap_range, C21_wrap_unique, C21_wrap_id, C21_wrap_idempotent, C21_wrap_periodic, C21_wrap_abs_le, C21_wrap_same_heading, C22_local_coordinates, C22_distances, C22_ego, C22_headings, C22_directions, C22_direction_norm, C22_rotate_points, C22_trajectories, C22_inverse, C23_combine_is_relative_pose, C23_combine_changes_frame, C23_combine_composes, C24_corners, C24_centre, C24_side_lengths, C24_signed_area, C24_front, C25_overlap_exact, C25_rectangle_is_hull, C26_symmetric, C26_frame_independent, C26_turns, C26_pairwise, C27_overlap_metric, C28_round_trip, C28_recovers, C28_invalid, C28_bounds, C28_inSpec_partial, C28_inSpec_violated, C29_round_trip_partial, C29_short_round_trip_partial, C29_recovers_partial, C29_violated, C29_bounds, C30_limits, C30_straight, C31_recovers, C31_low_speed, C31_in_spec, C31_invalid, C32_metric_iff, C32_bicycle_feasible, C32_default_feasible, C32_default_metric, C33_index_range, C33_value_range, C33_index_round_trip, C33_injective, C33_value_round_trip, C33_rounding_margin, C34_executes_in_bounds, C34_out_of_range, C34_inverse_in_spec, C34_bicycle_in_spec, C34_delta_in_spec, C34_delta_step_error, C35_search_optimal_partial, C35_non_sdc, C35_violated, C36_log_divergence, C36_uncontrolled_never_diverge, C37_wrong_way, C37_no_paths, C38_off_route, C38_no_paths, C39_progression_exact, C39_start_and_end, C39_violated, C39_nonnegative_partial, C40_offroad_partial, C40_no_edges, C40_violated, C41_linear_reward, C41_total, C41_action_independent, C41_linear_in_weights, C41_env_reward, C41_non_sdc_fails, C42_register, C42_run_metrics, C42_run_metrics_fails_iff, C42_history, C42_history_names, C42_reward_survives, C42_reward_init, C43_select_by_onehot, C43_select_general, C45_who_moves, C45_rest_of_step, C45_overlapping_follow_log, C45_fails_iff, C45_never_fails, C45_reset, C46_step, C46_episode, C47_episode, C47_speed_nonneg, C47_accel_bounded, C47_free_flow, C47_never_exceeds, C48_leader, C48_default, C48_fails_iff, C49_policy, C49_straight_line, C50_window, C50_newest_is_current, C50_no_future, C51_exact, C51_violated, C51_sdc_partial, C52_transform_partial, C52_paths_untouched, C52_violated, C53_nearest, C53_no_closer, C53_sizes, C54_violated, C54_small_ids_partial, C54_unfiltered, C55_names_partial, C55_violated, C55_second_at_rejected, C55_single_file, C56_all_files_once, C56_one_reader, C56_all_examples, C57_same_examples_partial, C57_drop_exact, C57_violated, C58_exact, C58_small_ids_partial, C58_violated, C59_exact, C59_lights_exact, C59_marked_partial, C59_violated, C60_masked_mean, C60_constant_row, C60_between, C61_update_window, C61_update_whole, C61_rejects_iff, C62_per_object, C62_per_object_partial, C62_violated, C62_scenario_metric_exact, C63_accepts_iff, C63_no_agents_partial, C63_violated, C64_expert_delta_global, C64_expert_delta_local, C65_violated, C65_no_reverse_partial, C66_only_controlled_partial, C66_violated, C68_executes_command, C68_inverse_round_trip, C69_violated, C69_late_objects_partial, C70_planner_moves_sdc_partial, C70_violated, C71_planning_metrics, C71_builtin_single_agent, C71_violated, C72_planning_reward, C72_matches_metrics_partial, C72_violated, C73_forward_exact_partial, C73_violated, C73_ignores_new_objects_violated, C74_inverse_is_sdc_action, C74_log_replay, C75_end_of_route_partial, C75_violated, C76_follows_route, C77_monotone, C77_no_speed_up_when_close, C78_answer, C78_frozen, C79_gentle_braking_partial, C79_violated, C80_object_frame, C80_sdc_frame, C80_observer_at_origin, C80_rigid, C81_exact_unbatched, C81_exact_batched, C81_violated, C81_violated_batched, C81_scalar_leaf_partial, C82_sdc_row, C83_last_axis_partial, C83_default_axis_exact, C83_violated, C83_default_axis_raises, C84_select, C84_select_none, C84_mismatch, C85_violated, C85_square_exact, C85_unbatched_partial, C86_violated, C87_drop_remainder, C88_global_step, C88_global_path, C88_local_step, C89_accepts_iff, C89_window, C89_lights, C89_motion, C89_light_times, C89_roadgraph, C89_short_history, C90_log, C90_sizes, C90_start, C90_lights, C90_rest, C91_exact, C91_negative, C91_no_future_partial, C91_violated, C92_state_features, C92_light_features, C92_removed, C92_others, C92_nothing_else, C92_which_time, C92_succeeds, C93_headings, C93_limit, C93_negative, C93_violated, C93_keeps_partial, C93_which_time_cut, C94_answer, C94_entering, C94_no_entering_partial, C94_violated, C95_create, C95_who_moves, C95_builtin_agents, C96_accepted_iff, C96_metrics_partial, C96_violated, C97_outline, C97_all_boxes, C98_picture, C98_once, C98_last_step, C98_past_end, C99_red_is_overlap, C100_road, C100_road_once, C100_lights_accepted, C100_lights, C100_state_picture, C100_observation_picture, C101_chosen_center, C101_violated, C101_default_center_partial, C101_rejected, C102_no_step, C102_violated, C102_given_step_partial, C103_paths, C103_texts, C103_violated, C103_single_partial, C104_ego_view, C105_state, C105_deltaGlobal, C105_deltaLocal, C105_bicycle, C105_reset, C105_step, C105_steps, C105_episode, C105_flags, C106_current, C106_step_error, C106_violated, C106_shared_step_partial, C106_log_replay, C107_batch_rejected, C107_violated, C107_unbatched_partial, C108_log_divergence, C108_offroad, C108_overlap, C108_kinematic, C108_wrong_way, C108_off_route, C108_progression, C109_kinematic_rejects, C109_violated, C109_shared_step_partial, C110_dynamics_spec, C110_negative_limits, C110_discrete_spec, C110_base_spec, C110_action, C110_valid_spec, C110_planning_action, C110_squeezed, C110_state_no_spec, C110_state_never, C110_violated, C110_step_partial, C111_bicycle_step, C111_bicycle, C111_bicycle_applied, C111_violated, C111_delta_global_partial, C111_delta_local_partial, C112_reward, C112_builtin, C112_planning, C112_dtype, C112_dtype_violated, C112_dtype_partial, C113_step_type, C113_discount_spec, C113_shape_violated, C113_shape_partial, C113_mixed_rejected, C114_equal_partial, C114_missing_part, C114_planning_partial, C114_observation, C114_copy, C114_state, C115_step_rejected, C115_violated, C115_partial, C115_paths, C116_examples, C116_refines, C116_needs, C116_time_key, C117_paths, C117_none, C118_generator, C118_everything, C118_accepts, C118_runs, C118_needs_aggregation, C119_by_object, C119_violated, C119_by_scenario_partial, C120_state_inverse, C120_deltaGlobal_inverse, C120_deltaLocal_inverse, C120_bicycle_inverse, C120_expert_action, C120_expert_actor, C120_expert_rollout, C120_expert_succeeds, C120_log_replay, C120_rollout, C121_step, C121_reset, C121_steps, C121_episode, C121_metrics, C121_reward, C121_inverse, C121_sim_agent, C121_frozen, C122_rollout, C122_expert_actor, C122_expert_rollout, C122_sdc_follows_log, C122_log_replay, C122_expert_succeeds, C123_observation, C123_sdc, C123_succeeds, C123_window, C123_observer_at_origin, C123_isolated, C123_sdc_row, C124_shuffle, C124_finite, C124_lag, C124_any_order, C124_buffer_one, C125_unshuffled_partial, C125_shuffled_partial, C125_violated, C126_finite, C126_fair_partial, C126_starved, C126_violated, C127_enough_slots_partial, C127_one_file_partial, C127_violated, C128_one_reader, C128_all_records, C130_replay, C130_sizes_must_agree, C131_idm, C131_idm_fails_iff, C131_idm_agent_fails, C131_waypoint, C131_constant_speed, C131_constant_speed_actor, C132_range, C132_same_angle, C132_idempotent, C132_keeps_iff, C132_float32_numbers, C132_float32_range, C132_float32_idempotent, C132_keeps_yaws_in_range_violated, C132_float32_in_range_partial, C132_float64_reaches_pi, C133_no_drift, C133_exact, C133_displacement_exact, C133_velocity, C133_validity, C133_defaults, C134_round_trip, C134_length, C134_nearest, C134_value_bounds_partial, C134_value_bounds_violated, C134_middle_violated, C135_symmetric, C135_pairwise, C135_no_false_alarm, C135_no_miss, C135_metric, C135_metric_accuracy, C136_episode, C136_limits, C136_inverse_defined, C136_expert_in_spec, C136_rest_step, C136_parked_violated, C136_parked_partial, C136_expert_accurate, C137_bicycle_feasible, C137_episode, C137_detects_jump, C137_default, C137_detects_turn, C138_step, C138_drift, C138_two_machines, C138_numbers, C139_state_accepts, C139_state_reads, C139_deltaGlobal_accepts, C139_deltaLocal_accepts, C139_deltaLocal_reads, C139_bicycle_accepts, C139_bicycle_reads, C139_violated, C139_longer_rows_violated, C139_partial, C140_reset, C140_episode, C140_builtin, C140_metrics, C140_run_metrics, C140_reward, C140_expert_actor, C140_rollout, C140_idm, C141_agents, C141_reset, C141_step_partial, C141_episode_partial, C141_metrics, C141_reward, C141_violated, C142_state, C142_deltaGlobal, C142_deltaLocal, C142_bicycle, C142_reset, C142_step_partial, C142_episode_partial, C142_state_step, C142_state_episode, C142_violated, C143_log_divergence, C143_overlap, C143_kinematics, C143_wrong_way, C143_off_route, C143_progression, C143_offroad, C144_state, C144_bicycle, C144_bicycle_actions, C144_displacement_partial, C144_local_partial, C144_violated, C145_object, C145_sdc_frame, C145_sdc_observation, C146_idm_speed, C146_following, C146_idm, C146_constant_speed, C146_frozen, C146_claims, C147_agents, C147_reset, C147_step_partial, C147_episode_partial, C147_violated, C148_reset, C148_episode, C148_observation, C148_metrics, C148_progression, C148_run_metrics, C148_env_metrics, C148_reward, C148_rollout, C148_plan_reset, C148_plan_step, C148_plan_episode, C148_frozen, C148_progression_knows_the_end, C149_offroad, C149_wrong_way, C149_off_route, C149_progression, C149_metrics, C149_env_metrics, C149_reward, C149_reset, C149_step, C149_episode, C149_rollout, C149_expert, C149_agents, C149_plan_reset, C149_plan_step, C149_plan_episode, C149_plan_metrics, C150_nearest_partial, C150_observation_partial, C150_sdc_observation_partial, C150_violated, C150_all_points, C151_builtin, C151_reset, C151_episode, C151_ignored_episode, C151_metrics, C152_reset, C152_episode_partial, C152_entering_episode_partial, C152_log_divergence, C152_overlap, C152_kinematics, C152_wrong_way_partial, C152_off_route, C152_progression_partial, C152_offroad_partial, C152_expert, C152_expert_local, C152_expert_state, C152_rollout_partial, C152_expert_actor, C152_observation_partial, C152_sdc_observation_partial, C153_log_divergence, C153_zero_at_log, C153_zero_only_at_log_partial, C153_uncontrolled, C153_state_replay, C153_delta_replay, C153_wrong_way, C153_off_route, C153_zero_only_at_log_violated, C153_threshold_violated, C154_accuracy, C154_numbers, C154_sign, C154_exact, C154_single, C154_order_partial, C154_order_violated, C155_state_partial, C155_beyond_jax, C155_beyond_numpy, C155_single, C155_rejected, C155_brax_partial, C155_observation_partial, C155_observer, C155_observed_picture_partial, C155_violated, C156_objects, C156_roads, C156_lights, C156_distances, C156_observer_partial, C156_transform_trajectories_partial, C156_observer_rounded, C156_observer_violated, C156_transform_trajectories_violated, C156_numbers, C156_velocity_numbers, C156_nearest, C156_nearest_possible, C156_nearest_labels, C157_planning_key_free, C157_builtin_actors, C157_agents_partial, C157_rollouts_do_not_vary_partial, C157_agents_violated, C158_no_overlap, C158_builtin, C158_episode, C158_log_divergence, C158_overlap, C158_wrong_way_exact, C158_off_route_exact, C158_route_partial, C158_planning_metric_exact, C158_planning_reward_exact, C158_planning_partial, C158_route_violated, C158_planning_violated, C159_log_divergence_partial, C159_wrong_way_partial, C159_off_route_exact, C159_overlap_exact, C159_violated, C159_overlap_violated, C160_log_divergence, C160_wrong_way, C160_off_route, C160_overlap, C160_displacement, C160_reward, C160_overlap_metric, C160_log_divergence_accurate, C160_limit, C161_others, C161_sdc_state, C161_sdc_delta_global, C161_sdc_delta_local, C161_replay, C161_log_divergence, C161_full_violated, C161_wrapped_succeeds, C161_object_actions_rejected, C161_plain_expert_fails, C162_looks_along_log_partial, C162_ignores_others_partial, C162_default_ignores_route, C162_full_violated, C162_behind_violated, C163_velocity_partial, C163_ignores_position, C163_full_violated, C164_no_overflow, C164_infinite_acceleration, C164_infinite_steering, C164_no_nan_partial, C164_nan_acceleration, C164_nan_steering, C164_full_violated, C164_never_recovers, C164_rated_feasible, C165_off, C165_on, C165_agrees_partial, C165_full_violated, C166_nan_object, C166_others, C166_nan_road, C166_no_overflow, C166_infinite, C166_full_violated, C166_infinite_order, C167_progression, C167_start_and_end, C167_agrees_partial, C167_progress_violated, C168_broken_position, C168_broken_path, C168_broken_log, C168_broken_arclength, C168_sees_only_sdc_partial, C168_padding, C168_no_overflow, C168_sees_only_sdc_violated, C169_state, C169_deltaGlobal, C169_deltaLocal, C169_bicycle, C169_reset, C169_step_partial, C169_episode_partial, C169_state_step, C169_state_episode, C169_violated, C170_log_divergence, C170_overlap, C170_kinematics, C170_wrong_way, C170_off_route, C170_progression, C170_offroad, C170_edge_not_reversed, C171_state, C171_bicycle_partial, C171_displacement_partial, C171_local_partial, C171_violated, C172_idm_speed, C172_following, C172_idm, C172_constant_speed, C172_frozen, C172_claims, C173_object, C173_sdc_frame, C173_sdc_observation, C174_agents, C174_reset, C174_step_partial, C174_episode_partial, C174_violated, C175_exact, C175_batched_partial, C175_sample, C175_names, C175_violated, C175_planning_exact, C175_planning_partial, C176_reset, C176_resume, C176_metrics, C176_rewards, C176_expert, C177_overlap, C177_pair, C177_offroad_partial, C177_offroad_violated, C178_same_axes_partial, C178_exact, C178_violated, C178_metrics, C179_reset, C179_steps, C179_episode, C179_metrics, C179_kinematic, C179_progression_partial, C179_progression_violated, C180_pose_partial, C180_hidden_exact, C180_own_exact, C180_violated, C181_bounded, C182_metrics, C182_kinematic_partial, C182_env_metrics, C182_first_step_exact, C182_after_reset, C182_single_step, C182_violated, C183_brax, C183_dm, C183_dm_base, C183_violated, C185_reset, C185_episode, C185_dynamics, C185_metrics, C185_env_metrics, C185_reward, C185_rollout, C185_agents, C185_plan_reset, C185_plan_step, C185_plan_episode, C185_plan_metrics, C185_plan_reward, C185_observation, C186_reset, C186_episode, C186_dynamics, C186_metrics, C186_env_metrics, C186_reward, C186_rollout, C186_agents, C186_plan_reset, C186_plan_step, C186_plan_episode, C186_plan_metrics, C186_plan_reward, C186_observation, C187_reset, C187_episode, C187_object_metrics, C187_sdc_metrics, C187_overlap, C187_idm_partial, C187_violated, C188_warmup_partial, C188_future_partial, C188_replay, C188_violated, C188_presence_violated, C189_discrete_expert_global, C189_discrete_expert_local, C189_log_divergence_global, C189_log_divergence_local, C190_labels_replay_log, C190_drift_partial, C190_drift_attained, C190_violated, C191_step_partial, C191_idm_step_partial, C191_same_route, C191_parked_car, C191_violated, C192_no_collision, C192_end_of_route, C193_following, C193_waits, C193_stalled_leader
