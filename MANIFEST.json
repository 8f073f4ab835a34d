{
 "claims": [
  {
   "property": "C01",
   "status": "proved",
   "theorems": [
    "Waymax.C01_reset_spec",
    "Waymax.C01_reset_forgets_simulation",
    "Waymax.C01_reset_idempotent",
    "Waymax.C01_reset_restarts_episode"
   ],
   "note": "Exact reset state for every scenario; reset ignores the simulated part of its input, is idempotent and restarts any run."
  },
  {
   "property": "C02",
   "status": "proved",
   "theorems": [
    "Waymax.C02_reset_ok_iff",
    "Waymax.C02_reset_error"
   ],
   "note": "Iff characterisation of success and the exact exception otherwise."
  },
  {
   "property": "C03",
   "status": "proved",
   "theorems": [
    "Waymax.C03_step_writes_only_next",
    "Waymax.C03_history_immutable"
   ],
   "note": "One step writes only entry timestep+1; lifted to whole episodes by induction."
  },
  {
   "property": "C04",
   "status": "proved",
   "theorems": [
    "Waymax.C04_scenario_immutable"
   ],
   "note": "Whole episodes of any length."
  },
  {
   "property": "C05",
   "status": "proved",
   "theorems": [
    "Waymax.C05_time_advances",
    "Waymax.C05_episode_clock",
    "Waymax.C05_done_iff_truncated"
   ],
   "note": "Clock of any run, done iff the horizon is reached, truncation = is_done, never terminated."
  },
  {
   "property": "C06",
   "status": "proved",
   "theorems": [
    "Waymax.C06_step_moves"
   ],
   "note": "For every dynamics model: controlled objects get the dynamics update, others the logged pose."
  },
  {
   "property": "C07",
   "status": "proved",
   "theorems": [
    "Waymax.C07_validity_without_injection",
    "Waymax.C07_nothing_appears"
   ],
   "note": "Validity recurrence without injection and its closed form over an episode."
  },
  {
   "property": "C08",
   "status": "proved",
   "theorems": [
    "Waymax.C08_step_validity_with_injection",
    "Waymax.C08_uncontrolled_presence_is_logged"
   ],
   "note": "Validity recurrence with injection; presence of uncontrolled objects equals the log."
  },
  {
   "property": "C09",
   "status": "partial",
   "theorems": [
    "Waymax.C09_appears_at_logged_pose_partial",
    "Waymax.C09_violated"
   ],
   "note": "The code violates the property for controlled objects: negation proved with a concrete witness (C09_violated); the part that holds (uncontrolled objects) is C09_appears_at_logged_pose_partial."
  },
  {
   "property": "C10",
   "status": "proved",
   "theorems": [
    "Waymax.C10_control_mask_constant",
    "Waymax.C10_control_mask_from_scenario"
   ],
   "note": "Control mask over a whole episode is determined by scenario and config."
  },
  {
   "property": "C11",
   "status": "partial",
   "theorems": [
    "Waymax.C11_validity_is_ignored",
    "Waymax.C11_violated",
    "Waymax.C11_fallback_partial",
    "Waymax.C11_uncontrolled_actions_unused_partial"
   ],
   "note": "The code ignores action validity (C11_validity_is_ignored), so the documented fallback fails (C11_violated); what holds: fallback for objects that are not controlled."
  },
  {
   "property": "C12",
   "status": "partial",
   "theorems": [
    "Waymax.C12_z_and_size_frozen",
    "Waymax.C12_violated",
    "Waymax.C12_full_replay_partial"
   ],
   "note": "Violated by the code: z and size are frozen at the last value (C12_z_and_size_frozen, C12_violated); the remaining fields do replay the log, and full replay holds when z and size are constant in the log."
  },
  {
   "property": "C13",
   "status": "proved",
   "theorems": [
    "Waymax.C13_expert_rollout_reproduces_log"
   ],
   "note": "Any controlled set, metrics, rewards and random keys; x, y, yaw, velocity and time stamp."
  },
  {
   "property": "C14",
   "status": "proved",
   "theorems": [
    "Waymax.C14_rollout_spec",
    "Waymax.C14_rollout_succeeds"
   ],
   "note": "Any environment, actor, key splitting and length; also totality."
  },
  {
   "property": "C15",
   "status": "proved",
   "theorems": [
    "Waymax.C15_rollout_prefix"
   ],
   "note": "Any environment and actor."
  },
  {
   "property": "C16",
   "status": "partial",
   "theorems": [
    "Waymax.C16_step_past_end_partial",
    "Waymax.C16_violated"
   ],
   "note": "Violated by the code: stepping past the end overwrites the last step (C16_violated, exact behaviour in C16_step_past_end_partial)."
  },
  {
   "property": "C17",
   "status": "proved",
   "theorems": [
    "Waymax.C17_brax_step_spec",
    "Waymax.C17_brax_reset_spec",
    "Waymax.C17_brax_episode"
   ],
   "note": "Any wrapped environment for single steps; episodes of the base environment for the done flag."
  },
  {
   "property": "C18",
   "status": "partial",
   "theorems": [
    "Waymax.C18_brax_reset_done_partial",
    "Waymax.C18_violated"
   ],
   "note": "Violated by the code when init_steps equals the log length (C18_violated); exact behaviour in C18_brax_reset_done_partial."
  },
  {
   "property": "C19",
   "status": "proved",
   "theorems": [
    "Waymax.C19_rejected_step_changes_nothing",
    "Waymax.C19_step_values",
    "Waymax.C19_protocol"
   ],
   "note": "Refinement of the protocol automaton in Spec/Protocol.lean for every call sequence and scenario stream."
  },
  {
   "property": "C20",
   "status": "partial",
   "theorems": [
    "Waymax.C20_failed_reset_partial",
    "Waymax.C20_violated"
   ],
   "note": "Violated by the code (C20_violated); exact behaviour of a failed reset in C20_failed_reset_partial."
  },
  {
   "property": "C21",
   "status": "proved",
   "theorems": [
    "Waymax.C21_wrap_range",
    "Waymax.C21_wrap_unique",
    "Waymax.C21_wrap_id",
    "Waymax.C21_wrap_idempotent",
    "Waymax.C21_wrap_periodic",
    "Waymax.C21_wrap_abs_le",
    "Waymax.C21_wrap_same_heading"
   ],
   "note": "Real arithmetic; every real angle."
  },
  {
   "property": "C22",
   "status": "proved",
   "theorems": [
    "Waymax.C22_local_coordinates",
    "Waymax.C22_distances",
    "Waymax.C22_ego",
    "Waymax.C22_headings",
    "Waymax.C22_directions",
    "Waymax.C22_direction_norm",
    "Waymax.C22_rotate_points",
    "Waymax.C22_trajectories",
    "Waymax.C22_inverse"
   ],
   "note": "Real arithmetic; coordinates, distances, headings, directions and inverse of the pose matrix."
  },
  {
   "property": "C23",
   "status": "proved",
   "theorems": [
    "Waymax.C23_combine_is_relative_pose",
    "Waymax.C23_combine_changes_frame",
    "Waymax.C23_combine_composes"
   ],
   "note": "Real arithmetic; relative pose, change of frame and composition."
  },
  {
   "property": "C24",
   "status": "proved",
   "theorems": [
    "Waymax.C24_corners",
    "Waymax.C24_centre",
    "Waymax.C24_side_lengths",
    "Waymax.C24_signed_area",
    "Waymax.C24_front"
   ],
   "note": "Real arithmetic; vertices, centre, side lengths, signed area and front side."
  },
  {
   "property": "C25",
   "status": "proved",
   "theorems": [
    "Waymax.C25_overlap_exact",
    "Waymax.C25_rectangle_is_hull"
   ],
   "note": "Real arithmetic; iff with a common interior point of the rectangles, by the separating axis theorem. Any sizes, also zero or negative."
  },
  {
   "property": "C26",
   "status": "proved",
   "theorems": [
    "Waymax.C26_symmetric",
    "Waymax.C26_frame_independent",
    "Waymax.C26_turns",
    "Waymax.C26_pairwise"
   ],
   "note": "Real arithmetic; symmetry, invariance under rigid motions and half/full turns, pairwise matrix."
  },
  {
   "property": "C27",
   "status": "proved",
   "theorems": [
    "Waymax.C27_overlap_metric"
   ],
   "note": "Real arithmetic; iff with a common interior point, any number of objects."
  },
  {
   "property": "C28",
   "status": "partial",
   "theorems": [
    "Waymax.C28_round_trip",
    "Waymax.C28_recovers",
    "Waymax.C28_invalid",
    "Waymax.C28_bounds",
    "Waymax.C28_inSpec_partial",
    "Waymax.C28_inSpec_violated"
   ],
   "note": "Real arithmetic. Round trip, recovery, x/y bounds and invalid case proved. The action spec also bounds the heading change, which the code does not enforce: C28_inSpec_violated, with the part that holds in C28_inSpec_partial."
  },
  {
   "property": "C29",
   "status": "partial",
   "theorems": [
    "Waymax.C29_round_trip_partial",
    "Waymax.C29_short_round_trip_partial",
    "Waymax.C29_recovers_partial",
    "Waymax.C29_violated",
    "Waymax.C29_bounds"
   ],
   "note": "Real arithmetic. Violated by the code: it clips in the local frame after clipping the global displacement (C29_violated). Round trip proved when both the global and the local components are within bounds, or when the length of the displacement is."
  },
  {
   "property": "C30",
   "status": "proved",
   "theorems": [
    "Waymax.C30_limits",
    "Waymax.C30_straight"
   ],
   "note": "Real arithmetic; any action, also out of range."
  },
  {
   "property": "C31",
   "status": "proved",
   "theorems": [
    "Waymax.C31_recovers",
    "Waymax.C31_low_speed",
    "Waymax.C31_in_spec",
    "Waymax.C31_invalid"
   ],
   "note": "Real arithmetic; recovery, low-speed case, spec and invalid case."
  },
  {
   "property": "C32",
   "status": "proved",
   "theorems": [
    "Waymax.C32_metric_iff",
    "Waymax.C32_bicycle_feasible",
    "Waymax.C32_default_feasible",
    "Waymax.C32_default_metric"
   ],
   "note": "Real arithmetic; exact flag condition and feasibility of bicycle transitions."
  },
  {
   "property": "C33",
   "status": "proved",
   "theorems": [
    "Waymax.C33_index_range",
    "Waymax.C33_value_range",
    "Waymax.C33_index_round_trip",
    "Waymax.C33_injective",
    "Waymax.C33_value_round_trip",
    "Waymax.C33_rounding_margin"
   ],
   "note": "Real arithmetic with round-half-even; any number of dimensions and bins. C33_rounding_margin says how much per-coordinate error still gives the same index."
  },
  {
   "property": "C34",
   "status": "proved",
   "theorems": [
    "Waymax.C34_executes_in_bounds",
    "Waymax.C34_out_of_range",
    "Waymax.C34_inverse_in_spec",
    "Waymax.C34_bicycle_in_spec",
    "Waymax.C34_delta_in_spec",
    "Waymax.C34_delta_step_error"
   ],
   "note": "Real arithmetic; bicycle and delta dynamics, any bins; includes the pose error caused by discretising a delta action."
  },
  {
   "property": "C35",
   "status": "partial",
   "theorems": [
    "Waymax.C35_search_optimal_partial",
    "Waymax.C35_non_sdc",
    "Waymax.C35_violated"
   ],
   "note": "Real arithmetic. Optimal for the SDC (C35_search_optimal_partial). The other objects are not controlled during the search, so the code always returns index 0 for them (C35_non_sdc) and the property is violated (C35_violated)."
  },
  {
   "property": "C36",
   "status": "proved",
   "theorems": [
    "Waymax.C36_log_divergence",
    "Waymax.C36_uncontrolled_never_diverge"
   ],
   "note": "Real arithmetic; exact value and validity, zero along every episode for uncontrolled objects."
  },
  {
   "property": "C37",
   "status": "proved",
   "theorems": [
    "Waymax.C37_wrong_way",
    "Waymax.C37_no_paths"
   ],
   "note": "Real arithmetic; minimum over all valid path points, any number of paths and points."
  },
  {
   "property": "C38",
   "status": "proved",
   "theorems": [
    "Waymax.C38_off_route",
    "Waymax.C38_no_paths"
   ],
   "note": "Real arithmetic; exact value and validity."
  },
  {
   "property": "C39",
   "status": "partial",
   "theorems": [
    "Waymax.C39_progression_exact",
    "Waymax.C39_start_and_end",
    "Waymax.C39_violated",
    "Waymax.C39_nonnegative_partial"
   ],
   "note": "Real arithmetic; exact value (C39_progression_exact), end points; non-negativity is violated by the code (C39_violated), with the part that holds in C39_nonnegative_partial."
  },
  {
   "property": "C40",
   "status": "partial",
   "theorems": [
    "Waymax.C40_offroad_partial",
    "Waymax.C40_no_edges",
    "Waymax.C40_violated"
   ],
   "note": "Real arithmetic; exact iff a valid road edge exists (C40_offroad_partial); without one the code uses the first road point (C40_no_edges), so the property is violated there (C40_violated)."
  },
  {
   "property": "C41",
   "status": "proved",
   "theorems": [
    "Waymax.C41_linear_reward",
    "Waymax.C41_total",
    "Waymax.C41_action_independent",
    "Waymax.C41_linear_in_weights",
    "Waymax.C41_env_reward",
    "Waymax.C41_non_sdc_fails"
   ],
   "note": "Real arithmetic; any registry, weights and mask; includes the environment-level reward."
  },
  {
   "property": "C42",
   "status": "proved",
   "theorems": [
    "Waymax.C42_register",
    "Waymax.C42_run_metrics",
    "Waymax.C42_run_metrics_fails_iff",
    "Waymax.C42_history",
    "Waymax.C42_history_names",
    "Waymax.C42_reward_survives",
    "Waymax.C42_reward_init"
   ],
   "note": "Any sequence of registrations."
  },
  {
   "property": "C43",
   "status": "proved",
   "theorems": [
    "Waymax.C43_select_by_onehot",
    "Waymax.C43_select_general"
   ],
   "note": "Any number of objects; SDC entries in the planning environment are used in the route metrics above."
  },
  {
   "property": "C44",
   "status": "proved",
   "theorems": [
    "Waymax.C44_last_claimant",
    "Waymax.C44_unclaimed",
    "Waymax.C44_order_irrelevant",
    "Waymax.C44_empty_rejected"
   ],
   "note": "Any number of actors, any action type."
  },
  {
   "property": "C45",
   "status": "proved",
   "theorems": [
    "Waymax.C45_who_moves",
    "Waymax.C45_rest_of_step",
    "Waymax.C45_overlapping_follow_log",
    "Waymax.C45_fails_iff",
    "Waymax.C45_never_fails",
    "Waymax.C45_reset"
   ],
   "note": "Any dynamics, agents, number of objects and steps (real arithmetic for the overlap test). Covers position, validity, the untouched fields, agent states, failure condition and reset."
  },
  {
   "property": "C46",
   "status": "proved",
   "theorems": [
    "Waymax.C46_step",
    "Waymax.C46_episode"
   ],
   "note": "Step and whole episodes."
  },
  {
   "property": "C47",
   "status": "proved",
   "theorems": [
    "Waymax.C47_episode",
    "Waymax.C47_speed_nonneg",
    "Waymax.C47_accel_bounded",
    "Waymax.C47_free_flow",
    "Waymax.C47_never_exceeds"
   ],
   "note": "Real arithmetic. Per update and for whole episodes of the planning environment (any number of steps); the no-overshoot part needs 1 <= delta and 0.1*max_accel*delta <= desired_vel, which the defaults meet."
  },
  {
   "property": "C48",
   "status": "proved",
   "theorems": [
    "Waymax.C48_leader",
    "Waymax.C48_default",
    "Waymax.C48_fails_iff"
   ],
   "note": "Real arithmetic; any number of objects and way points; also says when the update fails."
  },
  {
   "property": "C49",
   "status": "proved",
   "theorems": [
    "Waymax.C49_policy",
    "Waymax.C49_straight_line"
   ],
   "note": "Real arithmetic. Policy: speed after every step away from the route end. Actor: straight line through any number of steps with StateDynamics."
  },
  {
   "property": "C50",
   "status": "proved",
   "theorems": [
    "Waymax.C50_window",
    "Waymax.C50_newest_is_current",
    "Waymax.C50_no_future"
   ],
   "note": "Any base environment configuration accepted by EnvironmentConfig (obs_num_steps at most init_steps), any number of steps, any dynamics and scalar type."
  },
  {
   "property": "C51",
   "status": "partial",
   "theorems": [
    "Waymax.C51_exact",
    "Waymax.C51_violated",
    "Waymax.C51_sdc_partial"
   ],
   "note": "Violated by the code for two or more objects in observation_from_state: is_ego is set only in the row of object 1 (it compares diag(arange(n)) with 1) (C51_violated, exact value in C51_exact); holds for the SDC observation (C51_sdc_partial)."
  },
  {
   "property": "C52",
   "status": "partial",
   "theorems": [
    "Waymax.C52_transform_partial",
    "Waymax.C52_paths_untouched",
    "Waymax.C52_violated"
   ],
   "note": "Violated by the code: sdc_paths keep their old coordinates (C52_violated, C52_paths_untouched). All other parts in C52_transform_partial. Real arithmetic."
  },
  {
   "property": "C53",
   "status": "proved",
   "theorems": [
    "Waymax.C53_nearest",
    "Waymax.C53_no_closer",
    "Waymax.C53_sizes"
   ],
   "note": "Distances over the reals; any number of points."
  },
  {
   "property": "C54",
   "status": "partial",
   "theorems": [
    "Waymax.C54_violated",
    "Waymax.C54_small_ids_partial",
    "Waymax.C54_unfiltered"
   ],
   "note": "Violated by the code: ids go through float32 (C54_violated, id 2^24+1); ids up to 2^24 in absolute value and unfiltered road graphs are unchanged."
  },
  {
   "property": "C55",
   "status": "partial",
   "theorems": [
    "Waymax.C55_names_partial",
    "Waymax.C55_violated",
    "Waymax.C55_second_at_rejected",
    "Waymax.C55_single_file"
   ],
   "note": "Violated by the code for base names containing a percent sign (C55_violated); a second @ is rejected (C55_second_at_rejected). All other names and every n >= 1 in C55_names_partial. math.log10 is taken as exact."
  },
  {
   "property": "C56",
   "status": "proved",
   "theorems": [
    "Waymax.C56_all_files_once",
    "Waymax.C56_process_share",
    "Waymax.C56_one_reader",
    "Waymax.C56_all_examples"
   ],
   "note": "Any file order, any numbers of processes and shards; jax.process_index and tf.data.shard as documented."
  },
  {
   "property": "C57",
   "status": "partial",
   "theorems": [
    "Waymax.C57_same_examples_partial",
    "Waymax.C57_drop_exact",
    "Waymax.C57_violated"
   ],
   "note": "Violated by the code with drop_remainder (C57_violated: two shards return nothing where one returns two examples); exact count in C57_drop_exact; C57_same_examples_partial covers reading without batching, and one batch dimension with the remainder kept. Record order is an arbitrary permutation."
  },
  {
   "property": "C58",
   "status": "partial",
   "theorems": [
    "Waymax.C58_exact",
    "Waymax.C58_small_ids_partial",
    "Waymax.C58_violated"
   ],
   "note": "Violated by the code: id and type features are float32 (C58_violated, id 2^24+1), and is_controlled is not stored; exact result in C58_exact, ids and types up to 2^24 in C58_small_ids_partial."
  },
  {
   "property": "C59",
   "status": "partial",
   "theorems": [
    "Waymax.C59_exact",
    "Waymax.C59_lights_exact",
    "Waymax.C59_marked_partial",
    "Waymax.C59_violated"
   ],
   "note": "Violated by the code for every state: the marker -1 is read as True, so all later steps of all objects and lights come back valid at position -1 (C59_exact, C59_lights_exact, C59_violated). C59_marked_partial: the written example does carry the markers."
  },
  {
   "property": "C60",
   "status": "proved",
   "theorems": [
    "Waymax.C60_masked_mean",
    "Waymax.C60_constant_row",
    "Waymax.C60_between"
   ],
   "note": "Real arithmetic; last-axis case, which is the only one used."
  },
  {
   "property": "C61",
   "status": "proved",
   "theorems": [
    "Waymax.C61_update_window",
    "Waymax.C61_default_position",
    "Waymax.C61_update_whole",
    "Waymax.C61_rejects_iff",
    "Waymax.C61_read",
    "Waymax.C61_write_back",
    "Waymax.C61_read_back",
    "Waymax.C61_disjoint_commute",
    "Waymax.C61_mask",
    "Waymax.C61_clamped"
   ],
   "note": "Any size, window and element type; out of range positions as JAX defines them (C61_clamped)."
  },
  {
   "property": "C62",
   "status": "partial",
   "theorems": [
    "Waymax.C62_per_object",
    "Waymax.C62_per_object_partial",
    "Waymax.C62_violated",
    "Waymax.C62_scenario_metric_exact"
   ],
   "note": "Violated by the code for scenario-level metrics (C62_violated, exact value in C62_scenario_metric_exact); per-object metrics are right (C62_per_object, C62_per_object_partial)."
  },
  {
   "property": "C63",
   "status": "partial",
   "theorems": [
    "Waymax.C63_accepts_iff",
    "Waymax.C63_no_agents_partial",
    "Waymax.C63_violated"
   ],
   "note": "Violated by the code: no parameters are passed for the sim agents, so every configuration with a sim agent is rejected (C63_violated). C63_accepts_iff is the exact condition; C63_no_agents_partial the case without sim agents."
  },
  {
   "property": "C64",
   "status": "proved",
   "theorems": [
    "Waymax.C64_expert_delta_global",
    "Waymax.C64_expert_delta_local"
   ],
   "note": "Real arithmetic; any number of objects and rollout length."
  },
  {
   "property": "C65",
   "status": "partial",
   "theorems": [
    "Waymax.C65_violated",
    "Waymax.C65_no_reverse_partial"
   ],
   "note": "Violated by the code: one braking step can turn the velocity against the heading (C65_violated); holds when the speed is at least max_accel*dt."
  },
  {
   "property": "C66",
   "status": "partial",
   "theorems": [
    "Waymax.C66_only_controlled_partial",
    "Waymax.C66_violated"
   ],
   "note": "Violated by the code: with controlled_object=VALID and no new objects after warm-up the reward uses metadata.is_valid, the step uses validity at the end of the warm-up (C66_violated). Holds for all other configurations."
  },
  {
   "property": "C67",
   "status": "partial",
   "theorems": [
    "Waymax.C67_violated",
    "Waymax.C67_shape_check_partial"
   ],
   "note": "Violated by the code: the check is `a == b or a == c` (C67_violated); C67_shape_check_partial gives the exact condition."
  },
  {
   "property": "C68",
   "status": "proved",
   "theorems": [
    "Waymax.C68_executes_command",
    "Waymax.C68_update",
    "Waymax.C68_objects_independent",
    "Waymax.C68_inverse_round_trip"
   ],
   "note": "Any scalar type, also float32."
  },
  {
   "property": "C69",
   "status": "partial",
   "theorems": [
    "Waymax.C69_violated",
    "Waymax.C69_late_objects_partial"
   ],
   "note": "Violated by the code: the boxes of absent objects are the same placeholder and count as overlapping, so the agent is ignored (C69_violated). Holds when the object overlaps nothing in the first frame."
  },
  {
   "property": "C70",
   "status": "partial",
   "theorems": [
    "Waymax.C70_planner_moves_sdc_partial",
    "Waymax.C70_violated"
   ],
   "note": "Violated by the code: a sim agent that claims the SDC overrides the planner (C70_violated). Holds when none does."
  },
  {
   "property": "C71",
   "status": "partial",
   "theorems": [
    "Waymax.C71_planning_metrics",
    "Waymax.C71_builtin_single_agent",
    "Waymax.C71_violated"
   ],
   "note": "Violated for user-registered per-object metrics, which stay per-object (C71_violated); exact result in C71_planning_metrics, single-agent for the built-in metrics in C71_builtin_single_agent."
  },
  {
   "property": "C72",
   "status": "partial",
   "theorems": [
    "Waymax.C72_planning_reward",
    "Waymax.C72_matches_metrics_partial",
    "Waymax.C72_violated"
   ],
   "note": "Violated right after reset: the reward charges kinematic infeasibility that metrics masks out (C72_violated). Exact formula in C72_planning_reward; agreement otherwise in C72_matches_metrics_partial."
  },
  {
   "property": "C73",
   "status": "partial",
   "theorems": [
    "Waymax.C73_forward_exact_partial",
    "Waymax.C73_violated",
    "Waymax.C73_ignores_new_objects_violated"
   ],
   "note": "Violated by the code: the tiled validity has the wrong shape unless there is exactly one object, and allow_new_objects is not passed on (C73_violated, C73_ignores_new_objects_violated). Exact behaviour in C73_forward_exact_partial."
  },
  {
   "property": "C74",
   "status": "proved",
   "theorems": [
    "Waymax.C74_inverse_is_sdc_action",
    "Waymax.C74_log_replay"
   ],
   "note": "Real arithmetic; any number of objects."
  },
  {
   "property": "C75",
   "status": "partial",
   "theorems": [
    "Waymax.C75_end_of_route_partial",
    "Waymax.C75_violated"
   ],
   "note": "Violated by the code: the object stays valid and jumps to the placeholder (-1, -1) (C75_violated; exact behaviour in C75_end_of_route_partial)."
  },
  {
   "property": "C76",
   "status": "proved",
   "theorems": [
    "Waymax.C76_follows_route"
   ],
   "note": "Real arithmetic; any log with at least one valid step."
  },
  {
   "property": "C77",
   "status": "proved",
   "theorems": [
    "Waymax.C77_monotone",
    "Waymax.C77_no_speed_up_when_close"
   ],
   "note": "Real arithmetic."
  },
  {
   "property": "C78",
   "status": "proved",
   "theorems": [
    "Waymax.C78_answer",
    "Waymax.C78_frozen"
   ],
   "note": "Any number of steps, any other agents."
  },
  {
   "property": "C79",
   "status": "partial",
   "theorems": [
    "Waymax.C79_gentle_braking_partial",
    "Waymax.C79_violated"
   ],
   "note": "Violated by the code (C79_violated: from 10 m/s to 0 in 0.1 s); C79_gentle_braking_partial gives a condition under which the bound holds."
  },
  {
   "property": "C80",
   "status": "proved",
   "theorems": [
    "Waymax.C80_object_frame",
    "Waymax.C80_sdc_frame",
    "Waymax.C80_observer_at_origin",
    "Waymax.C80_rigid"
   ],
   "note": "Real arithmetic; any number of objects, any reachable state."
  },
  {
   "property": "C81",
   "status": "partial",
   "theorems": [
    "Waymax.C81_exact_unbatched",
    "Waymax.C81_exact_batched",
    "Waymax.C81_violated",
    "Waymax.C81_violated_batched",
    "Waymax.C81_scalar_leaf_partial"
   ],
   "note": "Violated by the code (C81_violated, C81_violated_batched; exact result in C81_exact_*); C81_scalar_leaf_partial is what holds."
  },
  {
   "property": "C82",
   "status": "proved",
   "theorems": [
    "Waymax.C82_sdc_row"
   ],
   "note": "Real arithmetic; one SDC."
  },
  {
   "property": "C83",
   "status": "partial",
   "theorems": [
    "Waymax.C83_last_axis_partial",
    "Waymax.C83_default_axis_exact",
    "Waymax.C83_violated",
    "Waymax.C83_default_axis_raises"
   ],
   "note": "Violated for the default axis=0 on matrices (C83_violated, C83_default_axis_exact, C83_default_axis_raises); proved for the last axis, which is how the code base calls it (C83_last_axis_partial)."
  },
  {
   "property": "C84",
   "status": "proved",
   "theorems": [
    "Waymax.C84_select",
    "Waymax.C84_select_none",
    "Waymax.C84_mismatch"
   ],
   "note": "Any shape and batch rank."
  },
  {
   "property": "C85",
   "status": "partial",
   "theorems": [
    "Waymax.C85_violated",
    "Waymax.C85_square_exact",
    "Waymax.C85_unbatched_partial"
   ],
   "note": "Violated by the code for kinematic infeasibility (C85_violated; C85_square_exact gives the value); C85_unbatched_partial covers the unbatched case."
  },
  {
   "property": "C86",
   "status": "partial",
   "theorems": [
    "Waymax.C86_one_dimension_partial",
    "Waymax.C86_violated"
   ],
   "note": "Violated for two or more batch dimensions (C86_violated): the short inner batch cannot be stacked. At most one dimension in C86_one_dimension_partial."
  },
  {
   "property": "C87",
   "status": "proved",
   "theorems": [
    "Waymax.C87_drop_remainder"
   ],
   "note": "Any record order (interleaving and shuffling are an arbitrary permutation), any number of dimensions."
  },
  {
   "property": "C88",
   "status": "proved",
   "theorems": [
    "Waymax.C88_global_step",
    "Waymax.C88_global_path",
    "Waymax.C88_local_step"
   ],
   "note": "Real arithmetic; any number of steps."
  },
  {
   "property": "C89",
   "status": "proved",
   "theorems": [
    "Waymax.C89_accepts_iff",
    "Waymax.C89_window",
    "Waymax.C89_lights",
    "Waymax.C89_motion",
    "Waymax.C89_light_times",
    "Waymax.C89_roadgraph",
    "Waymax.C89_short_history"
   ],
   "note": "Real arithmetic. C89_short_history shows what is exported with too little history (the end of the array)."
  },
  {
   "property": "C90",
   "status": "proved",
   "theorems": [
    "Waymax.C90_log",
    "Waymax.C90_sizes",
    "Waymax.C90_start",
    "Waymax.C90_lights",
    "Waymax.C90_rest"
   ],
   "note": "Real arithmetic; SDC paths not included."
  },
  {
   "property": "C91",
   "status": "partial",
   "theorems": [
    "Waymax.C91_exact",
    "Waymax.C91_negative",
    "Waymax.C91_no_future_partial",
    "Waymax.C91_violated"
   ],
   "note": "Violated by the code: each unknown future step counts as a size of -1 (C91_exact, C91_negative, C91_violated); without future steps sizes survive (C91_no_future_partial)."
  },
  {
   "property": "C92",
   "status": "proved",
   "theorems": [
    "Waymax.C92_state_features",
    "Waymax.C92_light_features",
    "Waymax.C92_removed",
    "Waymax.C92_others",
    "Waymax.C92_nothing_else",
    "Waymax.C92_which_time",
    "Waymax.C92_succeeds"
   ],
   "note": "Any keys and shapes; tensors over the reals."
  },
  {
   "property": "C93",
   "status": "partial",
   "theorems": [
    "Waymax.C93_headings",
    "Waymax.C93_limit",
    "Waymax.C93_negative",
    "Waymax.C93_violated",
    "Waymax.C93_keeps_partial",
    "Waymax.C93_which_time_cut"
   ],
   "note": "Violated by the code: the SDC may be dropped (C93_violated; the source has a TODO) and state/which_time, whose axis is time, is cut too (C93_which_time_cut). C93_limit is the exact behaviour, C93_keeps_partial what holds."
  },
  {
   "property": "C94",
   "status": "partial",
   "theorems": [
    "Waymax.C94_answer",
    "Waymax.C94_entering",
    "Waymax.C94_no_entering_partial",
    "Waymax.C94_violated"
   ],
   "note": "Violated by the code: the object enters at (-1, -1) and valid (C94_entering, C94_violated). C94_no_entering_partial: without injection."
  },
  {
   "property": "C95",
   "status": "proved",
   "theorems": [
    "Waymax.C95_create",
    "Waymax.C95_who_moves",
    "Waymax.C95_builtin_agents"
   ],
   "note": "Real arithmetic; IDM is the only configurable agent."
  },
  {
   "property": "C96",
   "status": "partial",
   "theorems": [
    "Waymax.C96_accepted_iff",
    "Waymax.C96_metrics_partial",
    "Waymax.C96_violated"
   ],
   "note": "Violated by the code: rewards on route metrics are not checked (C96_violated). C96_accepted_iff is the exact acceptance condition, C96_metrics_partial what holds."
  },
  {
   "property": "C97",
   "status": "proved",
   "theorems": [
    "Waymax.C97_outline",
    "Waymax.C97_all_boxes"
   ],
   "note": "Real arithmetic; a figure is the list of marks put on it, what matplotlib does with them is not modelled."
  },
  {
   "property": "C98",
   "status": "proved",
   "theorems": [
    "Waymax.C98_picture",
    "Waymax.C98_once",
    "Waymax.C98_last_step",
    "Waymax.C98_past_end"
   ],
   "note": "Real arithmetic; any trajectory and step."
  },
  {
   "property": "C99",
   "status": "proved",
   "theorems": [
    "Waymax.C99_red_is_overlap"
   ],
   "note": "Real arithmetic."
  },
  {
   "property": "C100",
   "status": "proved",
   "theorems": [
    "Waymax.C100_road",
    "Waymax.C100_road_once",
    "Waymax.C100_lights_accepted",
    "Waymax.C100_lights",
    "Waymax.C100_state_picture",
    "Waymax.C100_observation_picture"
   ],
   "note": "Any map and lights."
  },
  {
   "property": "C101",
   "status": "partial",
   "theorems": [
    "Waymax.C101_chosen_center",
    "Waymax.C101_violated",
    "Waymax.C101_default_center_partial",
    "Waymax.C101_rejected"
   ],
   "note": "Violated by the code: any center_agent_idx other than -1 fails (C101_chosen_center, C101_violated). C101_default_center_partial covers the default; C101_rejected: no road graph, or NON_SDC highlighted."
  },
  {
   "property": "C102",
   "status": "partial",
   "theorems": [
    "Waymax.C102_no_step",
    "Waymax.C102_violated",
    "Waymax.C102_given_step_partial"
   ],
   "note": "Violated by the code: time_idx=None, the default, always raises TypeError (C102_no_step, C102_violated). C102_given_step_partial: any given step."
  },
  {
   "property": "C103",
   "status": "partial",
   "theorems": [
    "Waymax.C103_paths",
    "Waymax.C103_texts",
    "Waymax.C103_violated",
    "Waymax.C103_single_partial"
   ],
   "note": "Violated by the code: all metric texts are written at one place (C103_texts, C103_violated); C103_single_partial: at most one valid metric. C103_paths: the path points shown."
  },
  {
   "property": "C104",
   "status": "proved",
   "theorems": [
    "Waymax.C104_ego_view"
   ],
   "note": "Real arithmetic; one SDC."
  },
  {
   "property": "C105",
   "status": "proved",
   "theorems": [
    "Waymax.C105_state",
    "Waymax.C105_deltaGlobal",
    "Waymax.C105_deltaLocal",
    "Waymax.C105_bicycle",
    "Waymax.C105_reset",
    "Waymax.C105_step",
    "Waymax.C105_steps",
    "Waymax.C105_episode",
    "Waymax.C105_flags",
    "Waymax.C105_is_done"
   ],
   "note": "Refinement between two models: arrays with arbitrary leading axes (Model/Batch) and one scenario (Model/BaseEnv). Delta and bicycle models over the reals. Planning environment and sim agents are not in the batch model."
  },
  {
   "property": "C106",
   "status": "partial",
   "theorems": [
    "Waymax.C106_current",
    "Waymax.C106_never",
    "Waymax.C106_step_error",
    "Waymax.C106_violated",
    "Waymax.C106_shared_step_partial",
    "Waymax.C106_log_replay"
   ],
   "note": "Violated by the code: no step with a batched time step succeeds (C106_never, C106_violated); reading (C106_current) and log replay (C106_log_replay) do work. C106_shared_step_partial: a time step without batch axes."
  },
  {
   "property": "C107",
   "status": "partial",
   "theorems": [
    "Waymax.C107_batch_rejected",
    "Waymax.C107_violated",
    "Waymax.C107_unbatched_partial"
   ],
   "note": "Violated by the code: after reset of any batch validate fails (C107_batch_rejected, C107_violated). C107_unbatched_partial: one scenario."
  },
  {
   "property": "C108",
   "status": "proved",
   "theorems": [
    "Waymax.C108_log_divergence",
    "Waymax.C108_offroad",
    "Waymax.C108_overlap",
    "Waymax.C108_kinematic",
    "Waymax.C108_wrong_way",
    "Waymax.C108_off_route",
    "Waymax.C108_progression"
   ],
   "note": "Real arithmetic."
  },
  {
   "property": "C109",
   "status": "partial",
   "theorems": [
    "Waymax.C109_kinematic_rejects",
    "Waymax.C109_violated",
    "Waymax.C109_shared_step_partial"
   ],
   "note": "Violated by the code: TypeError for every batched time step (C109_kinematic_rejects, C109_violated). C109_shared_step_partial: a time step without batch axes."
  },
  {
   "property": "C110",
   "status": "partial",
   "theorems": [
    "Waymax.C110_dynamics_spec",
    "Waymax.C110_negative_limits",
    "Waymax.C110_discrete_spec",
    "Waymax.C110_base_spec",
    "Waymax.C110_action",
    "Waymax.C110_valid_spec",
    "Waymax.C110_planning_action",
    "Waymax.C110_squeezed",
    "Waymax.C110_state_no_spec",
    "Waymax.C110_state_never",
    "Waymax.C110_violated",
    "Waymax.C110_step_partial"
   ],
   "note": "Violated by the code for StateDynamics in BaseEnvironment: action_spec raises IndexError, so the DMEnv wrapper can never step it (C110_state_no_spec, C110_state_never, C110_violated). C110_step_partial: the other built-in models. Specs, planning and discrete actions without restriction."
  },
  {
   "property": "C111",
   "status": "partial",
   "theorems": [
    "Waymax.C111_bicycle_step",
    "Waymax.C111_bicycle",
    "Waymax.C111_bicycle_applied",
    "Waymax.C111_violated",
    "Waymax.C111_delta_global_partial",
    "Waymax.C111_delta_local_partial"
   ],
   "note": "Bicycle model proved in full (C111_bicycle). Violated by the code for delta models (C111_violated): actions are not clipped; C111_delta_*_partial: allowed actions. Real arithmetic."
  },
  {
   "property": "C112",
   "status": "partial",
   "theorems": [
    "Waymax.C112_reward",
    "Waymax.C112_builtin",
    "Waymax.C112_planning",
    "Waymax.C112_dtype",
    "Waymax.C112_dtype_violated",
    "Waymax.C112_dtype_partial"
   ],
   "note": "Values and shapes in full for metrics with one number per object (others: C62). Data type violated by the code for an empty reward configuration (C112_dtype_violated); exact in C112_dtype."
  },
  {
   "property": "C113",
   "status": "partial",
   "theorems": [
    "Waymax.C113_step_type",
    "Waymax.C113_discount_spec",
    "Waymax.C113_shape_violated",
    "Waymax.C113_shape_partial",
    "Waymax.C113_mixed_rejected"
   ],
   "note": "Environment flags and wrapper outcome on arrays of any batch shape. Shape of the discount violated by the code before the last step (C113_shape_violated): a scalar for every batch. C113_shape_partial: the last step and single scenarios."
  },
  {
   "property": "C114",
   "status": "partial",
   "theorems": [
    "Waymax.C114_equal_partial",
    "Waymax.C114_missing_part",
    "Waymax.C114_other_class",
    "Waymax.C114_derived_class",
    "Waymax.C114_metric_result",
    "Waymax.C114_violated",
    "Waymax.C114_planning_partial",
    "Waymax.C114_observation",
    "Waymax.C114_copy",
    "Waymax.C114_state"
   ],
   "note": "Violated by the code for MetricResult, Observation and PlanningAgentSimulatorState, which have the generated comparison (ValueError on arrays), and when an optional part is missing on one side (C114_violated, C114_missing_part, C114_metric_result). C114_equal_partial: the other classes with the same parts; C114_planning_partial, C114_observation: exact behaviour of the generated comparison."
  },
  {
   "property": "C115",
   "status": "partial",
   "theorems": [
    "Waymax.C115_trajectory",
    "Waymax.C115_metadata",
    "Waymax.C115_accepts_iff",
    "Waymax.C115_step_rejected",
    "Waymax.C115_violated",
    "Waymax.C115_partial",
    "Waymax.C115_zeros",
    "Waymax.C115_flat",
    "Waymax.C115_paths",
    "Waymax.C115_pose"
   ],
   "note": "Checks as equivalences. Simulation violated by the code (C115_violated): validate does not compare metadata and trajectories in the number of objects; every step then fails (C115_step_rejected). C115_partial: same number of objects."
  },
  {
   "property": "C116",
   "status": "proved",
   "theorems": [
    "Waymax.C116_examples",
    "Waymax.C116_refines",
    "Waymax.C116_needs",
    "Waymax.C116_time_key"
   ],
   "note": "Reals; integer features hold reals of which the fraction is cut off. The trusted reading of jnp.asarray conversions is in Model/Loader."
  },
  {
   "property": "C117",
   "status": "proved",
   "theorems": [
    "Waymax.C117_paths",
    "Waymax.C117_none"
   ],
   "note": "Needs at least one point per path (otherwise the check of on_route fails)."
  },
  {
   "property": "C118",
   "status": "proved",
   "theorems": [
    "Waymax.C118_generator",
    "Waymax.C118_everything",
    "Waymax.C118_accepts",
    "Waymax.C118_runs",
    "Waymax.C118_needs_aggregation"
   ],
   "note": "From serialized records to scenarios: every yield is a state, the scenarios are the records of the process, none twice, missing at most a batch less one per shard; exact condition for a record to be accepted; existence of a run; with aggregate_timesteps off every yield is an exception. Real arithmetic; `repeat` finite; byte decoding not modelled."
  },
  {
   "property": "C119",
   "status": "partial",
   "theorems": [
    "Waymax.C119_by_object",
    "Waymax.C119_violated",
    "Waymax.C119_by_scenario_partial"
   ],
   "note": "Violated by the code (C119_violated): with batch_by_scenario off every complete record is refused unless there are 91 map points and 91 objects (C119_by_object). What holds: C119_by_scenario_partial."
  },
  {
   "property": "C120",
   "status": "proved",
   "theorems": [
    "Waymax.C120_state_inverse",
    "Waymax.C120_deltaGlobal_inverse",
    "Waymax.C120_deltaLocal_inverse",
    "Waymax.C120_bicycle_inverse",
    "Waymax.C120_expert_action",
    "Waymax.C120_expert_actor",
    "Waymax.C120_expert_rollout",
    "Waymax.C120_expert_succeeds",
    "Waymax.C120_log_replay",
    "Waymax.C120_rollout"
   ],
   "note": "Built-in metrics; reward terms among the metrics with one number per object (for the others see C112). One clock for the batch, as reset produces."
  },
  {
   "property": "C121",
   "status": "proved",
   "theorems": [
    "Waymax.C121_step",
    "Waymax.C121_reset",
    "Waymax.C121_steps",
    "Waymax.C121_episode",
    "Waymax.C121_metrics",
    "Waymax.C121_reward",
    "Waymax.C121_inverse",
    "Waymax.C121_sim_agent",
    "Waymax.C121_frozen"
   ],
   "note": "Real arithmetic; all scenarios of the batch at a common time step. Sim agents are any agents that refine their one-scenario versions; the frozen agent is shown to."
  },
  {
   "property": "C122",
   "status": "proved",
   "theorems": [
    "Waymax.C122_rollout",
    "Waymax.C122_expert_actor",
    "Waymax.C122_expert_rollout",
    "Waymax.C122_sdc_follows_log",
    "Waymax.C122_log_replay",
    "Waymax.C122_expert_succeeds"
   ],
   "note": "Real arithmetic; entry-by-entry agreement for any refining planner and agents, the expert for any of the four dynamics, success of expert rollouts, and the SDC's log replay with state dynamics. The internal states of the sim agents are left out of the output."
  },
  {
   "property": "C123",
   "status": "proved",
   "theorems": [
    "Waymax.C123_observation",
    "Waymax.C123_sdc",
    "Waymax.C123_succeeds",
    "Waymax.C123_window",
    "Waymax.C123_observer_at_origin",
    "Waymax.C123_isolated",
    "Waymax.C123_sdc_row"
   ],
   "note": "Real arithmetic. Coordinate pairs are grouped in one entry instead of a last axis of length two."
  },
  {
   "property": "C124",
   "status": "proved",
   "theorems": [
    "Waymax.C124_shuffle",
    "Waymax.C124_finite",
    "Waymax.C124_lag",
    "Waymax.C124_any_order",
    "Waymax.C124_buffer_one"
   ],
   "note": "The tf.data operations are modelled from their documentation; random numbers, timing and cycle lengths are arbitrary."
  },
  {
   "property": "C125",
   "status": "partial",
   "theorems": [
    "Waymax.C125_unshuffled_partial",
    "Waymax.C125_shuffled_partial",
    "Waymax.C125_violated"
   ],
   "note": "The tf.data operations are modelled from their documentation; random numbers, timing and cycle lengths are arbitrary. The claim fails with shuffling: repeat precedes shuffle."
  },
  {
   "property": "C126",
   "status": "partial",
   "theorems": [
    "Waymax.C126_finite",
    "Waymax.C126_fair_partial",
    "Waymax.C126_starved",
    "Waymax.C126_violated"
   ],
   "note": "The tf.data operations are modelled from their documentation; random numbers, timing and cycle lengths are arbitrary. The claim fails for endless reading with more shards than the cycle length chosen by TensorFlow (AUTOTUNE): the remaining shards are never opened."
  },
  {
   "property": "C127",
   "status": "partial",
   "theorems": [
    "Waymax.C127_enough_slots_partial",
    "Waymax.C127_one_file_partial",
    "Waymax.C127_violated"
   ],
   "note": "The tf.data operations are modelled from their documentation; random numbers, timing and cycle lengths are arbitrary. The claim fails because cycle lengths depend on the machine."
  },
  {
   "property": "C128",
   "status": "proved",
   "theorems": [
    "Waymax.C128_same_order",
    "Waymax.C128_one_reader",
    "Waymax.C128_all_records"
   ],
   "note": "Python's random is abstract: seeding determines the state, shuffling permutes."
  },
  {
   "property": "C129",
   "status": "partial",
   "theorems": [
    "Waymax.C129_nonzero_partial",
    "Waymax.C129_zero_violated",
    "Waymax.C129_unseeded_partial",
    "Waymax.C129_global_violated",
    "Waymax.C129_global"
   ],
   "note": "The claim fails for seed 0 (files stay in order though records are shuffled) and because the global random state is reseeded."
  },
  {
   "property": "C130",
   "status": "proved",
   "theorems": [
    "Waymax.C130_replay",
    "Waymax.C130_sizes_must_agree"
   ],
   "note": "Real arithmetic; decoding as modelled for C116 to C118."
  },
  {
   "property": "C131",
   "status": "proved",
   "theorems": [
    "Waymax.C131_idm",
    "Waymax.C131_idm_fails_iff",
    "Waymax.C131_idm_agent_fails",
    "Waymax.C131_waypoint",
    "Waymax.C131_constant_speed",
    "Waymax.C131_constant_speed_actor"
   ],
   "note": "Real arithmetic. The projection on the log maps over all leading axes as jax.vmap does."
  },
  {
   "property": "C132",
   "status": "partial",
   "theorems": [
    "Waymax.C132_range",
    "Waymax.C132_same_angle",
    "Waymax.C132_idempotent",
    "Waymax.C132_keeps_iff",
    "Waymax.C132_float32_numbers",
    "Waymax.C132_float32_range",
    "Waymax.C132_float32_idempotent",
    "Waymax.C132_keeps_yaws_in_range_violated",
    "Waymax.C132_float32_in_range_partial",
    "Waymax.C132_float64_reaches_pi"
   ],
   "note": "Formats are rounded to nearest, ties to even, with gradual underflow; overflow, infinities and NaN are not modelled. Fails: angles in range are changed in float32 (C132_keeps_yaws_in_range_violated). The change is bounded by C132_float32_in_range_partial."
  },
  {
   "property": "C133",
   "status": "proved",
   "theorems": [
    "Waymax.C133_no_drift",
    "Waymax.C133_exact",
    "Waymax.C133_displacement_exact",
    "Waymax.C133_velocity",
    "Waymax.C133_validity",
    "Waymax.C133_defaults"
   ],
   "note": "Same idealisations as C132; the sine and cosine are not used by this model."
  },
  {
   "property": "C134",
   "status": "partial",
   "theorems": [
    "Waymax.C134_round_trip",
    "Waymax.C134_length",
    "Waymax.C134_nearest",
    "Waymax.C134_value_bounds_partial",
    "Waymax.C134_value_bounds_violated",
    "Waymax.C134_middle_violated"
   ],
   "note": "Same idealisations as C132. Fails: values of bins can exceed the maximum (C134_value_bounds_violated) and the middle bin need not be zero (C134_middle_violated); C134_value_bounds_partial bounds the excess."
  },
  {
   "property": "C135",
   "status": "proved",
   "theorems": [
    "Waymax.C135_symmetric",
    "Waymax.C135_pairwise",
    "Waymax.C135_no_false_alarm",
    "Waymax.C135_no_miss",
    "Waymax.C135_metric",
    "Waymax.C135_metric_accuracy"
   ],
   "note": "Same idealisations as C132. Kernel.rounded_accurate and Kernel.fused_accurate show that correctly rounded kernels, fused or not, meet the hypothesis."
  },
  {
   "property": "C136",
   "status": "partial",
   "theorems": [
    "Waymax.C136_episode",
    "Waymax.C136_limits",
    "Waymax.C136_inverse_defined",
    "Waymax.C136_expert_in_spec",
    "Waymax.C136_rest_step",
    "Waymax.C136_parked_violated",
    "Waymax.C136_parked_partial",
    "Waymax.C136_expert_accurate"
   ],
   "note": "Same idealisations as C132. exactLibm_accurate: a library that rounds correctly meets the hypothesis. Default time step only."
  },
  {
   "property": "C137",
   "status": "proved",
   "theorems": [
    "Waymax.C137_bicycle_feasible",
    "Waymax.C137_episode",
    "Waymax.C137_detects_jump",
    "Waymax.C137_default",
    "Waymax.C137_detects_turn"
   ],
   "note": "Same idealisations as C132. exactLibm_accurate: a library that rounds correctly meets the hypothesis. Default time step only."
  },
  {
   "property": "C138",
   "status": "proved",
   "theorems": [
    "Waymax.C138_step",
    "Waymax.C138_drift",
    "Waymax.C138_two_machines",
    "Waymax.C138_numbers"
   ],
   "note": "Same idealisations as C132. Default time step only; acceleration limits up to 11 m/s\u00b2 and steering limits up to 1."
  },
  {
   "property": "C139",
   "status": "partial",
   "theorems": [
    "Waymax.C139_state_accepts",
    "Waymax.C139_state_reads",
    "Waymax.C139_deltaGlobal_accepts",
    "Waymax.C139_deltaLocal_accepts",
    "Waymax.C139_deltaLocal_reads",
    "Waymax.C139_bicycle_accepts",
    "Waymax.C139_bicycle_reads",
    "Waymax.C139_violated",
    "Waymax.C139_longer_rows_violated",
    "Waymax.C139_partial"
   ],
   "note": "The validity flags are assumed to have the documented shape (forward checks them). C139_violated and C139_longer_rows_violated show accepted wrong shapes; the _accepts theorems say exactly which, the _reads theorems what they do. An index beyond the end of a row is clamped, as JAX does."
  },
  {
   "property": "C140",
   "status": "proved",
   "theorems": [
    "Waymax.C140_reset",
    "Waymax.C140_step",
    "Waymax.C140_episode",
    "Waymax.C140_builtin",
    "Waymax.C140_expert",
    "Waymax.C140_metrics",
    "Waymax.C140_run_metrics",
    "Waymax.C140_reward",
    "Waymax.C140_expert_actor",
    "Waymax.C140_rollout",
    "Waymax.C140_idm"
   ],
   "note": "Storage is an injection of the object indices; a permutation is the special case without padding. Observations are not part of this claim; the is_ego flags of the multi-agent observation do depend on the index (C51)."
  },
  {
   "property": "C141",
   "status": "partial",
   "theorems": [
    "Waymax.C141_agents",
    "Waymax.C141_reset",
    "Waymax.C141_step_partial",
    "Waymax.C141_episode_partial",
    "Waymax.C141_metrics",
    "Waymax.C141_reward",
    "Waymax.C141_violated"
   ],
   "note": "C141_violated: with one padding slot holding the placeholder -1 in every field, a car near (-1, -1) in the first frame is no longer moved by its sim agent. C141_step_partial and C141_episode_partial assume PaddingApart; a permutation satisfies it trivially. Reset, metrics and reward hold without it."
  },
  {
   "property": "C142",
   "status": "partial",
   "theorems": [
    "Waymax.C142_state",
    "Waymax.C142_deltaGlobal",
    "Waymax.C142_deltaLocal",
    "Waymax.C142_bicycle",
    "Waymax.C142_reset",
    "Waymax.C142_step_partial",
    "Waymax.C142_episode_partial",
    "Waymax.C142_state_step",
    "Waymax.C142_state_episode",
    "Waymax.C142_violated"
   ],
   "note": "C142_step_partial and C142_episode_partial assume that no controlled object enters after the warm-up (NoControlledEntry, which holds trivially when new objects are not allowed); C142_violated: the scenario is shifted by 10 and the entering object appears at (-1, -1) in both frames. C142_state_step and C142_state_episode need no such assumption."
  },
  {
   "property": "C143",
   "status": "proved",
   "theorems": [
    "Waymax.C143_log_divergence",
    "Waymax.C143_overlap",
    "Waymax.C143_kinematics",
    "Waymax.C143_wrong_way",
    "Waymax.C143_off_route",
    "Waymax.C143_progression",
    "Waymax.C143_offroad"
   ],
   "note": "Numbers of invalid metric entries are not compared. Off-road reports a valid result for absent objects too (C40), which depends on the placeholder position; the theorem is about objects that are present."
  },
  {
   "property": "C144",
   "status": "partial",
   "theorems": [
    "Waymax.C144_state",
    "Waymax.C144_bicycle",
    "Waymax.C144_bicycle_actions",
    "Waymax.C144_displacement_partial",
    "Waymax.C144_local_partial",
    "Waymax.C144_violated"
   ],
   "note": "C144_violated: 8 m along an axis are cut to 6 m, but not cut in a frame turned by 45 degrees. C144_displacement_partial: displacements no longer than both limits, or parallel frames; C144_local_partial: displacements no longer than both limits."
  },
  {
   "property": "C145",
   "status": "proved",
   "theorems": [
    "Waymax.C145_object",
    "Waymax.C145_sdc_frame",
    "Waymax.C145_sdc_observation"
   ],
   "note": "Headings are compared up to full turns. SDC paths and the recorded poses of the observers are in map coordinates and not compared."
  },
  {
   "property": "C146",
   "status": "proved",
   "theorems": [
    "Waymax.C146_idm_speed",
    "Waymax.C146_following",
    "Waymax.C146_idm",
    "Waymax.C146_constant_speed",
    "Waymax.C146_frozen",
    "Waymax.C146_claims"
   ],
   "note": "Updates that an agent marks invalid are not compared beyond their flag. The IDM speed is compared including its shape failures."
  },
  {
   "property": "C147",
   "status": "partial",
   "theorems": [
    "Waymax.C147_agents",
    "Waymax.C147_reset",
    "Waymax.C147_step_partial",
    "Waymax.C147_episode_partial",
    "Waymax.C147_violated"
   ],
   "note": "C147_violated: a frozen agent, a scenario shifted by 10 m, and an absent object whose placeholder box covers a car in one frame only. C147_step_partial and C147_episode_partial assume AbsentApart and NoEntry (the latter is trivial when new objects are not allowed). C147_agents: the frozen agent and IDM with its default of not invalidating at the route's end; an agent that does invalidate writes the placeholder into the state (C75), which is not moved."
  },
  {
   "property": "C148",
   "status": "proved",
   "theorems": [
    "Waymax.C148_reset",
    "Waymax.C148_step",
    "Waymax.C148_episode",
    "Waymax.C148_truncation",
    "Waymax.C148_expert",
    "Waymax.C148_observation",
    "Waymax.C148_metrics",
    "Waymax.C148_progression",
    "Waymax.C148_run_metrics",
    "Waymax.C148_env_metrics",
    "Waymax.C148_reward",
    "Waymax.C148_rollout",
    "Waymax.C148_plan_reset",
    "Waymax.C148_plan_step",
    "Waymax.C148_plan_episode",
    "Waymax.C148_frozen",
    "Waymax.C148_progression_knows_the_end"
   ],
   "note": "Sim agents that follow the logged route (constant speed, IDM) know the whole logged route by design and are not covered by C148_plan_episode's hypothesis; the frozen agent is (C148_frozen). C148_progression_knows_the_end shows that progression does depend on the log's end, C148_progression that it depends on nothing else that comes later."
  },
  {
   "property": "C149",
   "status": "proved",
   "theorems": [
    "Waymax.C149_offroad",
    "Waymax.C149_wrong_way",
    "Waymax.C149_off_route",
    "Waymax.C149_progression",
    "Waymax.C149_metrics",
    "Waymax.C149_env_metrics",
    "Waymax.C149_reward",
    "Waymax.C149_reset",
    "Waymax.C149_step",
    "Waymax.C149_episode",
    "Waymax.C149_rollout",
    "Waymax.C149_expert",
    "Waymax.C149_agents",
    "Waymax.C149_plan_reset",
    "Waymax.C149_plan_step",
    "Waymax.C149_plan_episode",
    "Waymax.C149_plan_metrics"
   ],
   "note": "Padding is appended at the end, as the data loader does. A map or a path list without any entry makes the metrics raise, so nothing is appended to those."
  },
  {
   "property": "C150",
   "status": "partial",
   "theorems": [
    "Waymax.C150_nearest_partial",
    "Waymax.C150_observation_partial",
    "Waymax.C150_sdc_observation_partial",
    "Waymax.C150_violated",
    "Waymax.C150_all_points"
   ],
   "note": "C150_violated: two road points, two asked for. C150_all_points gives the exact behaviour for equal sizes. Asking for more points than stored raises (C53_sizes), so padding can turn a failure into a success."
  },
  {
   "property": "C151",
   "status": "proved",
   "theorems": [
    "Waymax.C151_builtin",
    "Waymax.C151_reset",
    "Waymax.C151_step",
    "Waymax.C151_steps",
    "Waymax.C151_episode",
    "Waymax.C151_ignored",
    "Waymax.C151_ignored_episode",
    "Waymax.C151_metrics"
   ],
   "note": "Overlap is between objects by definition and is not part of the claim. Actions of a planning environment concern the SDC only; see the claims on that environment."
  },
  {
   "property": "C152",
   "status": "partial",
   "theorems": [
    "Waymax.C152_reset",
    "Waymax.C152_step_partial",
    "Waymax.C152_steps_closed",
    "Waymax.C152_episode_partial",
    "Waymax.C152_entering_step_partial",
    "Waymax.C152_entering_episode_partial",
    "Waymax.C152_log_divergence",
    "Waymax.C152_overlap",
    "Waymax.C152_kinematics",
    "Waymax.C152_wrong_way_partial",
    "Waymax.C152_off_route",
    "Waymax.C152_progression_partial",
    "Waymax.C152_offroad_partial",
    "Waymax.C152_expert",
    "Waymax.C152_expert_local",
    "Waymax.C152_expert_state",
    "Waymax.C152_rollout_partial",
    "Waymax.C152_expert_actor",
    "Waymax.C152_observation_partial",
    "Waymax.C152_sdc_observation_partial",
    "Waymax.C152_violated",
    "Waymax.C152_state_expert_leaks"
   ],
   "note": "C152_violated: the example scenario with another length stored before the object arrives. Recordings loaded from the dataset have one size per object at all steps, so for them only the altitude leaks: C152_entering_episode_partial covers episodes in which uncontrolled objects enter, when altitude and size agree. C152_state_expert_leaks is the second failure. The wrong-way and progression metrics are covered while the SDC is present (C152_wrong_way_partial, C152_progression_partial); off-road for present objects. Time stamps are required to be equal: a controlled object whose recording has ended keeps taking its time stamps from the absent entries."
  },
  {
   "property": "C153",
   "status": "partial",
   "theorems": [
    "Waymax.C153_log_divergence",
    "Waymax.C153_zero_at_log",
    "Waymax.C153_zero_only_at_log_partial",
    "Waymax.C153_uncontrolled",
    "Waymax.C153_state_replay",
    "Waymax.C153_delta_replay",
    "Waymax.C153_wrong_way",
    "Waymax.C153_off_route",
    "Waymax.C153_zero_only_at_log_violated",
    "Waymax.C153_threshold_violated"
   ],
   "note": "C153_zero_only_at_log_violated: a displacement of 2^-80 m. C153_threshold_violated: a distance just below 3.5 m that is computed as 3.5 m. C153_zero_only_at_log_partial has the bound that holds. Overflow is left out, as everywhere in the machine model."
  },
  {
   "property": "C154",
   "status": "partial",
   "theorems": [
    "Waymax.C154_accuracy",
    "Waymax.C154_numbers",
    "Waymax.C154_sign",
    "Waymax.C154_exact",
    "Waymax.C154_single",
    "Waymax.C154_order_partial",
    "Waymax.C154_order_violated"
   ],
   "note": "C154_order_violated: weights 2^25, 1, -2^25 on metrics that are 1. C154_order_partial has the bound that holds. Overflow is left out."
  },
  {
   "property": "C155",
   "status": "partial",
   "theorems": [
    "Waymax.C155_state_partial",
    "Waymax.C155_beyond_jax",
    "Waymax.C155_beyond_numpy",
    "Waymax.C155_single",
    "Waymax.C155_rejected",
    "Waymax.C155_brax_partial",
    "Waymax.C155_observation_partial",
    "Waymax.C155_observer",
    "Waymax.C155_observed_picture_partial",
    "Waymax.C155_violated"
   ],
   "note": "C155_violated: scenario number 7 of a batch of two JAX scenarios is drawn, as scenario 1; C155_beyond_jax and C155_beyond_numpy say what happens beyond the batch. The _partial theorems cover all indices that belong to a scenario."
  },
  {
   "property": "C156",
   "status": "partial",
   "theorems": [
    "Waymax.C156_objects",
    "Waymax.C156_roads",
    "Waymax.C156_lights",
    "Waymax.C156_distances",
    "Waymax.C156_observer_partial",
    "Waymax.C156_transform_trajectories_partial",
    "Waymax.C156_observer_rounded",
    "Waymax.C156_observer_violated",
    "Waymax.C156_transform_trajectories_violated",
    "Waymax.C156_numbers",
    "Waymax.C156_velocity_numbers",
    "Waymax.C156_nearest",
    "Waymax.C156_nearest_possible",
    "Waymax.C156_nearest_labels"
   ],
   "note": "C156_observer_violated: with fused products a car at x = 2^24 - 1 with heading 1/2 does not see itself at the origin; C156_observer_rounded: without fusing every observer does. C156_transform_trajectories_violated: seen from 16 km east of the origin a car moving at 2^-12 m/s stands still. Everything about observations other than the exact origin is proved in full."
  },
  {
   "property": "C157",
   "status": "partial",
   "theorems": [
    "Waymax.C157_fresh_keys",
    "Waymax.C157_keys_apart",
    "Waymax.C157_rollout_key_free",
    "Waymax.C157_planning_key_free",
    "Waymax.C157_builtin_actors",
    "Waymax.C157_agents_partial",
    "Waymax.C157_rollouts_do_not_vary_partial",
    "Waymax.C157_agents_violated"
   ],
   "note": "rollout calls env.reset(scenario) and env.step(state, action) without a key, so simulated agents of the planning environment are always started and stepped without a key, whatever key the rollout is given; a random simulated agent therefore cannot vary between rollouts. The rest of the property is proved."
  },
  {
   "property": "C158",
   "status": "partial",
   "theorems": [
    "Waymax.C158_no_overlap",
    "Waymax.C158_builtin",
    "Waymax.C158_episode",
    "Waymax.C158_log_divergence",
    "Waymax.C158_overlap",
    "Waymax.C158_wrong_way_exact",
    "Waymax.C158_off_route_exact",
    "Waymax.C158_route_partial",
    "Waymax.C158_planning_metric_exact",
    "Waymax.C158_planning_reward_exact",
    "Waymax.C158_planning_partial",
    "Waymax.C158_route_violated",
    "Waymax.C158_planning_violated"
   ],
   "note": "select_by_onehot multiplies all entries with the mask, and NaN or infinity times zero is NaN. One object with a broken position, even one marked as invalid, makes the wrong-way metric of the SDC invalid, turns its off-route metric into 0 and valid wherever the SDC is, and makes the planning environment's log divergence NaN; a valid one makes the planning environment's reward NaN. Trajectories, per-object log divergence and overlap are proved not to be affected."
  },
  {
   "property": "C159",
   "status": "partial",
   "theorems": [
    "Waymax.C159_log_divergence_partial",
    "Waymax.C159_wrong_way_partial",
    "Waymax.C159_off_route_exact",
    "Waymax.C159_overlap_exact",
    "Waymax.C159_violated",
    "Waymax.C159_overlap_violated"
   ],
   "note": "An SDC at NaN gets off-route 0 and valid, because comparisons with NaN are false, and any object with a broken pose gets overlap 0 and valid. Log divergence shows the fault and wrong-way is marked invalid, which is proved."
  },
  {
   "property": "C160",
   "status": "proved",
   "theorems": [
    "Waymax.C160_log_divergence",
    "Waymax.C160_wrong_way",
    "Waymax.C160_off_route",
    "Waymax.C160_overlap",
    "Waymax.C160_displacement",
    "Waymax.C160_reward",
    "Waymax.C160_overlap_metric",
    "Waymax.C160_log_divergence_accurate",
    "Waymax.C160_limit"
   ],
   "note": "Bounds: 2B+3 below the top exponent for distances, B+4 for boxes and displacements, for coordinates within 2^B."
  },
  {
   "property": "C161",
   "status": "partial",
   "theorems": [
    "Waymax.C161_others",
    "Waymax.C161_sdc_state",
    "Waymax.C161_sdc_delta_global",
    "Waymax.C161_sdc_delta_local",
    "Waymax.C161_replay",
    "Waymax.C161_log_divergence",
    "Waymax.C161_full_violated",
    "Waymax.C161_wrapped_succeeds",
    "Waymax.C161_object_actions_rejected",
    "Waymax.C161_plain_expert_fails"
   ],
   "note": "Violated part: the expert given the plain dynamics model instead of env.dynamics always raises. The bicycle model is excluded from tracking, see C30 and C31 for its inverse."
  },
  {
   "property": "C162",
   "status": "partial",
   "theorems": [
    "Waymax.C162_looks_along_log_partial",
    "Waymax.C162_ignores_others_partial",
    "Waymax.C162_default_ignores_route",
    "Waymax.C162_full_violated",
    "Waymax.C162_behind_violated"
   ],
   "note": "Violated by the default setting in both directions, and near the end of the log in one. Proved for lookahead_from_current_position=False: the reaction in full, the other half away from the end of the log."
  },
  {
   "property": "C163",
   "status": "partial",
   "theorems": [
    "Waymax.C163_velocity_partial",
    "Waymax.C163_ignores_position",
    "Waymax.C163_full_violated"
   ],
   "note": "The metric ignores positions, so jumps are feasible. Proved for the velocity; below 0.6 m/s for the speed only."
  },
  {
   "property": "C164",
   "status": "partial",
   "theorems": [
    "Waymax.C164_no_overflow",
    "Waymax.C164_infinite_acceleration",
    "Waymax.C164_infinite_steering",
    "Waymax.C164_no_nan_partial",
    "Waymax.C164_nan_acceleration",
    "Waymax.C164_nan_steering",
    "Waymax.C164_full_violated",
    "Waymax.C164_never_recovers",
    "Waymax.C164_rated_feasible"
   ],
   "note": "NaN is not clipped: it makes heading and velocity NaN for the rest of the episode, and the infeasibility metric says feasible. Proved for all actions without NaN."
  },
  {
   "property": "C165",
   "status": "partial",
   "theorems": [
    "Waymax.C165_off",
    "Waymax.C165_on",
    "Waymax.C165_agrees_partial",
    "Waymax.C165_full_violated"
   ],
   "note": "Rounding can flip the verdict within a stated tolerance, or far from the origin of the map; proved outside the tolerance."
  },
  {
   "property": "C166",
   "status": "partial",
   "theorems": [
    "Waymax.C166_nan_object",
    "Waymax.C166_others",
    "Waymax.C166_nan_road",
    "Waymax.C166_no_overflow",
    "Waymax.C166_infinite",
    "Waymax.C166_full_violated",
    "Waymax.C166_infinite_order"
   ],
   "note": "NaN poses are reported on the road and valid, and a single NaN road edge silences the metric for all objects. Proved: locality, exact behaviour, no overflow for moderate coordinates."
  },
  {
   "property": "C167",
   "status": "partial",
   "theorems": [
    "Waymax.C167_progression",
    "Waymax.C167_start_and_end",
    "Waymax.C167_agrees_partial",
    "Waymax.C167_progress_violated"
   ],
   "note": "Rounding can choose another path or point within a stated tolerance; far from the origin the progress can be off by 1. Proved up to that tolerance."
  },
  {
   "property": "C168",
   "status": "partial",
   "theorems": [
    "Waymax.C168_broken_position",
    "Waymax.C168_broken_path",
    "Waymax.C168_broken_log",
    "Waymax.C168_broken_arclength",
    "Waymax.C168_sees_only_sdc_partial",
    "Waymax.C168_padding",
    "Waymax.C168_no_overflow",
    "Waymax.C168_sees_only_sdc_violated"
   ],
   "note": "A NaN in the log of another object turns the progress of the car into 1, and a NaN position of another object makes it invalid. Proved: exact behaviour, locality while positions are finite, no overflow."
  },
  {
   "property": "C169",
   "status": "partial",
   "theorems": [
    "Waymax.C169_state",
    "Waymax.C169_deltaGlobal",
    "Waymax.C169_deltaLocal",
    "Waymax.C169_bicycle",
    "Waymax.C169_reset",
    "Waymax.C169_step_partial",
    "Waymax.C169_episode_partial",
    "Waymax.C169_state_step",
    "Waymax.C169_state_episode",
    "Waymax.C169_violated"
   ],
   "note": "Fails for a controlled object that enters the scene after the warm-up. Proved for all other scenarios, and for all scenarios when states are set directly."
  },
  {
   "property": "C170",
   "status": "proved",
   "theorems": [
    "Waymax.C170_log_divergence",
    "Waymax.C170_overlap",
    "Waymax.C170_kinematics",
    "Waymax.C170_wrong_way",
    "Waymax.C170_off_route",
    "Waymax.C170_progression",
    "Waymax.C170_offroad",
    "Waymax.C170_edge_not_reversed"
   ],
   "note": ""
  },
  {
   "property": "C171",
   "status": "partial",
   "theorems": [
    "Waymax.C171_state",
    "Waymax.C171_bicycle_partial",
    "Waymax.C171_displacement_partial",
    "Waymax.C171_local_partial",
    "Waymax.C171_violated"
   ],
   "note": "An exact half turn is always taken to the right, in the mirror too. Proved for all other logs."
  },
  {
   "property": "C172",
   "status": "proved",
   "theorems": [
    "Waymax.C172_idm_speed",
    "Waymax.C172_following",
    "Waymax.C172_idm",
    "Waymax.C172_constant_speed",
    "Waymax.C172_frozen",
    "Waymax.C172_claims"
   ],
   "note": ""
  },
  {
   "property": "C173",
   "status": "proved",
   "theorems": [
    "Waymax.C173_object",
    "Waymax.C173_sdc_frame",
    "Waymax.C173_sdc_observation"
   ],
   "note": ""
  },
  {
   "property": "C174",
   "status": "partial",
   "theorems": [
    "Waymax.C174_agents",
    "Waymax.C174_reset",
    "Waymax.C174_step_partial",
    "Waymax.C174_episode_partial",
    "Waymax.C174_violated"
   ],
   "note": "A car that starts near the placeholder coordinates (-1, -1) is not controlled by its agent; in the mirror it is. Proved when absent objects' boxes keep away and no object enters."
  },
  {
   "property": "C175",
   "status": "partial",
   "theorems": [
    "Waymax.C175_exact",
    "Waymax.C175_batched_partial",
    "Waymax.C175_sample",
    "Waymax.C175_names",
    "Waymax.C175_violated",
    "Waymax.C175_planning_exact",
    "Waymax.C175_planning_partial"
   ],
   "note": "reset sets the clock to a number without batch axes, so with batched data the clock is declared and delivered without them. Proved exactly: conformance holds iff there are no batch axes; all other arrays conform always. Element types are not modelled."
  },
  {
   "property": "C176",
   "status": "proved",
   "theorems": [
    "Waymax.C176_reset",
    "Waymax.C176_resume",
    "Waymax.C176_metrics",
    "Waymax.C176_rewards",
    "Waymax.C176_expert"
   ],
   "note": "Holds for every dynamics model and every configuration within the horizon. Sim agents, whose routes contain the past of the log, are not covered."
  },
  {
   "property": "C177",
   "status": "partial",
   "theorems": [
    "Waymax.C177_overlap",
    "Waymax.C177_pair",
    "Waymax.C177_offroad_partial",
    "Waymax.C177_offroad_violated"
   ],
   "note": "Overlap: proved in full. Off-road: false in general, since only the four corners are looked at; proved for convex road regions."
  },
  {
   "property": "C178",
   "status": "partial",
   "theorems": [
    "Waymax.C178_created",
    "Waymax.C178_accepts",
    "Waymax.C178_same_axes_partial",
    "Waymax.C178_exact",
    "Waymax.C178_violated",
    "Waymax.C178_metrics",
    "Waymax.C178_rows"
   ],
   "note": "masked_value lines up the flags with the last axes of the values, not with the first ones as create_and_validate and the documentation do. Proved: exactly which shapes work; metric results do."
  },
  {
   "property": "C179",
   "status": "partial",
   "theorems": [
    "Waymax.C179_reset",
    "Waymax.C179_steps",
    "Waymax.C179_episode",
    "Waymax.C179_metrics",
    "Waymax.C179_kinematic",
    "Waymax.C179_progression_partial",
    "Waymax.C179_progression_violated"
   ],
   "note": "Proved for reset, steps and all metrics other than the progress along the route, which depends on the first and the last logged position; proved there for cuts that keep these positions."
  },
  {
   "property": "C180",
   "status": "partial",
   "theorems": [
    "Waymax.C180_pose_partial",
    "Waymax.C180_hidden_exact",
    "Waymax.C180_own_exact",
    "Waymax.C180_violated"
   ],
   "note": "Broken poses and absent objects are ignored (C180_pose_partial). A NaN velocity is not ignored: it hides other objects (C180_hidden_exact, C180_violated). Missing from the full property: objects with a NaN velocity."
  },
  {
   "property": "C181",
   "status": "proved",
   "theorems": [
    "Waymax.C181_bounded"
   ],
   "note": "Proved for any state of the other objects; the agent's own speed must be finite, else the new speed is NaN (C180_own_exact)."
  },
  {
   "property": "C182",
   "status": "partial",
   "theorems": [
    "Waymax.C182_metrics",
    "Waymax.C182_kinematic_partial",
    "Waymax.C182_env_metrics",
    "Waymax.C182_first_step_exact",
    "Waymax.C182_after_reset",
    "Waymax.C182_single_step",
    "Waymax.C182_violated"
   ],
   "note": "Proved for six metrics at all steps and for the kinematic metric from the second step on. Violated at the first step by the kinematic metric (C182_first_step_exact, C182_violated)."
  },
  {
   "property": "C183",
   "status": "partial",
   "theorems": [
    "Waymax.C183_brax",
    "Waymax.C183_dm",
    "Waymax.C183_reset_metrics_partial",
    "Waymax.C183_step_metrics_exact",
    "Waymax.C183_dm_base",
    "Waymax.C183_violated"
   ],
   "note": "States, observations, rewards and step types proved for every environment. The expectation on Brax metrics is violated by the code (`C183_violated`); exact behaviour in `C183_brax` and `C183_step_metrics_exact`."
  },
  {
   "property": "C184",
   "status": "partial",
   "theorems": [
    "Waymax.C184_resets_exact",
    "Waymax.C184_stream_partial",
    "Waymax.C184_independent",
    "Waymax.C184_first_skipped",
    "Waymax.C184_violated"
   ],
   "note": "Proved from the second scenario on (`C184_stream_partial`); the first scenario is taken by the constructor and never played (`C184_violated`)."
  },
  {
   "property": "C185",
   "status": "partial",
   "theorems": [
    "Waymax.C185_reset",
    "Waymax.C185_step",
    "Waymax.C185_episode",
    "Waymax.C185_expert",
    "Waymax.C185_dynamics",
    "Waymax.C185_metrics",
    "Waymax.C185_env_metrics",
    "Waymax.C185_reward",
    "Waymax.C185_rollout",
    "Waymax.C185_agents",
    "Waymax.C185_plan_reset",
    "Waymax.C185_plan_step",
    "Waymax.C185_plan_episode",
    "Waymax.C185_plan_metrics",
    "Waymax.C185_plan_reward",
    "Waymax.C185_observation",
    "Waymax.C185_marks_violated",
    "Waymax.C185_marks_exact"
   ],
   "note": "Independence of all labels is proved in full; the documented meaning of the control mark fails (`C185_marks_violated`)."
  },
  {
   "property": "C186",
   "status": "proved",
   "theorems": [
    "Waymax.C186_reset",
    "Waymax.C186_step",
    "Waymax.C186_episode",
    "Waymax.C186_expert",
    "Waymax.C186_ends",
    "Waymax.C186_dynamics",
    "Waymax.C186_metrics",
    "Waymax.C186_env_metrics",
    "Waymax.C186_reward",
    "Waymax.C186_rollout",
    "Waymax.C186_agents",
    "Waymax.C186_plan_reset",
    "Waymax.C186_plan_step",
    "Waymax.C186_plan_episode",
    "Waymax.C186_plan_metrics",
    "Waymax.C186_plan_reward",
    "Waymax.C186_observation"
   ],
   "note": "Proved for all built-in dynamics, metrics and agents, and for user-defined ones that do not read the passive fields."
  },
  {
   "property": "C187",
   "status": "partial",
   "theorems": [
    "Waymax.C187_reset",
    "Waymax.C187_step",
    "Waymax.C187_episode",
    "Waymax.C187_expert",
    "Waymax.C187_object_metrics",
    "Waymax.C187_sdc_metrics",
    "Waymax.C187_overlap",
    "Waymax.C187_idm_partial",
    "Waymax.C187_violated"
   ],
   "note": "Violated for the IDM agent: a fast car that cuts in before a stopped car makes the agent faster (C187_violated). Proved without restriction for the simulation, the expert and the metrics; the agent part holds when added objects met on the way are no faster than the old ones met on the way (C187_idm_partial)."
  },
  {
   "property": "C188",
   "status": "partial",
   "theorems": [
    "Waymax.C188_warmup_partial",
    "Waymax.C188_future_partial",
    "Waymax.C188_replay",
    "Waymax.C188_violated",
    "Waymax.C188_presence_violated"
   ],
   "note": "Violated: z and sizes are not replayed (C188_violated), and without injection entering objects are lost (C188_presence_violated). Proved: poses, velocities, stamps and everything else agree (C188_replay); full equality incl. the future when z, sizes and presence do not change (C188_warmup_partial, C188_future_partial)."
  },
  {
   "property": "C189",
   "status": "proved",
   "theorems": [
    "Waymax.C189_discrete_expert_global",
    "Waymax.C189_discrete_expert_local",
    "Waymax.C189_log_divergence_global",
    "Waymax.C189_log_divergence_local"
   ],
   "note": "Expert rollouts of the discretised DeltaGlobal and DeltaLocal. Real arithmetic. The heading bound must be at least pi (the default)."
  },
  {
   "property": "C190",
   "status": "partial",
   "theorems": [
    "Waymax.C190_labels_replay_log",
    "Waymax.C190_drift_partial",
    "Waymax.C190_drift_attained",
    "Waymax.C190_violated"
   ],
   "note": "Violated for discretised labels (C190_violated; the drift of C190_drift_attained). Proved: exact replay without discretisation (C190_labels_replay_log), drift of at most half a bin per label (C190_drift_partial)."
  },
  {
   "property": "C191",
   "status": "partial",
   "theorems": [
    "Waymax.C191_step_partial",
    "Waymax.C191_idm_step_partial",
    "Waymax.C191_same_route",
    "Waymax.C191_parked_car",
    "Waymax.C191_violated"
   ],
   "note": "Violated by the default IDM agent (C191_violated; C191_parked_car gives the two velocities). Proved: equal steps for any way-point following agent when the routes are the same (C191_step_partial, C191_idm_step_partial), and when they are (C191_same_route)."
  },
  {
   "property": "C192",
   "status": "proved",
   "theorems": [
    "Waymax.C192_no_collision",
    "Waymax.C192_end_of_route"
   ],
   "note": "C192_no_collision for episodes of any length; C192_end_of_route shows what happens where the route is at its end."
  },
  {
   "property": "C193",
   "status": "proved",
   "theorems": [
    "Waymax.C193_following",
    "Waymax.C193_waits",
    "Waymax.C193_stalled_leader"
   ],
   "note": "C193_following, for one leader and episodes of any length. C193_stalled_leader shows that the condition on the leader's velocity is needed."
  }
 ]
}