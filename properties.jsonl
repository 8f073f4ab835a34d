{"id": "C01", "title": "Reset starts from the log alone", "statement": "BaseEnvironment.reset(state) returns a state whose timestep is init_steps-1, whose simulated trajectory equals the logged trajectory on every step t < init_steps and is the invalid placeholder (validity False, numbers -1) on every later step, and whose log, metadata, road graph and traffic lights are those of the input. The result depends neither on the input's simulated trajectory nor on its timestep, so resetting twice, or resetting at any point of an episode, gives the same state.", "quantifier": "every scenario state (any simulated trajectory, any timestep), every number of objects, every horizon T and every init_steps <= T", "why_tests_cant": "A test resets a handful of scenarios; independence of the old simulated trajectory is a statement about all pairs of states.", "anchors": ["waymax/env/base_environment.py:BaseEnvironment.reset", "waymax/datatypes/simulator_state.py:update_state_by_log", "waymax/datatypes/object_state.py:fill_invalid_trajectory"]}
{"id": "C02", "title": "Reset rejects mis-sized scenarios", "statement": "BaseEnvironment.reset fails when the scenario's object count differs from the configured max_num_objects, and fails when init_steps exceeds the number of logged steps; in every other case it succeeds.", "quantifier": "every configuration and every scenario shape", "why_tests_cant": "The set of mismatching shapes is infinite; tests try one.", "anchors": ["waymax/env/base_environment.py:BaseEnvironment.reset", "waymax/datatypes/operations.py:dynamic_slice"]}
{"id": "C03", "title": "Simulated history is never rewritten", "statement": "While the episode is not done, one env.step changes the simulated trajectory only at step timestep+1. Hence after any sequence of steps inside the episode, all simulated entries at or before an earlier timestep are exactly what they were at that time.", "quantifier": "every state, every dynamics model, every control mask, every sequence of actions of any length inside the horizon", "why_tests_cant": "Needs induction over all action sequences; tests run a few fixed rollouts.", "anchors": ["waymax/env/base_environment.py:BaseEnvironment.step", "waymax/dynamics/abstract_dynamics.py:apply_trajectory_update_to_state", "waymax/datatypes/operations.py:update_by_slice_in_dim"]}
{"id": "C04", "title": "Log, metadata and map are immutable", "statement": "No sequence of env.step calls changes the logged trajectory, the object metadata, the road graph, the traffic lights or the SDC paths of the state.", "quantifier": "every state, every dynamics, every finite sequence of actions, before and after the end of the episode", "why_tests_cant": "A statement about every history.", "anchors": ["waymax/env/base_environment.py:BaseEnvironment.step", "waymax/dynamics/abstract_dynamics.py:DynamicsModel.forward"]}
{"id": "C05", "title": "Time advances by exactly one step", "statement": "Each env.step increments timestep by exactly one; after reset and k steps timestep = init_steps-1+k, remaining_timesteps = T-init_steps-k and the episode is done (is_done, and env.truncation) exactly when k >= T-init_steps. is_done, truncation and remaining_timesteps<1 agree in every state; termination is always False.", "quantifier": "every k, every T, every init_steps >= 1, every action sequence, every state", "why_tests_cant": "Quantifies over all lengths of episodes.", "anchors": ["waymax/datatypes/simulator_state.py:SimulatorState.is_done", "waymax/datatypes/simulator_state.py:SimulatorState.remaining_timesteps", "waymax/env/abstract_environment.py:AbstractEnvironment.truncation", "waymax/env/abstract_environment.py:AbstractEnvironment.termination"]}
{"id": "C06", "title": "Controlled objects obey the dynamics, all others follow the log", "statement": "After env.step inside the episode, at the new timestep a controlled object's x, y, yaw, vel_x, vel_y are the dynamics model's update and every other object's are the logged values of that step; the time stamp is the logged one for every object.", "quantifier": "every state inside the horizon, every dynamics, every action, every control mask", "why_tests_cant": "All masks and all states; tests use fixed masks.", "anchors": ["waymax/dynamics/abstract_dynamics.py:apply_trajectory_update_to_state", "waymax/env/base_environment.py:BaseEnvironment._get_control_mask"]}
{"id": "C07", "title": "Without object injection nothing appears and controlled objects never vanish", "statement": "With allow_new_objects_after_warmup=False: along any episode no invalid object ever becomes valid; a controlled object that is valid stays valid for the whole episode; an uncontrolled object is valid at step t iff it was valid at the start of the simulation and its log was valid at all simulated steps up to t.", "quantifier": "every episode of every length, every action sequence, every object", "why_tests_cant": "An invariant of unbounded histories.", "anchors": ["waymax/dynamics/abstract_dynamics.py:apply_trajectory_update_to_state", "waymax/config.py:EnvironmentConfig.allow_new_objects_after_warmup"]}
{"id": "C08", "title": "With object injection, uncontrolled objects are present exactly when logged", "statement": "With allow_new_objects_after_warmup=True an uncontrolled object is valid after a step iff it is valid in the log at that step, and an object that is not currently simulated takes its validity from the log whether or not it is controlled.", "quantifier": "every state, every action sequence", "why_tests_cant": "Universal over states and logs.", "anchors": ["waymax/dynamics/abstract_dynamics.py:apply_trajectory_update_to_state"]}
{"id": "C09", "title": "An object that appears starts at its logged pose", "statement": "When object injection brings an object into the simulation, its pose at its first simulated step is its logged pose (there is no earlier simulated pose to start from).", "quantifier": "every state, every control mask, every action", "why_tests_cant": "The failing case needs a controlled object that is not yet present; no test has one.", "anchors": ["waymax/dynamics/abstract_dynamics.py:apply_trajectory_update_to_state", "waymax/config.py:EnvironmentConfig.allow_new_objects_after_warmup"]}
{"id": "C10", "title": "The set of controlled objects is fixed for the episode", "statement": "Inside one episode the control mask used by env.step is the same at every step, for every controlled_object setting and both injection settings, whatever the actions.", "quantifier": "every episode, every action sequence, every configuration with init_steps >= 1", "why_tests_cant": "For VALID control the mask is recomputed from the (changing) simulated trajectory at each step, so constancy needs the history invariant.", "anchors": ["waymax/env/base_environment.py:BaseEnvironment._get_control_mask", "waymax/datatypes/simulator_state.py:get_control_mask"]}
{"id": "C11", "title": "Actions marked invalid fall back", "statement": "As env.step documents, an object whose action has valid=False is not moved by the action data: it falls back to the default behaviour.", "quantifier": "every state, every action", "why_tests_cant": "Tests never step an object with an invalid action whose data differs from the log.", "anchors": ["waymax/env/base_environment.py:BaseEnvironment.step", "waymax/dynamics/abstract_dynamics.py:DynamicsModel.forward", "waymax/dynamics/abstract_dynamics.py:apply_trajectory_update_to_state"]}
{"id": "C12", "title": "Uncontrolled objects replay every logged field", "statement": "After a step, an uncontrolled valid object's complete simulated state (position including z, box size, velocity, heading, validity, time stamp) equals the log.", "quantifier": "every state, every log, every episode", "why_tests_cant": "Tests use logs in which z and the box size look constant.", "anchors": ["waymax/dynamics/abstract_dynamics.py:apply_trajectory_update_to_state"]}
{"id": "C13", "title": "Expert actions reproduce the log", "statement": "Rolling out the log-replaying expert with StateDynamics from reset reproduces, at every step of the horizon, the logged x, y, yaw, velocities and time stamps of every object, whatever set of objects is controlled.", "quantifier": "every log, every control mask, every number of steps", "why_tests_cant": "Induction over the whole rollout for every log.", "anchors": ["waymax/agents/expert.py:infer_expert_action", "waymax/agents/expert.py:create_expert_actor", "waymax/dynamics/state_dynamics.py:StateDynamics", "waymax/env/rollout.py:rollout"]}
{"id": "C14", "title": "A rollout is the iteration of env.step", "statement": "rollout(scenario, actor, env, rng, n) returns n+1 entries: entry 0 is env.reset(scenario); entry k+1's state is env.step applied to entry k's state and entry k's action; entry k's observation, metrics and reward (k<n) are those of entry k's state and action; the final entry's action is padding of zeros with the reward and metrics of the final state.", "quantifier": "every environment, actor, rng, number of steps n >= 1", "why_tests_cant": "Any n; tests use one n.", "anchors": ["waymax/env/rollout.py:rollout"]}
{"id": "C15", "title": "Rollouts are prefix-stable", "statement": "A rollout of n steps agrees with a rollout of m > n steps from the same scenario, actor and rng on the first n entries and on the n-th state: asking for more steps never changes earlier ones.", "quantifier": "every n < m, environment, actor, rng", "why_tests_cant": "Quantifies over pairs of lengths.", "anchors": ["waymax/env/rollout.py:rollout"]}
{"id": "C16", "title": "Stepping past the end", "statement": "Calling env.step on a done state leaves the recorded trajectory alone.", "quantifier": "every done state, every action", "why_tests_cant": "No test steps a finished episode of the raw environment.", "anchors": ["waymax/env/base_environment.py:BaseEnvironment.step", "waymax/dynamics/abstract_dynamics.py:apply_trajectory_update_to_state", "waymax/datatypes/operations.py:update_by_slice_in_dim"]}
{"id": "C17", "title": "Brax wrapper reports the episode", "statement": "BraxWrapper.step advances the wrapped state exactly like env.step, reports the reward and the metrics of the state that was stepped from, reports done iff the new state is terminated or truncated, and a discount of 1 unless terminated. Over an episode, done is first reported after exactly T-init_steps steps.", "quantifier": "every scenario, every action sequence", "why_tests_cant": "All episode lengths.", "anchors": ["waymax/env/wrappers/brax_wrapper.py:BraxWrapper.step", "waymax/env/wrappers/brax_wrapper.py:BraxWrapper.reset"]}
{"id": "C18", "title": "Brax reset reports done for an already finished scenario", "statement": "The time step returned by BraxWrapper.reset has done=True iff the reset state is terminated or truncated.", "quantifier": "every scenario and configuration", "why_tests_cant": "Needs a scenario with no step left.", "anchors": ["waymax/env/wrappers/brax_wrapper.py:BraxWrapper.reset"]}
{"id": "C19", "title": "DMEnv wrapper call protocol", "statement": "For DMEnvWrapper: step before the first reset and step after the end of an episode raise and change nothing; after a successful reset exactly T-init_steps calls of step succeed, all but the last returning MID and the last returning LAST, after which step raises until the next reset; rewards and observations are those of the underlying environment.", "quantifier": "every sequence of reset/step calls of any length, every stream of scenarios", "why_tests_cant": "A protocol property of unbounded call histories.", "anchors": ["waymax/env/wrappers/dm_env_wrapper.py:DMEnvWrapper.step", "waymax/env/wrappers/dm_env_wrapper.py:DMEnvWrapper.reset", "waymax/env/errors.py"]}
{"id": "C20", "title": "A failed DMEnv reset does not start an episode", "statement": "If DMEnvWrapper.reset raises because the new scenario is already finished, step keeps being rejected until a reset succeeds.", "quantifier": "every call history containing a failing reset", "why_tests_cant": "Needs a specific fault in the middle of a call sequence.", "anchors": ["waymax/env/wrappers/dm_env_wrapper.py:DMEnvWrapper.reset", "waymax/env/wrappers/dm_env_wrapper.py:DMEnvWrapper.step"]}
{"id": "C21", "title": "Yaw wrapping", "statement": "wrap_yaws returns, for every angle, the unique angle in [-pi, pi) that differs from it by a multiple of 2*pi; it is idempotent, 2*pi-periodic, never increases the absolute value, and leaves angles already in range unchanged.", "quantifier": "every real angle", "why_tests_cant": "An uncountable domain.", "anchors": ["waymax/utils/geometry.py:wrap_yaws"]}
{"id": "C22", "title": "Frame changes are rigid motions", "statement": "Transforming points with the pose matrix built from an ego pose preserves distances, sends the ego position to the origin and the ego heading to zero, and is undone by the inverse matrix; direction vectors are rotated without translation and keep their length; velocities keep their norm.", "quantifier": "every pose and every point", "why_tests_cant": "All real poses.", "anchors": ["waymax/utils/geometry.py:pose_from_xy_yaw", "waymax/utils/geometry.py:transform_points", "waymax/utils/geometry.py:transform_direction", "waymax/datatypes/observation.py:ObjectPose2D"]}
{"id": "C23", "title": "Combining poses", "statement": "combine_two_object_pose_2d(src, dst) is a frame change that sends src-frame coordinates of any global point to its dst-frame coordinates; its yaw difference is the difference of headings, it is valid iff both are, and combining is compatible with composition.", "quantifier": "all pairs of poses, all points", "why_tests_cant": "All real poses.", "anchors": ["waymax/datatypes/observation.py:combine_two_object_pose_2d"]}
{"id": "C24", "title": "Bounding-box corners", "statement": "The four corners returned for a box (x,y,length,width,yaw) are the vertices, in counter-clockwise order, of the rectangle centred at (x,y) with sides length and width and heading yaw: their mean is the centre, opposite corners are symmetric about it, side lengths are length and width, and signed area is length*width.", "quantifier": "every box", "why_tests_cant": "All real boxes.", "anchors": ["waymax/utils/geometry.py:corners_from_bbox", "waymax/utils/geometry.py:rotation_matrix_2d"]}
{"id": "C25", "title": "Box overlap test is exact", "statement": "has_overlap(a, b) is True iff the two oriented rectangles share an interior point; boxes that merely touch do not overlap.", "quantifier": "all pairs of boxes with arbitrary real pose and size", "why_tests_cant": "A geometric equivalence over a continuum (the separating axis theorem).", "anchors": ["waymax/utils/geometry.py:has_overlap"]}
{"id": "C26", "title": "Overlap is symmetric and frame independent", "statement": "has_overlap(a,b) = has_overlap(b,a), it is unchanged when both boxes undergo the same translation and rotation, when a heading changes by 2*pi or pi, and compute_pairwise_overlaps is a symmetric matrix with False diagonal whose off-diagonal entries are has_overlap.", "quantifier": "all boxes, all rigid motions, any number of boxes", "why_tests_cant": "All real boxes and all motions.", "anchors": ["waymax/utils/geometry.py:has_overlap", "waymax/utils/geometry.py:compute_pairwise_overlaps"]}
{"id": "C27", "title": "Overlap metric", "statement": "The overlap metric of an object is 1 iff its current box overlaps the current box of some other valid object and 0 otherwise; invalid objects cause no overlap; the entry is valid iff the object is valid.", "quantifier": "every state and any number of objects", "why_tests_cant": "Any number of objects.", "anchors": ["waymax/metrics/overlap.py:OverlapMetric"]}
{"id": "C28", "title": "Delta actions round trip (global frame)", "statement": "If both steps are valid and the displacement and heading change lie within the action bounds, applying DeltaGlobal's inverse action to the first step yields exactly the second step's x, y, and heading up to a multiple of 2*pi. The inverse action always lies within the x/y bounds and the action spec, and is zero and invalid when either step is invalid.", "quantifier": "every pair of consecutive states, every bound", "why_tests_cant": "Continuum of states.", "anchors": ["waymax/dynamics/delta.py:DeltaGlobal.compute_update", "waymax/dynamics/delta.py:DeltaGlobal.inverse"]}
{"id": "C29", "title": "Delta actions round trip (local frame)", "statement": "For DeltaLocal, applying the inverse action to the first step yields exactly the second step's position and heading up to 2*pi whenever the displacement is within bounds, and an in-spec action is recovered by the inverse.", "quantifier": "every pair of consecutive states", "why_tests_cant": "Continuum of states.", "anchors": ["waymax/dynamics/delta.py:DeltaLocal.compute_update", "waymax/dynamics/delta.py:DeltaLocal.inverse"]}
{"id": "C30", "title": "Bicycle model respects its limits", "statement": "For InvertibleBicycleModel and any action (also out of range): the new velocity is parallel to the new heading; speed changes by at most max_accel*dt; the heading changes by at most max_steering*(distance bound); the heading stays in [-pi, pi) and with zero acceleration and steering a vehicle whose velocity matches its heading continues in a straight line at constant speed.", "quantifier": "every state, every action, every parameter setting with nonnegative limits", "why_tests_cant": "Continuum of states and actions.", "anchors": ["waymax/dynamics/bicycle_model.py:InvertibleBicycleModel.compute_update"]}
{"id": "C31", "title": "Bicycle model inverse", "statement": "Inverting a transition produced by InvertibleBicycleModel returns the action that produced it, for in-range actions, whenever both speeds exceed the low-speed cut-off, the heading change is below pi and one step of full acceleration (max_accel*dt) is below twice the cut-off; below the cut-off the returned steering is 0; the inverse action always lies in the action spec.", "quantifier": "every state and in-range action", "why_tests_cant": "Continuum of states and actions.", "anchors": ["waymax/dynamics/bicycle_model.py:InvertibleBicycleModel.inverse", "waymax/dynamics/bicycle_model.py:compute_inverse"]}
{"id": "C32", "title": "Bicycle rollouts are kinematically feasible", "statement": "The kinematic infeasibility metric is 0 or 1 and equals 1 iff the inferred acceleration or steering exceeds its threshold; a transition produced by the bicycle model with the same time step and limits not above the metric's (and one step of full acceleration below twice the low-speed cut-off) is never flagged.", "quantifier": "every state, every action", "why_tests_cant": "Continuum of states and actions.", "anchors": ["waymax/metrics/comfort.py:KinematicsInfeasibilityMetric", "waymax/dynamics/bicycle_model.py:compute_inverse"]}
{"id": "C33", "title": "Discretizer", "statement": "Discretizer maps every continuous action to an index in [0, prod(bins+1)), every index back to a continuous action inside [min,max]; index -> continuous -> index is the identity; continuous -> index -> continuous moves each in-range coordinate by at most half a bin width; distinct indices give distinct actions.", "quantifier": "every dimension count, every bin vector, every bounds, every action", "why_tests_cant": "All bin configurations.", "anchors": ["waymax/dynamics/discretizer.py:Discretizer.discretize", "waymax/dynamics/discretizer.py:Discretizer.make_continuous"]}
{"id": "C34", "title": "Discrete action space wrapper", "statement": "Every action allowed by DiscreteActionSpaceWrapper's action spec is executed as a continuous action inside the wrapped dynamics' spec with validity unchanged, and bin-inverse returns an index within the discrete spec.", "quantifier": "every discrete action, every state", "why_tests_cant": "All bin configurations.", "anchors": ["waymax/dynamics/discretizer.py:DiscreteActionSpaceWrapper"]}
{"id": "C35", "title": "Inverse action by search is optimal", "statement": "With search-based inversion the discrete action returned for an object is one whose resulting box is closest (root of the summed squared corner distances) to the logged next box among all discrete actions.", "quantifier": "every state, every object, every discretisation", "why_tests_cant": "All states and any number of bins.", "anchors": ["waymax/dynamics/discretizer.py:inverse_action_by_search"]}
{"id": "C36", "title": "Log divergence", "statement": "The log divergence of an object is the Euclidean distance between its simulated and logged position at the current step, valid iff both are valid; it is 0 iff the positions coincide, and it is 0 throughout for objects that follow the log.", "quantifier": "every state", "why_tests_cant": "Continuum of positions.", "anchors": ["waymax/metrics/imitation.py:LogDivergenceMetric"]}
{"id": "C37", "title": "Wrong-way metric", "statement": "sdc_wrongway is 0 when some valid path point is closer than 3.5 m to the SDC and otherwise the distance to the nearest valid path point; it is invalid exactly when there is no valid path point.", "quantifier": "every state, any number of paths and points", "why_tests_cant": "Any number of path points.", "anchors": ["waymax/metrics/roadgraph.py:WrongWayMetric"]}
{"id": "C38", "title": "Off-route metric", "statement": "sdc_off_route is the distance to the closest valid on-route point if that exceeds 5 m or exceeds the distance to the closest valid off-route point by more than 2 m, and 0 otherwise; if no valid on-route point exists it is invalid and 0.", "quantifier": "every state, any paths", "why_tests_cant": "Any number of path points, including none valid.", "anchors": ["waymax/metrics/route.py:OffRouteMetric"]}
{"id": "C39", "title": "Progression metric", "statement": "sdc_progression measures progress along the on-route path that is closest to the SDC's current position: with arc(p) the arc length of that path's valid point closest to p, it is (arc(current)-arc(log start))/(arc(log end)-arc(log start)), or 1 if the two log arcs coincide; so it is 1 at the logged end and 0 (or 1) at the logged start. It is 0 and invalid when the SDC is invalid or no on-route point is valid. As documented, it is never negative.", "quantifier": "every state, any number of paths and points", "why_tests_cant": "Continuum of positions.", "anchors": ["waymax/metrics/route.py:ProgressionMetric"]}
{"id": "C40", "title": "Off-road metric", "statement": "offroad is 1 for an object iff some box corner lies on the off-road side (signed distance > 0) of its nearest valid road-edge point, else 0.", "quantifier": "every state, any number of road points", "why_tests_cant": "Any number of road-graph points.", "anchors": ["waymax/metrics/roadgraph.py:OffroadMetric", "waymax/metrics/roadgraph.py:is_offroad", "waymax/metrics/roadgraph.py:compute_signed_distance_to_nearest_road_edge_point"]}
{"id": "C41", "title": "Linear reward", "statement": "The reward is the weighted sum of metric values with invalid metric entries counted as 0; objects outside the agent mask get 0; it is additive in the weights and independent of the action.", "quantifier": "every reward configuration, every state, every mask", "why_tests_cant": "All weight dictionaries.", "anchors": ["waymax/rewards/linear_combination_reward.py:LinearCombinationReward", "waymax/datatypes/array.py:MaskedArray.masked_value"]}
{"id": "C42", "title": "Metric registry", "statement": "Registering a metric under a new name makes exactly that name available and changes no other; registering a taken name is rejected and changes nothing; run_metrics returns exactly the configured metrics and fails iff one is unknown. A reward whose construction succeeded never fails later because of an unknown metric, whatever is registered in between.", "quantifier": "every sequence of registrations and queries", "why_tests_cant": "Arbitrary registration histories.", "anchors": ["waymax/metrics/metric_factory.py:register_metric", "waymax/metrics/metric_factory.py:run_metrics", "waymax/rewards/linear_combination_reward.py:_validate_reward_metrics"]}
{"id": "C43", "title": "Selecting the SDC", "statement": "select_by_onehot returns exactly the entry of the single marked object (for numbers and booleans); PlanningAgentEnvironment metrics for the SDC are therefore the full metrics' SDC entries.", "quantifier": "any number of objects, any position of the SDC", "why_tests_cant": "Any number of objects.", "anchors": ["waymax/datatypes/operations.py:select_by_onehot", "waymax/env/planning_agent_environment.py:PlanningAgentEnvironment.metrics"]}
{"id": "C44", "title": "Merging actors", "statement": "merge_actions gives each object the action of the last actor that controls it; objects nobody controls get the first actor's action; if no two actors control the same object the result on controlled objects does not depend on the order of actors; an empty list is rejected.", "quantifier": "every number of actors, every mask", "why_tests_cant": "All permutations of any number of actors.", "anchors": ["waymax/agents/actor_core.py:merge_actions"]}
{"id": "C45", "title": "Planning environment: who moves each object", "statement": "In PlanningAgentEnvironment.step each object is moved by the last sim agent that claims it and is allowed to control it, otherwise the SDC by the planner's action and all others by the log; objects that overlap another object in the initial logged frame are never moved by sim agents.", "quantifier": "every list of sim agents, every state, every action", "why_tests_cant": "All agent lists and masks.", "anchors": ["waymax/env/planning_agent_environment.py:PlanningAgentEnvironment.step", "waymax/env/planning_agent_environment.py:_initialized_overlap"]}
{"id": "C46", "title": "Planning environment with no sim agents", "statement": "With no sim agents PlanningAgentEnvironment.step equals stepping the underlying dynamics with only the SDC controlled.", "quantifier": "every dynamics, state and action", "why_tests_cant": "All states.", "anchors": ["waymax/env/planning_agent_environment.py:PlanningAgentEnvironment.step", "waymax/env/planning_agent_environment.py:PlanningAgentDynamics"]}
{"id": "C47", "title": "IDM speeds are safe and bounded", "statement": "The IDM agent never commands a negative speed and never accelerates beyond max_accel; with no lead vehicle and speed at or below the desired velocity it does not decelerate, and its free-flow acceleration is zero exactly at the desired velocity.", "quantifier": "every state, every parameter setting", "why_tests_cant": "Continuum of states.", "anchors": ["waymax/agents/waypoint_following_agent.py:IDMRoutePolicy.update_speed", "waymax/agents/waypoint_following_agent.py:IDMRoutePolicy._get_accel"]}
{"id": "C48", "title": "IDM lead vehicle", "statement": "The lead velocity used by IDM is the smallest speed among the objects met at the first colliding way point ahead, and the lead distance is the straight-line distance to the nearest colliding way point; the acceleration is the IDM formula for that speed and gap; without any collision no interaction term is used. By default the way points are those straight ahead of the object.", "quantifier": "any number of objects and way points", "why_tests_cant": "Any sizes.", "anchors": ["waymax/agents/waypoint_following_agent.py:IDMRoutePolicy._compute_lead_velocity", "waymax/agents/waypoint_following_agent.py:IDMRoutePolicy._compute_lead_distance"]}
{"id": "C49", "title": "Constant-speed agent", "statement": "The constant speed policy keeps each agent's speed at its set value until the end of its route; the constant speed actor moves its objects in a straight line at the set or the current speed for any number of steps.", "quantifier": "every state", "why_tests_cant": "All states.", "anchors": ["waymax/agents/constant_speed.py:ConstantSpeedPolicy", "waymax/agents/constant_speed.py:create_constant_speed_actor"]}
{"id": "C50", "title": "Observation window shows only the past", "statement": "For a validated configuration, the observation after reset and any number of steps inside the horizon contains exactly the obs_num_steps most recent simulated steps ending at the current one, oldest first, and traffic lights for the same steps: no later step is visible.", "quantifier": "every configuration accepted by EnvironmentConfig, every reachable state", "why_tests_cant": "All window lengths and all reachable states.", "anchors": ["waymax/datatypes/observation.py:global_observation_from_state", "waymax/config.py:EnvironmentConfig.__post_init__"]}
{"id": "C51", "title": "is_ego marks the observing object", "statement": "In observation_from_state's output, is_ego[i,j] is True iff j = i.", "quantifier": "any number of objects", "why_tests_cant": "Tests do not check is_ego for more than one object.", "anchors": ["waymax/datatypes/observation.py:observation_from_state"]}
{"id": "C52", "title": "Observations are in one frame", "statement": "transform_observation re-expresses every geometric part of the observation (trajectory, road graph, traffic lights, SDC paths) in the new frame.", "quantifier": "every observation and pose", "why_tests_cant": "All poses.", "anchors": ["waymax/datatypes/observation.py:transform_observation"]}
{"id": "C53", "title": "Road-graph filtering keeps the nearest points", "statement": "filter_topk_roadgraph_points returns topk points such that no discarded valid point is strictly closer than a kept one, keeps all fields of each point together and returns everything when topk equals the number of points.", "quantifier": "every point set, every topk, every reference", "why_tests_cant": "All point sets.", "anchors": ["waymax/datatypes/roadgraph.py:filter_topk_roadgraph_points"]}
{"id": "C54", "title": "Road-graph ids survive filtering", "statement": "The integer ids and types of kept points are unchanged by filter_topk_roadgraph_points.", "quantifier": "every integer id", "why_tests_cant": "Tests use small ids.", "anchors": ["waymax/datatypes/roadgraph.py:filter_topk_roadgraph_points"]}
{"id": "C55", "title": "Sharded file names", "statement": "generate_sharded_filenames('prefix@n') yields exactly n distinct names, in increasing order, of equal length, each naming its own shard index and the total.", "quantifier": "every n >= 1, every prefix", "why_tests_cant": "All n.", "anchors": ["waymax/dataloader/dataloader_utils.py:generate_sharded_filenames"]}
{"id": "C56", "title": "Distributed reading covers every file once", "statement": "Over all processes and all local shards every input file is read by exactly one (process, shard) pair.", "quantifier": "every number of files, processes and shards; every file permutation", "why_tests_cant": "All sizes.", "anchors": ["waymax/dataloader/dataloader_utils.py:tf_examples_dataset"]}
{"id": "C57", "title": "num_shards has no effect on the data returned", "statement": "The multiset of examples returned does not depend on num_shards, which only concerns parallelism.", "quantifier": "all shard counts, batch settings, datasets", "why_tests_cant": "Needs dataset sizes not divisible by the batch size.", "anchors": ["waymax/dataloader/dataloader_utils.py:tf_examples_dataset", "waymax/config.py:DatasetConfig.num_shards"]}
{"id": "C58", "title": "WOMD metadata round trip", "statement": "Writing metadata with the WOMD dictionary writer and reading it back gives the same metadata for valid objects and marks exactly the invalid objects invalid.", "quantifier": "any number of objects, any ids and types", "why_tests_cant": "All metadata.", "anchors": ["waymax/dataloader/womd_utils.py:_object_metadata_to_dict", "waymax/dataloader/womd_factories.py:object_metadata_from_womd_dict"]}
{"id": "C59", "title": "Unknown future stays unknown through WOMD export", "statement": "After simulator_state_to_womd_dict, steps that are not part of the exported trajectory read back as invalid.", "quantifier": "every state", "why_tests_cant": "Tests compare arrays, not validity after re-reading.", "anchors": ["waymax/dataloader/womd_utils.py:simulator_state_to_womd_dict", "waymax/dataloader/womd_factories.py:trajectory_from_womd_dict"]}
{"id": "C60", "title": "Masked mean", "statement": "masked_mean along the last axis gives, for each row, the mean of the valid entries at every position, and -1 if none is valid; a row whose valid entries are equal to c gives c.", "quantifier": "every row length and mask", "why_tests_cant": "All sizes and masks.", "anchors": ["waymax/datatypes/operations.py:masked_mean"]}
{"id": "C61", "title": "Slice update and mask update", "statement": "update_by_slice_in_dim changes exactly the addressed window and copies it from the matching window of the update; update_by_mask changes exactly the masked entries; writing back what was read is the identity; writes to disjoint windows commute.", "quantifier": "every array size, window and position in range", "why_tests_cant": "All sizes and positions.", "anchors": ["waymax/datatypes/operations.py:update_by_slice_in_dim", "waymax/datatypes/operations.py:dynamic_slice", "waymax/datatypes/operations.py:update_by_mask"]}
{"id": "C62", "title": "Batched reward", "statement": "Computing the reward of a batched state equals computing it scenario by scenario.", "quantifier": "every batch size, every metric in the reward", "why_tests_cant": "Tests use one batch size per metric.", "anchors": ["waymax/rewards/linear_combination_reward.py:LinearCombinationReward.compute", "waymax/metrics/route.py", "waymax/metrics/roadgraph.py:WrongWayMetric"]}
{"id": "C63", "title": "Configured sim agents are usable", "statement": "make_sdc_dm_environment builds an environment for every configuration that WaymaxConfig accepts, including those with sim agents.", "quantifier": "every configuration", "why_tests_cant": "Tests use configurations without sim agents.", "anchors": ["waymax/env/wrappers/dm_env_wrapper.py:make_sdc_dm_environment", "waymax/env/planning_agent_environment.py:PlanningAgentEnvironment.__init__", "waymax/agents/agent_builder.py"]}
{"id": "C64", "title": "Expert rollouts with delta actions follow the log", "statement": "With DeltaGlobal or DeltaLocal dynamics, a rollout driven by the expert actor keeps every controlled object at its logged position and heading (up to a multiple of 2*pi) at every step, as long as the logged displacements and heading changes stay within the action bounds and the object is valid in the log.", "quantifier": "every scenario, every rollout length inside the horizon, every controlled set", "why_tests_cant": "Errors accumulate over steps; a test rolls out a few scenarios.", "anchors": ["waymax/agents/expert.py:create_expert_actor", "waymax/agents/expert.py:infer_expert_action", "waymax/dynamics/delta.py", "waymax/env/rollout.py:rollout"]}
{"id": "C65", "title": "Braking does not reverse a vehicle", "statement": "With InvertibleBicycleModel a vehicle moving forward (velocity along its heading) never gets a velocity against its heading.", "quantifier": "every forward state, every action, every parameter setting", "why_tests_cant": "The claim is about all speeds and accelerations.", "anchors": ["waymax/dynamics/bicycle_model.py:InvertibleBicycleModel.compute_update"]}
{"id": "C66", "title": "Only controlled objects are rewarded", "statement": "BaseEnvironment.reward gives 0 to every object that BaseEnvironment.step does not let the user control.", "quantifier": "every configuration, scenario and object", "why_tests_cant": "Needs the agreement of two masks for all scenarios.", "anchors": ["waymax/env/base_environment.py:BaseEnvironment.reward", "waymax/env/base_environment.py:BaseEnvironment._get_control_mask", "waymax/datatypes/simulator_state.py:get_control_mask"]}
{"id": "C67", "title": "Discretizer shape check", "statement": "Constructing a Discretizer succeeds only if the bin vector, the lower bounds and the upper bounds all have the same shape.", "quantifier": "every triple of shapes", "why_tests_cant": "All shapes; the check is a chained comparison.", "anchors": ["waymax/dynamics/discretizer.py:Discretizer.__init__"]}
{"id": "C68", "title": "State dynamics executes the command", "statement": "With StateDynamics, a step puts every controlled object at exactly the commanded x, y, yaw, vel_x, vel_y, independently of the other objects' actions; the action inferred from a recorded trajectory puts it at the recorded next pose and velocity.", "quantifier": "every state, every action, every recorded trajectory, every configuration", "why_tests_cant": "All fields of all objects; a swapped field in one test value can go unnoticed.", "anchors": ["waymax/dynamics/state_dynamics.py:StateDynamics.compute_update", "waymax/dynamics/state_dynamics.py:StateDynamics.inverse"]}
{"id": "C69", "title": "Sim agents control objects that enter later", "statement": "A sim agent that claims an object which is absent from the first logged frame but present now decides where that object goes, like for any other object.", "quantifier": "every scenario, every set of sim agents, every step", "why_tests_cant": "Depends on the placeholder geometry of absent objects in all scenarios.", "anchors": ["waymax/env/planning_agent_environment.py:_initialized_overlap", "waymax/env/planning_agent_environment.py:PlanningAgentEnvironment.step"]}
{"id": "C70", "title": "The planner moves the SDC", "statement": "In PlanningAgentEnvironment the planner's action decides where the SDC goes, whatever sim agents are configured (the constructor documents that sim agents update objects besides the SDC).", "quantifier": "every set of sim agents, every action, every state", "why_tests_cant": "All agents, including ones that claim the SDC.", "anchors": ["waymax/env/planning_agent_environment.py:PlanningAgentEnvironment.__init__", "waymax/env/planning_agent_environment.py:PlanningAgentEnvironment.step"]}
{"id": "C71", "title": "Planning metrics are single-agent", "statement": "PlanningAgentEnvironment.metrics returns, for every metric it runs, a single value for the SDC; kinematic infeasibility is reported as 0 and not valid in the state right after reset.", "quantifier": "every registry, configuration, state", "why_tests_cant": "All registries, including metrics a user registers.", "anchors": ["waymax/env/planning_agent_environment.py:PlanningAgentEnvironment.metrics"]}
{"id": "C72", "title": "Planning reward matches planning metrics", "statement": "PlanningAgentEnvironment.reward is the weighted sum of the values that PlanningAgentEnvironment.metrics reports for the same state, counting a metric only if it is reported valid.", "quantifier": "every reward configuration and state", "why_tests_cant": "Needs agreement of two code paths for all states.", "anchors": ["waymax/env/planning_agent_environment.py:PlanningAgentEnvironment.reward", "waymax/env/planning_agent_environment.py:PlanningAgentEnvironment.metrics", "waymax/rewards/linear_combination_reward.py"]}
{"id": "C73", "title": "PlanningAgentDynamics.forward", "statement": "PlanningAgentDynamics.forward applies the wrapped dynamics' forward to the given single-agent action, for any number of objects, and honours allow_new_objects.", "quantifier": "every wrapped dynamics, number of objects, trajectory and flag", "why_tests_cant": "All sizes and flags.", "anchors": ["waymax/env/planning_agent_environment.py:PlanningAgentDynamics.forward"]}
{"id": "C74", "title": "PlanningAgentDynamics.inverse", "statement": "PlanningAgentDynamics.inverse returns the SDC's inferred action; with StateDynamics, stepping the planning environment with the action inferred from the log puts the SDC at its next logged pose and velocity.", "quantifier": "every scenario with one SDC, every time step", "why_tests_cant": "All scenarios and all positions of the SDC in the object list.", "anchors": ["waymax/env/planning_agent_environment.py:PlanningAgentDynamics.inverse"]}
{"id": "C75", "title": "Route end invalidates", "statement": "An object driven by a way-point following agent with invalidate_on_end that reaches the end of its logged route while moving becomes invalid in the next state of the planning environment.", "quantifier": "every scenario, agent set, speed policy, step", "why_tests_cant": "All routes and speeds, and the interaction with the environment's state update.", "anchors": ["waymax/agents/waypoint_following_agent.py:WaypointFollowingPolicy._get_next_trajectory_by_projection", "waymax/env/planning_agent_environment.py:PlanningAgentEnvironment.step"]}
{"id": "C76", "title": "Way-point followers stay on their route", "statement": "In the planning environment, an object driven by a way-point following agent is after each step on the straight line through the valid logged way point nearest to where it would have coasted, at the point of that line nearest to it, with that way point's heading and with the commanded speed; at the end of the route it keeps its velocity or, with invalidate_on_end and at most 1 m/s, stops at the way point.", "quantifier": "every scenario, agent set, speed policy, step", "why_tests_cant": "All route shapes, also with gaps in the log.", "anchors": ["waymax/agents/waypoint_following_agent.py:_project_to_a_trajectory", "waymax/agents/waypoint_following_agent.py:WaypointFollowingPolicy._get_next_trajectory_by_projection"]}
{"id": "C77", "title": "IDM reacts to its leader", "statement": "The speed IDM commands is non-decreasing in the leader's speed and in the gap to it (gaps of 10 cm and more), and a vehicle closer to its leader than the minimum spacing does not speed up.", "quantifier": "every parameter setting, pair of states", "why_tests_cant": "A relation between all pairs of states.", "anchors": ["waymax/agents/waypoint_following_agent.py:IDMRoutePolicy._get_accel"]}
{"id": "C78", "title": "Frozen agents stay put", "statement": "An object driven by FrozenSimPolicy in the planning environment keeps its position, heading, velocity and size, and stays valid, for any number of steps.", "quantifier": "every scenario, agent set, number of steps", "why_tests_cant": "Any number of steps.", "anchors": ["waymax/agents/sim_agent.py:FrozenSimPolicy", "waymax/env/planning_agent_environment.py:PlanningAgentEnvironment.step"]}
{"id": "C79", "title": "IDM braking is bounded", "statement": "IDM never decelerates harder than max_decel, which the constructor documents as the maximum deceleration.", "quantifier": "every parameter setting and state", "why_tests_cant": "All states, also ones with a leader right in front.", "anchors": ["waymax/agents/waypoint_following_agent.py:IDMRoutePolicy.__init__", "waymax/agents/waypoint_following_agent.py:IDMRoutePolicy.update_speed"]}
{"id": "C80", "title": "Object-centric observations", "statement": "observation_from_state gives every object its own copy of the scene in a frame with that object at the origin and heading along x, and changes nothing but the coordinates: the validity, sizes, metadata, distances and heading differences are those of the global observation. sdc_observation_from_state does the same for the SDC.", "quantifier": "every scenario, every reachable state, every observer", "why_tests_cant": "All poses, and all observers at once.", "anchors": ["waymax/datatypes/observation.py:observation_from_state", "waymax/datatypes/observation.py:sdc_observation_from_state", "waymax/datatypes/observation.py:transform_observation"]}
{"id": "C81", "title": "Selecting one observer", "statement": "Observation.for_obj(i) returns the observation of object i: every field equals row i of the object axis and keeps its other axes.", "quantifier": "every observation, batch shape, field, object index", "why_tests_cant": "All field ranks and batch shapes.", "anchors": ["waymax/datatypes/observation.py:Observation.for_obj"]}
{"id": "C82", "title": "SDC observation agrees with the object observation", "statement": "sdc_observation_from_state returns the row of the SDC in observation_from_state.", "quantifier": "every scenario with one SDC, every reachable state", "why_tests_cant": "Two implementations compared on all states.", "anchors": ["waymax/datatypes/observation.py:sdc_observation_from_state", "waymax/datatypes/observation.py:observation_from_state"]}
{"id": "C83", "title": "Masked mean along any axis", "statement": "masked_mean(x, valid, axis) puts at every position the mean of the valid entries along the given axis, for every array rank and axis, including the default.", "quantifier": "every shape, mask and axis", "why_tests_cant": "All shapes and axes.", "anchors": ["waymax/datatypes/operations.py:masked_mean"]}
{"id": "C84", "title": "One-hot selection on batched data", "statement": "select_by_onehot picks from every array of the input, with any batch and trailing axes, the entry along the selection axis where the one-hot mask of that batch element is set, and zero when it is not set; masks whose rank does not match are rejected.", "quantifier": "every shape, batch shape and mask", "why_tests_cant": "All shapes.", "anchors": ["waymax/datatypes/operations.py:select_by_onehot"]}
{"id": "C85", "title": "Planning metrics on batches", "statement": "PlanningAgentEnvironment.metrics of a batched state gives for every scenario the metrics of that scenario computed alone.", "quantifier": "every batch size and number of objects", "why_tests_cant": "All batch sizes.", "anchors": ["waymax/env/planning_agent_environment.py:PlanningAgentEnvironment.metrics"]}
{"id": "C86", "title": "Keeping the remainder loses nothing", "statement": "With drop_remainder=False every example of the files read is returned.", "quantifier": "every data set, every batch_dims", "why_tests_cant": "All data set sizes and batch shapes.", "anchors": ["waymax/dataloader/dataloader_utils.py:tf_examples_dataset", "waymax/config.py:DatasetConfig.drop_remainder"]}
{"id": "C87", "title": "Dropping the remainder keeps batch shapes", "statement": "With drop_remainder=True reading never fails on a short batch, every batch has exactly the shape batch_dims, the returned examples are examples of the data set, none more often than it occurs there, and each shard leaves out fewer examples than one batch holds.", "quantifier": "every data set, every batch_dims, every record order", "why_tests_cant": "All data set sizes and batch shapes.", "anchors": ["waymax/dataloader/dataloader_utils.py:tf_examples_dataset", "waymax/config.py:DatasetConfig.drop_remainder"]}
{"id": "C88", "title": "Delta dynamics integrate", "statement": "In an episode with DeltaGlobal a controlled object's position and heading after any number of steps are its start plus the sum of the commanded displacements and turns; with DeltaLocal each displacement is taken in the object's own frame; in both cases the velocity after a step times the time step is the displacement of that step.", "quantifier": "every scenario, action sequence and number of steps, nonzero time step", "why_tests_cant": "Any number of steps, continuum of actions.", "anchors": ["waymax/dynamics/delta.py:DeltaGlobal.compute_update", "waymax/dynamics/delta.py:DeltaLocal.compute_update", "waymax/env/base_environment.py:BaseEnvironment.step"]}
{"id": "C89", "title": "Exported WOMD window", "statement": "simulator_state_to_womd_dict on a state with at least num_history steps behind it, read back with the data loader, gives a log whose steps 0..num_history are the simulated steps timestep-num_history..timestep (position, velocity, heading up to full turns, time stamp, validity), the same traffic lights and the same road graph; speed and direction of motion written are those of the velocity; it is accepted exactly when the description fits the state and, with validate=True, timestep equals num_history.", "quantifier": "every state, number of objects, lights, road-graph points, history and future length", "why_tests_cant": "Any shapes and any simulated history; tests convert one example.", "anchors": ["waymax/dataloader/womd_utils.py:simulator_state_to_womd_dict", "waymax/dataloader/womd_factories.py:simulator_state_from_womd_dict"]}
{"id": "C90", "title": "A loaded scenario is the example", "statement": "Loading a WOMD example gives a state at step 0 whose log holds, for each object, the past, current and future records in this order with headings in [-pi, pi) and validity flag != 0; each size is the average over the valid records (-1 if there are none); the simulated trajectory agrees with the log at step 0 and is invalid later; traffic lights, metadata and road graph are those of the example.", "quantifier": "every example, any number of objects, lights, points, history and future steps", "why_tests_cant": "All examples, continuum of values.", "anchors": ["waymax/dataloader/womd_factories.py:simulator_state_from_womd_dict", "waymax/dataloader/womd_factories.py:trajectory_from_womd_dict", "waymax/dataloader/womd_factories.py:traffic_lights_from_womd_dict", "waymax/dataloader/womd_factories.py:object_metadata_from_womd_dict", "waymax/dataloader/womd_dataloader.py:preprocess_womd_example"]}
{"id": "C91", "title": "Sizes survive WOMD export", "statement": "An object of constant size keeps its size when the state is written as a WOMD example and read back.", "quantifier": "every state, object and description", "why_tests_cant": "Tests compare the written arrays, not what is read back.", "anchors": ["waymax/dataloader/womd_utils.py:simulator_state_to_womd_dict", "waymax/dataloader/womd_factories.py:trajectory_from_womd_dict", "waymax/datatypes/operations.py:masked_mean"]}
{"id": "C92", "title": "Aggregated time features", "statement": "aggregate_time_tensors replaces every feature with past, current and future parts by one 'all' feature that is the three parts one after the other along the step axis, adds which_time (-1, 0, 1), keeps every other entry and adds nothing else; it fails if a part is missing and succeeds when shapes fit.", "quantifier": "every dictionary, any feature names, shapes and number of steps", "why_tests_cant": "All dictionaries and all key names.", "anchors": ["waymax/dataloader/womd_utils.py:aggregate_time_tensors"]}
{"id": "C93", "title": "Limiting the number of objects", "statement": "preprocess_womd_example with max_num_objects=m keeps the first m rows of every per-object feature and changes nothing else; in particular the SDC is kept and features whose axis is time are not cut.", "quantifier": "every dictionary and every m", "why_tests_cant": "All dictionaries and limits.", "anchors": ["waymax/dataloader/womd_dataloader.py:preprocess_womd_example"]}
{"id": "C94", "title": "Objects entering under a sim agent", "statement": "In the planning environment an object driven by a way-point following agent that enters the scene after the start enters at its logged position.", "quantifier": "every environment, agent, scenario, state and step", "why_tests_cant": "Depends on the interplay of agent, validity and injection in every state.", "anchors": ["waymax/agents/waypoint_following_agent.py:WaypointFollowingPolicy.update_trajectory", "waymax/env/planning_agent_environment.py:PlanningAgentEnvironment.step", "waymax/dynamics/abstract_dynamics.py:DynamicsModel.forward"]}
{"id": "C95", "title": "Sim agents built from a configuration", "statement": "create_sim_agents_from_config builds an agent that claims exactly the configured class of objects (SDC, or all others) in every state and rejects other classes; in an environment with agents so built, objects of a named class that do not start in an overlap follow the intelligent driver model, otherwise the planner moves the SDC and the rest replays the log. Built-in agents claim exactly the non-SDC objects by default.", "quantifier": "every list of configurations, scenario, state and step", "why_tests_cant": "All states and lists of agents.", "anchors": ["waymax/agents/agent_builder.py:create_sim_agents_from_config", "waymax/agents/sim_agent.py:SimAgentActor", "waymax/env/planning_agent_environment.py:PlanningAgentEnvironment.step"]}
{"id": "C96", "title": "Accepted configurations can be evaluated", "statement": "If WaymaxConfig accepts a configuration that names built-in metrics only, then metrics and rewards can be computed in every state loaded as configured: nothing needs SDC paths that were not asked for.", "quantifier": "every configuration and state", "why_tests_cant": "All combinations of metrics, rewards and data settings.", "anchors": ["waymax/config.py:WaymaxConfig", "waymax/config.py:EnvironmentConfig", "waymax/metrics/metric_factory.py:run_metrics", "waymax/rewards/linear_combination_reward.py:LinearCombinationReward"]}
{"id": "C97", "title": "A box is drawn as the object's rectangle", "statement": "Each box given to the bounding-box plotter is drawn once as the closed outline through the four corners of the rotated rectangle of that centre, size and heading - the rectangle the overlap test uses - with an arrow to the middle of its front.", "quantifier": "every list of boxes, any size and heading", "why_tests_cant": "Continuum of poses and sizes; images are only compared for a few scenes.", "anchors": ["waymax/visualization/utils.py:plot_numpy_bounding_boxes"]}
{"id": "C98", "title": "The picture of a trajectory shows what is there", "statement": "Plotting a trajectory at a step shows exactly: the objects present at that step or later, controlled ones blue and others grey, full size at that step and a tenth later; dots for objects at earlier steps; red on objects that overlap another one now; an index label for every object present now if asked for. Nothing is drawn twice, nothing invalid is drawn, -1 stands for the last step and a step past the end is rejected.", "quantifier": "every trajectory, number of objects and steps, control mask and step", "why_tests_cant": "Images are compared for a few scenes only.", "anchors": ["waymax/visualization/viz.py:plot_trajectory"]}
{"id": "C99", "title": "Red boxes agree with the overlap metric", "statement": "In the picture of a simulator state drawn with the simulated trajectory, the objects outlined in red are exactly the present objects whose overlap metric is 1.", "quantifier": "every state and number of objects", "why_tests_cant": "Continuum of poses; two separately written computations have to agree.", "anchors": ["waymax/visualization/viz.py:plot_simulator_state", "waymax/metrics/overlap.py:OverlapMetric"]}
{"id": "C100", "title": "Map and lights in the picture", "statement": "The road-graph points shown are the valid points of type lane centre, road edge, stop sign, crosswalk or speed bump, once each, in the colour of the type; the lights shown are the lights valid at the step, once each, in the colour of their state; drawing succeeds unless a valid light has a state outside 0..8.", "quantifier": "every road graph and set of lights", "why_tests_cant": "All maps and states.", "anchors": ["waymax/visualization/viz.py:plot_roadgraph_points", "waymax/visualization/viz.py:plot_traffic_light_signals_as_points", "waymax/visualization/color.py:TRAFFIC_LIGHT_COLORS"]}
{"id": "C101", "title": "The view follows the chosen object", "statement": "plot_simulator_state with center_agent_idx=i draws the state with the view around object i; with -1 the view is around the SDC.", "quantifier": "every state, object index and view size", "why_tests_cant": "All states and indices.", "anchors": ["waymax/visualization/viz.py:plot_simulator_state", "waymax/visualization/utils.py:VizConfig"]}
{"id": "C102", "title": "A trajectory without highlighted step can be drawn", "statement": "plot_trajectory with the default time_idx=None draws the trajectory without full-size boxes, as documented.", "quantifier": "every trajectory", "why_tests_cant": "No test calls it without a step.", "anchors": ["waymax/visualization/viz.py:plot_trajectory"]}
{"id": "C103", "title": "Metrics on the picture are readable", "statement": "plot_single_agent_brax_timestep writes every valid metric and no other, at different places for different metrics, and shows the valid points of the SDC paths.", "quantifier": "every time step, set of metrics and paths", "why_tests_cant": "All states and sets of metrics.", "anchors": ["waymax/visualization/viz.py:plot_single_agent_brax_timestep"]}
{"id": "C104", "title": "An observation is drawn around its observer", "statement": "Drawing the SDC's own object-frame observation gives a view around the origin with the SDC as a blue box at the origin pointing along x.", "quantifier": "every state, observation length and map size", "why_tests_cant": "All reachable states.", "anchors": ["waymax/visualization/viz.py:plot_observation", "waymax/datatypes/observation.py:observation_from_state"]}
{"id": "C105", "title": "A batch is its scenarios", "statement": "Reset, any number of steps, termination and truncation of a batched state give, at every batch index, what the scenario at that index gives alone, for any number and size of batch axes and every dynamics model; what one raises the other raises.", "quantifier": "every batch shape, state, sequence of actions, configuration and dynamics model", "why_tests_cant": "All batch shapes and histories; tests use one or two fixed batch shapes.", "anchors": ["waymax/env/base_environment.py:BaseEnvironment", "waymax/dynamics/abstract_dynamics.py:DynamicsModel.forward", "waymax/dynamics/bicycle_model.py:InvertibleBicycleModel", "waymax/dynamics/delta.py", "waymax/dynamics/state_dynamics.py", "waymax/datatypes/operations.py"]}
{"id": "C106", "title": "Scenarios at different steps", "statement": "A batch whose time step has the documented batch shape, so that scenarios may be at different steps, can be read, replayed and stepped, each scenario from its own step.", "quantifier": "every batch shape, state and action", "why_tests_cant": "All combinations of time steps.", "anchors": ["waymax/datatypes/simulator_state.py:SimulatorState", "waymax/env/base_environment.py:BaseEnvironment.step", "waymax/dynamics/abstract_dynamics.py:DynamicsModel.forward", "waymax/datatypes/operations.py:update_by_slice_in_dim"]}
{"id": "C107", "title": "Reset keeps a state valid", "statement": "The state returned by reset passes validate() when the given state does.", "quantifier": "every batch shape, state and configuration", "why_tests_cant": "All batch shapes.", "anchors": ["waymax/env/base_environment.py:BaseEnvironment.reset", "waymax/datatypes/simulator_state.py:SimulatorState.validate"]}
{"id": "C108", "title": "Metrics of a batch are the metrics of its scenarios", "statement": "Log divergence, overlap, off-road, kinematic infeasibility, wrong-way, off-route and progression metrics of a batched state have the documented shape and hold at every batch index what the metric gives for that scenario alone.", "quantifier": "every batch shape, number of objects and state", "why_tests_cant": "All batch shapes; axis mistakes only show for particular shapes.", "anchors": ["waymax/metrics/imitation.py:LogDivergenceMetric", "waymax/metrics/overlap.py:OverlapMetric", "waymax/metrics/roadgraph.py", "waymax/metrics/route.py", "waymax/metrics/comfort.py:KinematicsInfeasibilityMetric"]}
{"id": "C109", "title": "Every metric accepts a batched time step", "statement": "The kinematic infeasibility metric can be computed for a state whose time step has the documented batch shape, as the other metrics can.", "quantifier": "every batch shape and state", "why_tests_cant": "All batch shapes.", "anchors": ["waymax/metrics/comfort.py:KinematicsInfeasibilityMetric", "waymax/dynamics/bicycle_model.py:compute_inverse"]}
{"id": "C110", "title": "The declared action space is the accepted one", "statement": "Every dynamics model with limits that are not negative declares an action space of its action size and those limits; both environments declare it for their objects; an array of the batch shape followed by the declared shape is accepted by the DMEnv wrapper, and the step is the environment's step with these numbers as valid actions. Scalar discrete actions are declared and accepted without an axis.", "quantifier": "every built-in dynamics model, configuration, batch shape, state and action array", "why_tests_cant": "All models, shapes and arrays; tests step a few combinations.", "anchors": ["waymax/dynamics/state_dynamics.py:StateDynamics.action_spec", "waymax/dynamics/delta.py:DeltaGlobal.action_spec", "waymax/dynamics/bicycle_model.py:InvertibleBicycleModel.action_spec", "waymax/dynamics/discretizer.py:DiscreteActionSpaceWrapper.action_spec", "waymax/env/base_environment.py:BaseEnvironment.action_spec", "waymax/env/planning_agent_environment.py:PlanningAgentEnvironment.action_spec", "waymax/env/wrappers/dm_env_wrapper.py:DMEnvWrapper"]}
{"id": "C111", "title": "Declared limits are enforced", "statement": "An action outside the declared limits acts like the nearest allowed action, and an allowed action is carried out as given; no controlled object moves by more than the declared limits in a step.", "quantifier": "every episode, action sequence, model parameters and object", "why_tests_cant": "All actions and histories.", "anchors": ["waymax/dynamics/bicycle_model.py:InvertibleBicycleModel.compute_update", "waymax/dynamics/delta.py:DeltaGlobal.compute_update", "waymax/dynamics/delta.py:DeltaLocal.compute_update"]}
{"id": "C112", "title": "Rewards of a batch are the rewards of its scenarios", "statement": "The reward of a batched state has the batch shape followed by the declared reward shape, is of the declared data type, and holds at every batch index what the environment returns for that scenario alone; in the planning environment this is the reward of the SDC.", "quantifier": "every batch shape, state, reward configuration and set of metrics with one number per object", "why_tests_cant": "All batch shapes and configurations.", "anchors": ["waymax/env/base_environment.py:BaseEnvironment.reward", "waymax/env/base_environment.py:BaseEnvironment.reward_spec", "waymax/env/planning_agent_environment.py:PlanningAgentEnvironment.reward", "waymax/rewards/linear_combination_reward.py:LinearCombinationReward.compute", "waymax/metrics/metric_factory.py:run_metrics"]}
{"id": "C113", "title": "Batches end together", "statement": "A batch that shares its time step is returned by the DMEnv wrapper as MID before the last logged step and as LAST at it, with discount 1 for every scenario, in an array of the batch shape as declared; a batch is rejected for mixed step types exactly when some of its scenarios are finished and others are not.", "quantifier": "every batch shape and state", "why_tests_cant": "All batch shapes and time steps.", "anchors": ["waymax/env/wrappers/dm_env_wrapper.py:DMEnvWrapper.step", "waymax/env/abstract_environment.py:AbstractEnvironment.termination", "waymax/env/abstract_environment.py:AbstractEnvironment.truncation"]}
{"id": "C114", "title": "Equality of data objects", "statement": "Comparing two data objects of one class gives an answer, and the answer is True exactly when all their arrays agree in shape and entries; comparing objects of different classes gives False; an object equals a copy of itself unless it holds an entry different from itself (NaN).", "quantifier": "all objects of the data classes, with any arrays, nested parts and missing optional parts", "why_tests_cant": "All pairs of objects; tests compare a few states.", "anchors": ["waymax/datatypes/operations.py:compare_all_leaf_nodes", "waymax/datatypes/array.py:MaskedArray.__eq__", "waymax/datatypes/simulator_state.py:SimulatorState.__eq__", "waymax/metrics/abstract_metric.py:MetricResult", "waymax/datatypes/observation.py:Observation", "waymax/env/planning_agent_environment.py:PlanningAgentSimulatorState"]}
{"id": "C115", "title": "Validated scenarios can be simulated", "statement": "validate accepts a data object exactly when its arrays have the shapes and data types its class documents, and a scenario all of whose checks pass can be reset and stepped with actions of its shape.", "quantifier": "every batch shape, scenario, leaf shapes and data types, configuration and dynamics model", "why_tests_cant": "All combinations of shapes and types.", "anchors": ["waymax/datatypes/simulator_state.py:SimulatorState.validate", "waymax/datatypes/object_state.py:Trajectory.validate", "waymax/datatypes/object_state.py:Trajectory.zeros", "waymax/datatypes/object_state.py:ObjectMetadata.validate", "waymax/datatypes/roadgraph.py:RoadgraphPoints.validate", "waymax/datatypes/traffic_lights.py:TrafficLights.validate", "waymax/datatypes/route.py:Paths.validate", "waymax/datatypes/action.py:TrajectoryUpdate.validate", "waymax/datatypes/observation.py:ObjectPose2D.validate"]}
{"id": "C116", "title": "A loaded batch is its examples", "statement": "Converting a dictionary with the documented WOMD features, with any leading batch axes and any of the four time keys, succeeds and gives at every batch index the example stored there: positions, velocities, headings, time stamps, flags, lights, metadata and map points as stored, sizes averaged over the valid steps, at step 0 with only step 0 simulated. Conversion never succeeds on a dictionary in which a needed feature is missing or per-object features differ in shape; another time key raises ValueError.", "quantifier": "every dictionary of features, batch shape, number of objects, steps, lights and map points, batch index and time key", "why_tests_cant": "All batch shapes, sizes and contents.", "anchors": ["waymax/dataloader/womd_factories.py:simulator_state_from_womd_dict", "waymax/dataloader/womd_factories.py:trajectory_from_womd_dict", "waymax/dataloader/womd_factories.py:traffic_lights_from_womd_dict", "waymax/dataloader/womd_factories.py:object_metadata_from_womd_dict", "waymax/dataloader/womd_factories.py:roadgraph_from_womd_dict"]}
{"id": "C117", "title": "SDC paths are loaded as stored", "statement": "With include_sdc_paths every scenario gets the stored paths of its example in order, each with its stored points, lanes, arc lengths, flags and on-route mark; without it no paths are read.", "quantifier": "every dictionary of features, batch shape, number of paths and of points per path, and batch index", "why_tests_cant": "All batch shapes, sizes and contents.", "anchors": ["waymax/dataloader/womd_factories.py:paths_from_womd_dict", "waymax/dataloader/womd_factories.py:simulator_state_from_womd_dict"]}
{"id": "C118", "title": "The scenario generator yields every record exactly once, faithfully", "statement": "Iterating the simulator-state generator on one process yields, without an exception, states with the configured batch axes (devices first if distributed; shorter only for a kept remainder). The scenarios inside these states correspond one to one to the serialized records of the files of this process, each record as often as `repeat` asks, except for less than one batch per shard when remainders are dropped; and each scenario holds its record: past, current and future steps joined in order, wrapped headings, averaged sizes, lights, metadata, map points and paths, at timestep 0. A record is accepted exactly if it has every feature of the published format with the right number of values. All processes together, remainders kept, yield every record of the data set.", "quantifier": "every list of files and contents, number of processes, shards, repeats and devices, batch shape, with and without dropping remainders, shuffling and distribution, object limit and path sizes", "why_tests_cant": "Tests load one small file with one setting; losing, duplicating or mixing up records depends on the number of files, shards, processes, batch axes and on the order in which parallel readers finish.", "anchors": ["waymax/dataloader/womd_dataloader.py:preprocess_serialized_womd_data", "waymax/dataloader/womd_dataloader.py:simulator_state_generator", "waymax/dataloader/dataloader_utils.py:get_data_generator", "waymax/dataloader/womd_utils.py:get_features_description"]}
{"id": "C119", "title": "Records can be read scenario by scenario or object by object", "statement": "With `batch_by_scenario=False`, documented to treat individual object trajectories as training examples, every complete record gives examples, one per object, as it gives one example per scenario with `batch_by_scenario=True`.", "quantifier": "every configuration and every complete record", "why_tests_cant": "The combinations of settings are not enumerated by any test, and whether one of them fails depends on the shapes of all features of a record.", "anchors": ["waymax/dataloader/dataloader_utils.py:tf_examples_dataset", "waymax/dataloader/womd_dataloader.py:simulator_state_generator", "waymax/config.py:DatasetConfig"]}
{"id": "C120", "title": "A rollout of a batch is the rollouts of its scenarios", "statement": "`rollout` on a batch of scenarios gives, for every scenario and every entry along the time axis, exactly the state, observation, action, metrics and rewards that `rollout` gives on that scenario alone, or raises what every scenario alone raises; the arrays have the time axis in front of the batch axes and `RolloutOutput.validate` accepts them. With `rollout_log_by_expert_sdc` and state dynamics every scenario of the batch follows its own log.", "quantifier": "every batch shape, number of objects and time steps, contents of the scenarios, every dynamics model and actor that treat scenarios separately, every choice of built-in metrics and rewards, and every number of steps", "why_tests_cant": "The rollout scans, stacks and pads nested structures; tests run one scenario shape for a few steps and compare shapes, not each scenario of a batch with its own rollout.", "anchors": ["waymax/env/rollout.py:rollout", "waymax/env/rollout.py:RolloutOutput", "waymax/env/rollout.py:rollout_log_by_expert_sdc", "waymax/agents/expert.py:infer_expert_action", "waymax/agents/expert.py:create_expert_actor", "waymax/dynamics/bicycle_model.py:InvertibleBicycleModel.inverse"]}
{"id": "C121", "title": "The planning environment treats the scenarios of a batch separately", "statement": "For a batch of scenarios, `reset`, `step`, whole episodes, `metrics` and `reward` of the planning environment, and the inverse of its dynamics, give at every batch index exactly what they give on that scenario alone with that scenario's action, sim agents and agent states, or raise what every scenario alone raises. Metrics and reward have one value for each scenario.", "quantifier": "every batch shape, number of objects and steps, contents of the scenarios, wrapped dynamics model, every list of sim agents that treat scenarios separately, every action and random key, every choice of built-in metrics and rewards", "why_tests_cant": "The step tiles one action over objects, merges actions of several agents with masks and selects by one-hot; a wrong axis shows only for particular combinations of batch shape, number of objects and agents.", "anchors": ["waymax/env/planning_agent_environment.py:PlanningAgentEnvironment.reset", "waymax/env/planning_agent_environment.py:PlanningAgentEnvironment.step", "waymax/env/planning_agent_environment.py:PlanningAgentEnvironment.metrics", "waymax/env/planning_agent_environment.py:PlanningAgentEnvironment.reward", "waymax/env/planning_agent_environment.py:PlanningAgentDynamics.compute_update", "waymax/env/planning_agent_environment.py:PlanningAgentDynamics.inverse", "waymax/agents/sim_agent.py:SimAgentActor"]}
{"id": "C122", "title": "A rollout of a batch in the planning environment is the rollouts of its scenarios", "statement": "`rollout` with the planning environment on a batch gives for every scenario and every entry along the time axis the state, observation, action, metrics and reward of the rollout of that scenario alone, or raises what every scenario alone raises. With the expert for the environment's state dynamics and sim agents that leave the SDC alone, the SDC of every scenario follows its own log at every entry, whatever the sim agents do to the other objects.", "quantifier": "every batch shape, number of objects and time steps, contents of the scenarios, dynamics model, planner and list of sim agents that treat scenarios separately, every choice of built-in metrics and rewards, and every number of steps", "why_tests_cant": "The interplay of expert, planner, sim agents, stacking and padding over a whole rollout is tested for one scenario shape and a few steps.", "anchors": ["waymax/env/rollout.py:rollout", "waymax/env/planning_agent_environment.py:PlanningAgentEnvironment", "waymax/agents/expert.py:create_expert_actor", "waymax/env/planning_agent_environment.py:PlanningAgentDynamics.inverse"]}
{"id": "C123", "title": "Observations of a batch are the observations of its scenarios", "statement": "`observation_from_state` and `sdc_observation_from_state` on a batch of scenarios show every observer of every scenario exactly what it sees when that scenario is observed alone, in every frame, or raise what every scenario alone raises; the result has the documented shapes. What an observer sees does not depend on the other scenarios of the batch nor on the future of its own, also when the scenarios have clocks of their own. In its own frame every object sees itself at the origin.", "quantifier": "every batch shape, number of objects, steps, lights, paths and road-graph points, contents of the scenarios, shared or separate clocks, history length, number of nearest points and coordinate frame", "why_tests_cant": "Observers, objects and steps are three axes that have to be tiled, transformed and filtered in the right order for any number of batch axes; a wrong axis shows only for particular shapes.", "anchors": ["waymax/datatypes/observation.py:observation_from_state", "waymax/datatypes/observation.py:sdc_observation_from_state", "waymax/datatypes/observation.py:global_observation_from_state", "waymax/datatypes/observation.py:transform_observation", "waymax/datatypes/observation.py:combine_two_object_pose_2d", "waymax/datatypes/observation.py:transform_trajectory", "waymax/datatypes/observation.py:transform_roadgraph_points", "waymax/datatypes/observation.py:transform_traffic_lights", "waymax/datatypes/roadgraph.py:filter_topk_roadgraph_points"]}
{"id": "C124", "title": "Shuffling loses nothing and works locally", "statement": "With a shuffle seed the records of a shard are returned in another order: each record exactly once as often as it is in the repeated data, none before the number of records returned so far plus the size of the shuffle buffer would have reached it in the unshuffled order. Every such order is possible. A buffer of size one changes nothing.", "quantifier": "every sequence of records, finite or endless, size of the buffer and sequence of random numbers", "why_tests_cant": "The order depends on random numbers; a test sees one order. Losing or duplicating a record shows only for certain orders and at the end of the data.", "anchors": ["waymax/dataloader/dataloader_utils.py:tf_examples_dataset"]}
{"id": "C125", "title": "Every epoch contains every record once", "statement": "Repeating a data set of N records returns, in every stretch of N records, every record exactly once.", "quantifier": "every set of files and records, machine, order of reading, seed, number of repetitions and epoch", "why_tests_cant": "A test that reads one epoch cannot see records of the next epoch being mixed into it.", "anchors": ["waymax/dataloader/dataloader_utils.py:tf_examples_dataset"]}
{"id": "C126", "title": "Reading reaches every record", "statement": "Reading without end returns every record of every file of the process again and again. With a number of repetitions it returns every record that many times, up to the remainders of batches, and ends.", "quantifier": "every set of files and records, number of shards, machine, batch size and number of repetitions", "why_tests_cant": "Whether a record is reached at all is a statement about an endless run; which shards are read depends on the number of processors of the machine.", "anchors": ["waymax/dataloader/dataloader_utils.py:tf_examples_dataset", "waymax/config.py:DatasetConfig"]}
{"id": "C127", "title": "Deterministic reading is the same on every machine", "statement": "With `deterministic` set, the same settings return the same batches in the same order on every machine.", "quantifier": "every set of files and records, settings, and pair of machines", "why_tests_cant": "A test runs on one machine.", "anchors": ["waymax/dataloader/dataloader_utils.py:tf_examples_dataset", "waymax/config.py:DatasetConfig"]}
{"id": "C128", "title": "Processes agree on the order of the files", "statement": "Every process that reads a data set with the same seed puts the files into the same order, whatever random numbers it has drawn before, so that every file is read by exactly one shard of exactly one process and all processes together read every record of the data set.", "quantifier": "every list of files, seed, number of processes and shards, and state of each process's random number generator", "why_tests_cant": "The processes shuffle independently of each other; disagreement shows only in a distributed run as duplicated and missing data.", "anchors": ["waymax/dataloader/dataloader_utils.py:tf_examples_dataset"]}
{"id": "C129", "title": "A seed shuffles the files and only the files", "statement": "Given a seed, the files are shuffled according to it, and building the data set does not disturb the random numbers of the program around it.", "quantifier": "every seed, list of files and state of the global random number generator", "why_tests_cant": "The failing seed is a single value, and the effect on other parts of the program shows only there.", "anchors": ["waymax/dataloader/dataloader_utils.py:tf_examples_dataset"]}
{"id": "C130", "title": "Files are replayed to metrics", "statement": "Take the data set generator with any configuration that batches by scenario, an environment configured for the same number of objects, state dynamics and the expert. Every batch the generator yields can be rolled out, with any metrics and rewards the data provides for. The scenarios in these rollouts replay the records of the files of the process: the simulated objects are where the records say at every step, the log divergence is zero, and each record is replayed as often as asked for, up to less than a batch per shard if remainders are dropped. If the environment is configured for another number of objects, the rollout is rejected.", "quantifier": "every configuration of data set and environment, set of files and records, number of processes and devices, number of steps that fits into the log, choice of metrics and rewards", "why_tests_cant": "It composes reading, decoding, batching, resetting, stepping and metrics; a test runs one configuration on one file.", "anchors": ["waymax/dataloader/womd_dataloader.py:simulator_state_generator", "waymax/env/rollout.py:rollout", "waymax/agents/expert.py:create_expert_actor", "waymax/env/base_environment.py:BaseEnvironment"]}
{"id": "C131", "title": "Agents drive each scenario of a batch by itself", "statement": "The sim agents that follow logged way points (the intelligent driver model with any parameters, constant speed, any other rule for the speed that works on batches) and the constant speed actor choose, for every object of every scenario of a batch, the action they choose for that scenario alone. The intelligent driver model fails exactly when there are no objects or the look-ahead window is empty or longer than the log, for every batch alike.", "quantifier": "every batch shape, number of objects and steps, state, and parameters of the agents", "why_tests_cant": "Broadcasting over batch, object, other object and time axes can mix scenarios or objects for particular shapes only, e.g. when two axes have equal length.", "anchors": ["waymax/agents/waypoint_following_agent.py:WaypointFollowingPolicy", "waymax/agents/waypoint_following_agent.py:IDMRoutePolicy", "waymax/agents/constant_speed.py:ConstantSpeedPolicy", "waymax/agents/constant_speed.py:create_constant_speed_actor"]}
{"id": "C132", "title": "Yaw wrapping in machine arithmetic", "statement": "In every binary floating point format, the wrapped angle is at least minus pi and at most pi (both rounded to the format), wrapping it again changes nothing unless it is the upper bound, and the result differs from the exact representative of the angle by a few rounding errors only (relative to the angle and pi). In float32 the upper bound is not reached and wrapping twice is the same as wrapping once. A user expects that angles in the range are left as they are; in float32 small angles are changed by up to three rounding errors of pi, and in float64 the upper bound is reached.", "quantifier": "every binary floating point format with at least two digits of precision and gradual underflow, every angle of the format", "why_tests_cant": "Rounding at the two ends of the range happens for a handful of floats out of four billion.", "anchors": ["waymax/utils/geometry.py:wrap_yaws"]}
{"id": "C133", "title": "Expert replay does not drift in machine arithmetic", "statement": "With all arithmetic rounded to a binary floating point format, replaying the log with the expert of the displacement model keeps every valid object within the rounding errors of one step of its logged position at every step of the rollout, however long: the errors do not add up, since each action is computed from the simulated position. If the differences of successive logged positions are representable, the replay is exact, and so are positions that are at most a factor of two apart from each other.", "quantifier": "every floating point format, scenario, number of objects and steps, length of the rollout", "why_tests_cant": "Whether errors build up depends on the length of the episode and on the magnitudes of positions; a test has a tolerance and one log.", "anchors": ["waymax/dynamics/delta.py:DeltaGlobal", "waymax/agents/expert.py:infer_expert_action", "waymax/env/base_environment.py:BaseEnvironment.step"]}
{"id": "C134", "title": "Discretised actions in machine arithmetic", "statement": "With all arithmetic rounded to a binary floating point format that resolves the bins, decoding a discrete action and encoding it again gives the same action, and encoding a continuous value and decoding it gives a value half a bin away at most, up to rounding errors. Decoded values are not below the minimum and above the maximum by a few rounding errors at most. A user expects that they are never above the maximum, and that the middle bin of a symmetric range is no action; both are false in float32, for the yaw of the displacement model with 51 and with 18 bins.", "quantifier": "every floating point format, list of dimensions with any bounds and numbers of bins that the format resolves, discrete action, continuous value", "why_tests_cant": "A test checks a few numbers of bins; whether rounding crosses a bin boundary depends on the bounds, the number of bins and the bin.", "anchors": ["waymax/dynamics/discretizer.py:Discretizer"]}
{"id": "C135", "title": "Overlap test and overlap metric in machine arithmetic", "statement": "With all arithmetic rounded to a binary floating point format, and with any sine, cosine and matrix product that are accurate to a given error, the overlap test is right except in a margin that is proportional to that error and to the magnitude of the coordinates: if an overlap is reported, then the two rectangles are not farther apart than three margins; if the rectangles share a point farther than the margin from the sides of both, then the overlap is reported. The test does not depend on the order of the two objects, no object overlaps with itself, and the metric is 1 exactly if the test holds against another object that is valid, 0 otherwise.", "quantifier": "every floating point format, every accurate kernel (also fused), every pair of boxes of machine numbers, every state", "why_tests_cant": "The answers near contact depend on rounding errors, which grow with the distance from the origin; a test checks boxes near the origin with round coordinates.", "anchors": ["waymax/utils/geometry.py:has_overlap", "waymax/utils/geometry.py:corners_from_bbox", "waymax/utils/geometry.py:compute_pairwise_overlaps", "waymax/metrics/overlap.py:OverlapMetric"]}
{"id": "C136", "title": "Bicycle model in machine arithmetic", "statement": "With all arithmetic rounded, one step of the bicycle model from any state below 99 m/s and for any action, in range or not, gives a heading in [-\u03c0, \u03c0], changes the speed by at most the acceleration limit times the time step plus a millimetre per second, and places the object within half the acceleration limit times the time step squared of the constant-velocity position, plus a rounding error proportional to the coordinates; over an episode the speed bound adds up step by step. A parked vehicle without a command stays exactly where it is, in pose and velocity, in episodes of any length. The expert's actions never divide by zero, and on transitions where rounding does not decide whether the steering is computed they are the expert's actions over the real numbers up to 0.005 in each number.", "quantifier": "every floating point format and mathematical library as accurate as single precision, every state below 99 m/s, every action and every sequence of actions", "why_tests_cant": "Rounding errors depend on all digits of the inputs, and those of one step are the inputs of the next; a test tries a few round numbers.", "anchors": ["waymax/dynamics/bicycle_model.py:InvertibleBicycleModel", "waymax/dynamics/bicycle_model.py:compute_inverse"]}
{"id": "C137", "title": "The bicycle model is feasible in machine arithmetic", "statement": "Rounding never makes the kinematic infeasibility metric flag a transition that the bicycle model made: with the default time step, a steering limit of the model not above that of the metric, an acceleration limit at least 3 mm/s\u00b2 below it (closer at lower speeds), a logged starting heading in [-4, 4] and speeds below 99 m/s, the metric is 0 for every controlled object after every step of every episode, whatever the actions. With the default arguments in single precision this covers episodes of a hundred steps that start below 30 m/s. Conversely a change of speed that exceeds the limit by 4 mm/s\u00b2 is flagged, and so is a turn per distance that exceeds the steering limit by 0.002.", "quantifier": "every floating point format and mathematical library as accurate as single precision, every action and every sequence of actions, every starting state below the stated speeds", "why_tests_cant": "The inverse divides small differences of rounded speeds and headings by small distances, so rounding errors are multiplied by thousands; whether the tolerance 1e-3 is enough cannot be seen on a few examples.", "anchors": ["waymax/metrics/comfort.py:KinematicsInfeasibilityMetric", "waymax/dynamics/bicycle_model.py:InvertibleBicycleModel", "waymax/dynamics/bicycle_model.py:compute_inverse"]}
{"id": "C138", "title": "Rounding drift of simulated episodes", "statement": "With the bicycle model, the trajectory that the simulator computes in single precision stays close to the one that the formulas define over the real numbers, and two machines with different mathematical libraries compute nearly the same trajectory from the same scenario and actions. The distance is bounded by an explicit polynomial in the number of steps, the speed limit, the steering limit and the distance from the origin: below 20 m/s and within a kilometre, a centimetre after one second and half a metre after eight seconds, with headings within 0.0003 and 0.006 radians.", "quantifier": "every floating point format and mathematical library as accurate as single precision, every scenario, every sequence of actions, in range or not, every number of steps", "why_tests_cant": "The drift is the sum of the rounding errors of all steps, each propagated through the later steps; a run shows one sample of it, on one machine.", "anchors": ["waymax/dynamics/bicycle_model.py:InvertibleBicycleModel", "waymax/env/base_environment.py:BaseEnvironment.step"]}
{"id": "C139", "title": "Actions of another shape are rejected", "statement": "A step whose action array does not hold one row of the declared length for each object of each scenario raises an error instead of moving anything. For global displacements this is so. For state actions and local displacements longer rows are accepted and their extra numbers ignored; rows too short and missing rows are rejected. For the bicycle model every array that broadcasts is accepted: one row drives all objects, one row for each scenario drives the object of that index in all scenarios, and a row of one number is acceleration and steering at once. For each model the accepted shapes, and what is done with them, are stated exactly.", "quantifier": "every built-in dynamics model, every shape of the action array, every batch of scenarios, any number of objects and steps", "why_tests_cant": "The possible shapes are unbounded in number and rank, and broadcasting makes wrong ones look right; tests pass arrays of the right shape.", "anchors": ["waymax/dynamics/abstract_dynamics.py:DynamicsModel.forward", "waymax/dynamics/state_dynamics.py:StateDynamics.compute_update", "waymax/dynamics/delta.py:DeltaGlobal.compute_update", "waymax/dynamics/delta.py:DeltaLocal.compute_update", "waymax/dynamics/bicycle_model.py:InvertibleBicycleModel.compute_update", "waymax/env/base_environment.py:BaseEnvironment.step"]}
{"id": "C140", "title": "The order of the objects and padding objects have no influence", "statement": "A scenario can be stored with its objects in another order, or in larger arrays whose extra slots are padding (objects that are never present). Reset, every step, whole episodes and whole rollouts end the same way (same exception or success), and every real object then has exactly the same trajectory; padding stays absent whatever actions it is given. Every metric gives the real objects, and the SDC, the same results; every real object gets the same reward and padding gets none; the expert and the IDM agent choose the same actions. The metrics are compared in exact arithmetic.", "quantifier": "every scenario, every injection of its objects into larger arrays (in particular every permutation and every amount of padding), arbitrary numbers in the padding slots, every dynamics model that treats objects one by one (all built-in ones), every list of actions, every actor that decides the same on both, every list of metrics and reward weights", "why_tests_cant": "There are factorially many orders and unboundedly many paddings; a leak of a padding slot's numbers shows only for particular placeholder values and positions.", "anchors": ["waymax/env/base_environment.py:BaseEnvironment.reset", "waymax/env/base_environment.py:BaseEnvironment.step", "waymax/env/base_environment.py:BaseEnvironment.reward", "waymax/env/rollout.py:rollout", "waymax/metrics/overlap.py:OverlapMetric", "waymax/metrics/metric_factory.py:run_metrics", "waymax/datatypes/operations.py:select_by_onehot", "waymax/agents/expert.py:infer_expert_action", "waymax/agents/waypoint_following_agent.py:IDMRoutePolicy"]}
{"id": "C141", "title": "The order of the objects and padding objects have no influence in the planning environment", "statement": "The same for the planning environment with its sim agents: reset and every step, the agents' internal states, the metrics and the reward do not depend on the order of the objects or on padding. Reordering indeed has no influence. Padding has: a padding slot's placeholder box counts when the environment looks for objects that overlap in the first logged frame, so a car near the map's origin is taken away from its sim agent when a padding slot is added. If the padding boxes keep away from the real ones in that frame, padding has no influence.", "quantifier": "every scenario, every injection of its objects into larger arrays, every planning environment with sim agents that decide the same on both (all built-in ones), every list of planner actions and random keys", "why_tests_cant": "As C140; the failure needs a real object that happens to lie where the placeholder box of a padding slot lies.", "anchors": ["waymax/env/planning_agent_environment.py:PlanningAgentEnvironment.reset", "waymax/env/planning_agent_environment.py:PlanningAgentEnvironment.step", "waymax/env/planning_agent_environment.py:PlanningAgentEnvironment.metrics", "waymax/env/planning_agent_environment.py:_initialized_overlap", "waymax/agents/sim_agent.py:SimAgentActor"]}
{"id": "C142", "title": "The map frame has no influence on the simulation", "statement": "Turning and shifting a whole scenario (trajectories, roads, paths, lights) turns and shifts everything the simulator produces: reset and every step end the same way, and every object present has the turned and shifted position, the turned velocity and heading, and the same sizes and flags. Poses and displacements in map axes given as actions are turned along; displacements in vehicle axes and pedal and steering commands are the same numbers in both frames. This holds for setting the state in every episode, and for the displacement and bicycle models in every episode in which no controlled object enters after the warm-up; an object that enters is placed relative to the placeholder -1, the same point of every frame.", "quantifier": "every scenario, every rotation angle and shift, every number of objects and steps, every configuration, every list of actions, all four dynamics models and any other that commutes with rigid motions; real arithmetic", "why_tests_cant": "There is a three-parameter continuum of frames; tests use axis-aligned examples at the origin, exactly where a swapped sine or a forgotten offset is invisible.", "anchors": ["waymax/env/base_environment.py:BaseEnvironment.reset", "waymax/env/base_environment.py:BaseEnvironment.step", "waymax/dynamics/delta.py:DeltaGlobal.compute_update", "waymax/dynamics/delta.py:DeltaLocal.compute_update", "waymax/dynamics/bicycle_model.py:InvertibleBicycleModel.compute_update", "waymax/dynamics/state_dynamics.py:StateDynamics.compute_update", "waymax/dynamics/abstract_dynamics.py:apply_trajectory_update_to_state"]}
{"id": "C143", "title": "The map frame has no influence on the metrics", "statement": "For a turned and shifted simulator state every metric gives the same result: log divergence, overlap and kinematic infeasibility for every object, off-road for every object that is present, wrong-way and off-route when the SDC is present, and progression when the SDC is also present in the first and last step of the log. The same exceptions are raised.", "quantifier": "every simulator state, every rotation angle and shift, every number of objects, road points and paths; real arithmetic", "why_tests_cant": "A continuum of frames and of box, road and path geometries; sign and axis mistakes cancel in axis-aligned tests.", "anchors": ["waymax/metrics/overlap.py:OverlapMetric", "waymax/metrics/imitation.py:LogDivergenceMetric", "waymax/metrics/comfort.py:KinematicsInfeasibilityMetric", "waymax/metrics/roadgraph.py:OffroadMetric", "waymax/metrics/roadgraph.py:WrongWayMetric", "waymax/metrics/route.py:OffRouteMetric", "waymax/metrics/route.py:ProgressionMetric"]}
{"id": "C144", "title": "The map frame has no influence on the expert's actions", "statement": "The actions that reproduce the log are turned along with the scenario: poses are moved, pedal and steering commands are the same numbers, displacements in map axes are turned and displacements in vehicle axes are the same. For displacements this holds up to the length limits; a longer displacement is cut off along the axes of the map, so how much of it remains depends on the frame.", "quantifier": "every log, every rotation angle and shift, every step and object; real arithmetic", "why_tests_cant": "A continuum of frames; the cut-off makes a difference only for displacements above a limit in frames that are not aligned with the motion.", "anchors": ["waymax/dynamics/delta.py:DeltaGlobal.inverse", "waymax/dynamics/delta.py:DeltaLocal.inverse", "waymax/dynamics/bicycle_model.py:InvertibleBicycleModel.inverse", "waymax/dynamics/bicycle_model.py:compute_inverse", "waymax/dynamics/state_dynamics.py:StateDynamics.inverse", "waymax/agents/expert.py:infer_expert_action"]}
{"id": "C145", "title": "The map frame has no influence on what an observer sees", "statement": "An observer's view of a turned and shifted scenario is the same as of the original: what an object (or the SDC) sees in its own frame shows the same objects at the same positions, velocities and headings, the same nearest road points, the same lights and flags, and building it succeeds or fails alike. The observer must be present at the time of observation. The SDC paths in an observation stay in map coordinates (C52) and are excluded.", "quantifier": "every simulator state, every rotation angle and shift, every object as observer, every number of objects, road points, steps and nearest points asked for; real arithmetic", "why_tests_cant": "A continuum of frames; forgetting one transformation is invisible in tests where the observer stands at the origin or faces along an axis.", "anchors": ["waymax/datatypes/observation.py:observation_from_state", "waymax/datatypes/observation.py:sdc_observation_from_state", "waymax/datatypes/observation.py:transform_observation", "waymax/datatypes/observation.py:global_observation_from_state", "waymax/datatypes/roadgraph.py:filter_topk_roadgraph_points"]}
{"id": "C146", "title": "The map frame has no influence on the sim agents", "statement": "The agents supplied with the simulator decide the same in every map frame: they claim the same objects, IDM computes the same new speed for every object that is present, and the pose the frozen, constant-speed and IDM agents send an object to is the turned and shifted pose, with the turned velocity and heading. Objects that are absent get invalid updates in both frames.", "quantifier": "every simulator state in which objects that are present occur in their log, every rotation angle and shift, every object, all agent parameters; real arithmetic", "why_tests_cant": "A continuum of frames; IDM looks for collisions along predicted way points, and mistakes in projecting or rotating them cancel on axis-aligned roads.", "anchors": ["waymax/agents/waypoint_following_agent.py:WaypointFollowingPolicy.update_trajectory", "waymax/agents/waypoint_following_agent.py:IDMRoutePolicy.update_speed", "waymax/agents/waypoint_following_agent.py:IDMRoutePolicy._get_accel", "waymax/agents/waypoint_following_agent.py:_project_to_a_trajectory", "waymax/agents/constant_speed.py:ConstantSpeedPolicy", "waymax/agents/sim_agent.py:FrozenSimPolicy"]}
{"id": "C147", "title": "The map frame has no influence on the planning environment", "statement": "Turning and shifting a scenario turns and shifts what the planning environment with its sim agents produces: reset and every step end the same way, every object present is at the moved pose and the agents' internal states are the same. This holds if no object enters after the warm-up and if, in the first logged frame, the boxes of absent objects keep away from the others. Otherwise the frame matters: absent objects have placeholder boxes at (-1, -1) of every frame, so a car that starts there is taken away from its sim agent, and in a shifted frame it is not.", "quantifier": "every scenario, every rotation angle and shift, every set of sim agents that do not depend on the frame, every dynamics model that commutes with motions, every list of actions and random keys; real arithmetic", "why_tests_cant": "A continuum of frames combined with all agent sets and episode lengths.", "anchors": ["waymax/env/planning_agent_environment.py:PlanningAgentEnvironment.reset", "waymax/env/planning_agent_environment.py:PlanningAgentEnvironment.step", "waymax/env/planning_agent_environment.py:_initialized_overlap"]}
{"id": "C148", "title": "The simulator does not look into the future of the log", "statement": "If two recordings of a scene are equal up to some step (logged states and traffic lights up to that step, and objects, routes and road map), then as long as the simulated time does not pass that step everything is equal: reset and every step end the same way, the simulated trajectories are equal, observations in every frame, the truncation flag and all metrics and rewards that do not use sdc_progression are equal, and so are whole rollouts with any actor that itself looks at most one step ahead, as the expert does. The same holds for episodes of the planning environment with such sim agents. Progression is the exception: it relates the current position to where the SDC's log ends, and depends on the future through that position only.", "quantifier": "every pair of scenarios equal up to a step, every dynamics model and configuration with at least one warm-up step, every list of actions, every actor that looks at most one step ahead, every number of steps within the common part; the transition functions for every number format, metrics and observations in real arithmetic", "why_tests_cant": "Two arbitrary futures for every scenario, and every point in time: a test can only compare a few recordings, and a leak of the future (reading one step too far, or clamping at the end of the log) usually changes nothing visible.", "anchors": ["waymax/env/base_environment.py:BaseEnvironment.reset", "waymax/env/base_environment.py:BaseEnvironment.step", "waymax/dynamics/abstract_dynamics.py:DynamicsModel.forward", "waymax/env/rollout.py:rollout", "waymax/agents/expert.py:infer_expert_action", "waymax/env/planning_agent_environment.py:PlanningAgentEnvironment.step", "waymax/metrics/route.py:ProgressionMetric.compute", "waymax/datatypes/observation.py:observation_from_state"]}
{"id": "C149", "title": "Padding of the road map and of the routes has no influence on the simulation and the metrics", "statement": "Storing the road map and the SDC paths in larger arrays, with road points, path points or whole paths appended that are marked invalid, changes nothing: reset and every step end the same way with the same simulated trajectories, all metrics (off-road, wrong way, off-route, progression and the others) and all rewards are equal, so are rollouts with any actor that ignores the padding, and the planning environment with the supplied sim agents. The numbers stored in the padding, for example positions next to the SDC, do not matter.", "quantifier": "every scenario with a non-empty road map and non-empty paths, every number and content of appended invalid points and paths, every dynamics model, list of actions, metric list and reward weights, all supplied sim agents; real arithmetic", "why_tests_cant": "All array sizes and all values in the padding; a forgotten mask is invisible in tests whose padding is zero and far from the vehicle.", "anchors": ["waymax/metrics/roadgraph.py:OffroadMetric.compute", "waymax/metrics/roadgraph.py:compute_signed_distance_to_nearest_road_edge_point", "waymax/metrics/roadgraph.py:WrongWayMetric.compute", "waymax/metrics/route.py:ProgressionMetric.compute", "waymax/metrics/route.py:OffRouteMetric.compute", "waymax/env/base_environment.py:BaseEnvironment", "waymax/env/planning_agent_environment.py:PlanningAgentEnvironment"]}
{"id": "C150", "title": "Padding of the road map does not influence what an observer sees", "statement": "An observer that asks for a number of nearest road points sees the same points whether or not the map is padded with invalid points. This holds, including their order, when fewer points are asked for than the map has without padding, in every frame and for every observer, and for the SDC (whose paths are handed on as stored). When exactly as many points are asked for as the map has, it fails: the map without padding is handed on in stored order, with padding the same points come sorted by distance and with their ids and types passed through 32-bit floats.", "quantifier": "every state, every number and content of appended invalid road points, every observer, frame, window length and number of points asked for; real arithmetic for the distances", "why_tests_cant": "All array sizes and ties; the special case for equal sizes only shows when a test happens to use the exact number of points.", "anchors": ["waymax/datatypes/roadgraph.py:filter_topk_roadgraph_points", "waymax/datatypes/observation.py:observation_from_state", "waymax/datatypes/observation.py:sdc_observation_from_state"]}
{"id": "C151", "title": "An action moves only the object it is for", "statement": "With the supplied dynamics models (and their discrete versions) the simulated trajectory of an object depends only on that object's own recording, its own metadata and its own actions, for whole episodes: other recordings, metadata and actions of the other objects leave it as it is. Actions for objects that are not controlled are ignored altogether. Log divergence, kinematic infeasibility and off-road of an object do not depend on the other objects either.", "quantifier": "every two scenarios that agree on one object, every configuration, every two lists of actions that agree for that object, every supplied dynamics model; every list of actions that agree on the controlled objects", "why_tests_cant": "All numbers of objects, positions in the arrays, actions and episode lengths; a broadcasting mistake that mixes two objects can hide behind symmetric or single-object test data.", "anchors": ["waymax/env/base_environment.py:BaseEnvironment.step", "waymax/dynamics/abstract_dynamics.py:DynamicsModel.forward", "waymax/dynamics/abstract_dynamics.py:apply_trajectory_update_to_state", "waymax/dynamics/bicycle_model.py:InvertibleBicycleModel.compute_update", "waymax/dynamics/delta.py:DeltaGlobal.compute_update", "waymax/dynamics/delta.py:DeltaLocal.compute_update", "waymax/dynamics/state_dynamics.py:StateDynamics.compute_update", "waymax/dynamics/discretizer.py:DiscreteActionSpaceWrapper"]}
{"id": "C152", "title": "Numbers stored for absent objects have no influence", "statement": "The arrays hold numbers for every object and every step, also for steps at which the object is absent. Changing those numbers (not the flags and time stamps) changes nothing that counts: reset, and every episode in which no object enters after the warm-up, give the same flags and the same entries of all present objects; the metrics of present objects, off-route in any case, the expert's actions for displacements and the bicycle model, rollouts of actors that ignore those numbers, and what present observers see of present objects are the same. It fails for an object that enters after the warm-up: its length, width, height and altitude are those stored for its absence. It also fails for the expert of the state dynamics, which drives an object whose recording has ended to the numbers stored for its absence.", "quantifier": "every two scenarios that differ only in the numbers of absent objects, every configuration, every list of actions of any length within the horizon, every supplied dynamics model; real arithmetic for metrics, expert and observations", "why_tests_cant": "All placements of the gaps and all placeholder values; test data use one placeholder value, so its influence never shows as a difference.", "anchors": ["waymax/env/base_environment.py:BaseEnvironment", "waymax/dynamics/abstract_dynamics.py:apply_trajectory_update_to_state", "waymax/metrics/imitation.py:LogDivergenceMetric", "waymax/metrics/overlap.py:OverlapMetric", "waymax/metrics/comfort.py:KinematicsInfeasibilityMetric", "waymax/metrics/roadgraph.py:OffroadMetric", "waymax/metrics/route.py:OffRouteMetric", "waymax/agents/expert.py:infer_expert_action", "waymax/datatypes/observation.py:observation_from_state", "waymax/datatypes/observation.py:sdc_observation_from_state"]}
{"id": "C153", "title": "Log divergence, wrong-way and off-route in machine arithmetic", "statement": "In floating point the log divergence is the distance between simulated and logged position up to 5 rounding errors (and an absolute 2^-40 m), never negative, exactly zero for objects at their logged position, hence exactly zero for every uncontrolled object in every episode and for every object in an expert rollout with state dynamics (and with displacements that the format can represent). The wrong-way metric reports 0 when the SDC is closer to its paths than 3.5 m by more than the tolerance, and the distance up to the tolerance when it is farther by more than the tolerance; likewise off-route with its limits of 5 m and twice the distance to the nearest path. It fails that zero divergence implies the logged position (squares of tiny displacements underflow), and that the side of the 3.5 m limit is always the one of the exact distance.", "quantifier": "every binary format with rounding to nearest even, every accurate square root, every state, every set of paths, every episode of every dynamics model", "why_tests_cant": "All inputs and all rounding outcomes; unit tests use a few positions and compare with tolerances.", "anchors": ["waymax/metrics/imitation.py:LogDivergenceMetric", "waymax/metrics/route.py:WrongWayMetric", "waymax/metrics/route.py:OffRouteMetric", "waymax/env/base_environment.py:BaseEnvironment", "waymax/env/rollout.py:rollout"]}
{"id": "C154", "title": "Rewards in machine arithmetic", "statement": "In floating point the reward of an object in the mask is the sum of weight times metric value up to a tolerance that grows by one rounding error per metric (with up to seven metrics in single precision less than one millionth of the sum of the absolute terms); outside the mask it is exactly 0. With metrics that are never negative, penalties never add up to a positive reward and bonuses never to a negative one. Whole-numbered metrics with whole weights are combined without any error up to 2^24, and a single metric with weight -1 or 1 gives exactly its negated value or its value. Configurations with the same entries in a different order agree up to twice the tolerance; they need not agree exactly.", "quantifier": "every binary format with rounding to nearest even, every registry of metrics, every list of weights of any length, every state and mask", "why_tests_cant": "All numbers of metrics, all weights and all rounding outcomes; unit tests use one or two metrics with friendly numbers.", "anchors": ["waymax/rewards/linear_combination_reward.py:LinearCombinationReward", "waymax/metrics/metric_factory.py:run_metrics", "waymax/datatypes/array.py:MaskedArray.masked_value"]}
{"id": "C155", "title": "Pictures of one scenario of a batch", "statement": "A picture of a state, of an observation or of a Brax time step that is asked for with a batch index shows exactly the scenario with that number (for an observation: what the chosen observer of that scenario sees; for a Brax time step: with that scenario's metrics), whether the scenarios share the time step or have their own; the other scenarios have no influence. A state without batch axes is drawn as it is. A batch drawn without index, and an index for a state that does not have exactly one batch axis, are rejected with a ValueError. An index that belongs to no scenario should be rejected: with NumPy arrays it is, with JAX arrays the last scenario is drawn without any sign of it.", "quantifier": "every batch size, every batch of states and observations of the documented shapes, every batch index and observer, every picture configuration", "why_tests_cant": "All batches and indices; unit tests draw one scenario and check that an image of some size comes out.", "anchors": ["waymax/visualization/viz.py:plot_simulator_state", "waymax/visualization/viz.py:plot_observation", "waymax/visualization/viz.py:plot_single_agent_brax_timestep", "waymax/visualization/viz.py:_index_pytree"]}
{"id": "C156", "title": "What an observer sees in machine arithmetic", "statement": "In floating point arithmetic an observation in the frame of an object (or of the self-driving car) shows objects, road points and traffic lights where they are up to a stated error: the error of sine and cosine counts with the distance to the observer, the rounding of sums with the size of the map coordinates (single precision, coordinates up to ten kilometres, within a hundred metres of the observer: below three centimetres). Velocities and directions have an error that does not depend on the position of the observer; headings have the error of one subtraction; validity, sizes, heights, types and identifiers are exact. Distances between what is seen are those of the map up to that error. The selected road points are the nearest ones up to the rounding of distances. An observer should see itself exactly at the origin: true when products and sums are rounded one by one, false when they are fused. transform_trajectories should give velocities with the same accuracy: it does not, because it subtracts two large map positions, and a slow car can be reported to stand still.", "quantifier": "every binary floating point format, every sine, cosine and matrix product of a given accuracy, every scene, every observer position and heading, every number of selected road points", "why_tests_cant": "All floating point inputs, and every legal way of adding up products on CPU, GPU and TPU; tests compare a few small coordinates with loose tolerances near the origin of the map.", "anchors": ["waymax/utils/geometry.py:pose_from_xy_yaw", "waymax/utils/geometry.py:transform_points", "waymax/utils/geometry.py:transform_direction", "waymax/utils/geometry.py:transform_trajectories", "waymax/datatypes/observation.py:transform_observation", "waymax/datatypes/observation.py:combine_two_object_pose_2d", "waymax/datatypes/observation.py:sdc_observation_from_state", "waymax/datatypes/roadgraph.py:filter_topk_roadgraph_points"]}
{"id": "C157", "title": "Random keys: who gets which", "statement": "A rollout hands its actor a fresh random key at the start and for every action: no key is used twice, none of them is the key the user passed, and none is a key the rollout itself splits further. An actor that uses no random numbers, such as every built-in one, gives the same rollout for every key; a planning environment whose simulated agents use none behaves the same with every key and without any. The key of a rollout also provides the random numbers of the simulated agents of a planning environment.", "quantifier": "every environment, actor, key, number of steps, scenario, set of simulated agents, and every key generator (for freshness: every generator whose splits make new keys)", "why_tests_cant": "A test fixes a seed and sees one run; reuse of a key shows up only as correlated random numbers, and built-in actors use none, so no test of the repository exercises a key at all. That simulated agents get no key in a rollout is invisible unless such an agent is random.", "anchors": ["waymax/env/rollout.py: rollout", "waymax/env/planning_agent_environment.py: PlanningAgentEnvironment.reset, PlanningAgentEnvironment.step", "waymax/agents/actor_core.py: WaymaxActorCore", "waymax/agents/sim_agent.py: SimAgentActor", "waymax/agents/expert.py: create_expert_actor"]}
{"id": "C158", "title": "NaN and infinities of one object stay with it", "statement": "If the position, heading or action of one object becomes NaN or infinite, the other objects go on as if nothing had happened: their trajectories, log divergence and overlap are what they are without the broken object. The same holds for the route metrics of the SDC and for the metrics and the reward of the planning environment as long as the broken object is not the SDC.", "quantifier": "every floating point format with NaN, infinities and overflow, every square root, sine and cosine, every scenario, number of objects, action sequence and dynamics model that moves objects one by one, and every pattern of broken values", "why_tests_cant": "Tests use finite numbers. A NaN spreads through one multiplication with a zero mask, and whether it reaches the result of another object depends on every operation on the way, for each of the places where a NaN can enter.", "anchors": ["waymax/datatypes/operations.py: select_by_onehot", "waymax/metrics/roadgraph.py: WrongWayMetric", "waymax/metrics/route.py: OffRouteMetric", "waymax/metrics/imitation.py: LogDivergenceMetric", "waymax/metrics/overlap.py: OverlapMetric", "waymax/utils/geometry.py: has_overlap", "waymax/rewards/linear_combination_reward.py: LinearCombinationReward", "waymax/env/planning_agent_environment.py: PlanningAgentEnvironment.metrics, PlanningAgentEnvironment.reward", "waymax/dynamics/delta.py: DeltaGlobal"]}
{"id": "C159", "title": "A broken position is not rated as good driving", "statement": "An SDC whose position is NaN or infinite is never rated with the valid best value of a metric: either the value shows the fault or the result is marked as invalid.", "quantifier": "every floating point format with NaN, infinities and overflow, every scenario and every state in which a coordinate of the SDC is NaN or infinite", "why_tests_cant": "Comparisons with NaN are silently false, so a metric that counts violations reports none. Tests that use finite numbers cannot show it, and one would have to try every metric with every kind of broken value.", "anchors": ["waymax/metrics/route.py: OffRouteMetric", "waymax/metrics/roadgraph.py: WrongWayMetric", "waymax/metrics/overlap.py: OverlapMetric", "waymax/metrics/imitation.py: LogDivergenceMetric", "waymax/utils/geometry.py: has_overlap"]}
{"id": "C160", "title": "No overflow at any realistic distance", "statement": "In single precision, as long as coordinates stay within 2^62 metres of the origin, log divergence, wrong-way and off-route never produce an infinity or NaN by overflow, and give exactly what arithmetic without overflow gives, so the accuracy statements for rounding alone carry over; the overlap test and the displacement model have room up to 2^123. Linear rewards of moderate metrics and weights are finite.", "quantifier": "every floating point format with overflow, every bound on the coordinates that fits its exponent range, every scenario, every library with a sane square root, sine and cosine", "why_tests_cant": "Overflow happens in intermediate results, such as squares, long before the final value is out of range. Tests do not search for the smallest input that overflows, and one overflow turns into NaN later.", "anchors": ["waymax/metrics/imitation.py: LogDivergenceMetric", "waymax/metrics/roadgraph.py: WrongWayMetric", "waymax/metrics/route.py: OffRouteMetric", "waymax/metrics/overlap.py: OverlapMetric", "waymax/utils/geometry.py: has_overlap, corners_from_bbox", "waymax/dynamics/delta.py: DeltaGlobal.compute_update", "waymax/rewards/linear_combination_reward.py: LinearCombinationReward"]}
{"id": "C161", "title": "Expert rollouts in the planning environment follow the log", "statement": "Rolling out the expert in the planning environment with the environment's own dynamics model puts the self-driving car where the log has it at every step, as long as no sim agent claims it: exactly with state dynamics, and in position and heading with displacement dynamics when the logged steps are within the bounds. Objects that no sim agent may move replay the log in every rollout of the expert, whatever the dynamics. Without sim agents the whole scene is the log, and the log divergence of the car is 0. One would expect the same when the expert is given the dynamics model the environment was built with.", "quantifier": "every number of objects and steps, every scenario with one self-driving car, every list of sim agents that leave it alone, every number of rollout steps that fits the log, every metric registry, seed and key splitter; for the plain dynamics model every built-in dynamics, batch shape and rollout length", "why_tests_cant": "The claim is an induction over the rollout whose step combines the inverse dynamics, the wrapper that selects one action of a scenario and the merge of sim agents. Tests roll out a few steps of one scenario.", "anchors": ["waymax/env/rollout.py: rollout, rollout_log_by_expert_sdc", "waymax/agents/expert.py: infer_expert_action, create_expert_actor", "waymax/env/planning_agent_environment.py: PlanningAgentEnvironment.step, PlanningAgentDynamics.inverse"]}
{"id": "C162", "title": "An IDM agent brakes for what stands on its route", "statement": "An IDM agent drives slower than on an empty road if another object stands on one of the next max_lookahead logged points of its route, and drives as on an empty road if none does.", "quantifier": "every number of objects and steps, every simulator state and object that is present, every setting of the agent with positive acceleration and spacing", "why_tests_cant": "Whether an object is on the route depends on the whole geometry of the route and of all boxes. Tests use straight roads, where looking straight ahead and looking along the route are the same.", "anchors": ["waymax/agents/waypoint_following_agent.py: IDMRoutePolicy, _find_reference_traj_from_log_traj, _add_headway_waypoints"]}
{"id": "C163", "title": "A transition rated as feasible can be driven", "statement": "If the kinematic infeasibility metric rates a transition as feasible, a vehicle with the limits of the metric can make it: some acceleration and curvature within the limits take the bicycle model from the previous position, heading and velocity of the object to the current ones.", "quantifier": "every number of objects and steps, every simulator state and object, every setting of the metric with a positive time step and non-negative limits", "why_tests_cant": "The metric is computed from an inverse that looks at speeds and headings. Whether everything it accepts can be driven is a statement about all pairs of states, and tests only try transitions that a vehicle made.", "anchors": ["waymax/metrics/comfort.py: KinematicsInfeasibilityMetric", "waymax/dynamics/bicycle_model.py: compute_inverse, InvertibleBicycleModel.compute_update"]}
{"id": "C164", "title": "A broken action does not break the vehicle", "statement": "The bicycle model clips actions to the bounds it announces, so whatever an actor returns, NaN and infinities included, an object in ordinary motion has a finite position, heading and velocity after the step.", "quantifier": "every floating point format with overflow, NaN and infinities, every action, every object state within 2^60 in single precision, every time step and limits of ordinary size with or without normalised actions, every episode that follows", "why_tests_cant": "A learned policy that diverges returns NaN or infinities. Whether any of them can get past the clipping, and what happens in the rest of the episode and to the metrics, ranges over all states, actions and episode lengths.", "anchors": ["waymax/dynamics/bicycle_model.py: InvertibleBicycleModel.compute_update, InvertibleBicycleModel._clip_values, compute_inverse", "waymax/metrics/comfort.py: KinematicsInfeasibilityMetric"]}
{"id": "C165", "title": "The off-road metric in machine arithmetic", "statement": "Rounding does not change the off-road verdict: an object is reported off the road exactly if one of its corners lies on the wrong side of the nearest road edge.", "quantifier": "every floating point format and every evaluation order or fusion of the sums with a stated accuracy, every map with unit directions, every box, position and scenario", "why_tests_cant": "Corners are computed with rounded sines and products, the nearest edge point is chosen among rounded distances, and the side is the sign of a rounded cross product; whether any of these flips depends on every map and pose.", "anchors": ["waymax/metrics/roadgraph.py: OffroadMetric, is_offroad, compute_signed_distance_to_nearest_road_edge_point", "waymax/utils/geometry.py: corners_from_bboxes"]}
{"id": "C166", "title": "Broken positions and the off-road metric", "statement": "The off-road metric does not report an object with a broken (NaN) pose as being on the road with a valid mark, one broken object or map point does not spoil the verdicts on others, and ordinary coordinates never overflow.", "quantifier": "every floating point format with overflow, NaN and infinities, every scenario, map, box and choice of sine, cosine and square root", "why_tests_cant": "NaN and infinities appear only in broken episodes or corrupt maps; how argmin, sign and comparisons treat them must be known for every position in the map and every combination.", "anchors": ["waymax/metrics/roadgraph.py: OffroadMetric, is_offroad, compute_signed_distance_to_nearest_road_edge_point"]}
{"id": "C167", "title": "Route progress in machine arithmetic", "statement": "Rounding does not distort the route progression metric: the reported value is the fraction of the logged way that the point of the route nearest to the car has covered, 0 at the logged start and 1 at the logged end.", "quantifier": "every floating point format and library with a stated accuracy, every set of paths, every log and every position of the car", "why_tests_cant": "The path and three of its points are chosen among rounded distances before arc lengths are subtracted and divided; a near tie can move the answer by the whole length of the way, so samples say nothing about other paths and positions.", "anchors": ["waymax/metrics/route.py: ProgressionMetric.compute"]}
{"id": "C168", "title": "Broken positions and route progress", "statement": "The route progression metric of the car depends on the car and its route alone: broken (NaN or infinite) entries of other objects or of padding points do not change it, a broken car is not credited with progress, and ordinary coordinates never overflow.", "quantifier": "every floating point format with overflow, NaN and infinities, every scenario, set of paths, log and library of functions", "why_tests_cant": "The position of the car is read by a masked sum over all objects, and argmin, minimum and equality treat NaN differently; which combinations leak must be known for every scenario, not for sampled ones.", "anchors": ["waymax/metrics/route.py: ProgressionMetric.compute", "waymax/datatypes/operations.py: select_by_onehot"]}
{"id": "C169", "title": "Left and right are treated alike by the simulator", "statement": "Running a scenario and its mirror image with mirrored actions gives mirrored states, step by step, in every action space: the simulator has no preferred side.", "quantifier": "every scenario and its mirror image, every environment configuration, every action space and every sequence of actions of any length", "why_tests_cant": "A sign error or a fixed constant in one coordinate shows only in scenarios that happen to exercise it; that no scenario and no action sequence tells left from right is a statement about all of them.", "anchors": ["waymax/env/base_environment.py: BaseEnvironment.reset, BaseEnvironment.step", "waymax/dynamics/abstract_dynamics.py: DynamicsModel.forward", "waymax/dynamics/delta.py: DeltaGlobal.compute_update, DeltaLocal.compute_update", "waymax/dynamics/bicycle_model.py: InvertibleBicycleModel.compute_update", "waymax/dynamics/state_dynamics.py: StateDynamics.compute_update"]}
{"id": "C170", "title": "Left and right are treated alike by the metrics", "statement": "A scenario and its mirror image get the same metric results; the off-road verdict requires that the mirrored road edges run in the opposite direction, since the road is on their left.", "quantifier": "every state and its mirror image, every object", "why_tests_cant": "The metrics contain directed quantities (cross products, corner order, headings); whether each of them is used symmetrically has to hold for every geometry.", "anchors": ["waymax/metrics/imitation.py: LogDivergenceMetric", "waymax/metrics/overlap.py: OverlapMetric", "waymax/metrics/comfort.py: KinematicsInfeasibilityMetric", "waymax/metrics/route.py: OffRouteMetric, ProgressionMetric", "waymax/metrics/roadgraph.py: WrongWayMetric, OffroadMetric, compute_signed_distance_to_nearest_road_edge_point"]}
{"id": "C171", "title": "Left and right are treated alike by the expert", "statement": "The expert's action in the mirror image of a scenario is the mirrored action, in every action space.", "quantifier": "every log and its mirror image, every object and time step, every action space and every limit", "why_tests_cant": "The half-open range of the angle wrap breaks the symmetry at a single angle, which random tests do not hit.", "anchors": ["waymax/agents/expert.py: create_expert_actor", "waymax/dynamics/delta.py: DeltaGlobal.inverse, DeltaLocal.inverse, DeltaGlobal._clip_values", "waymax/dynamics/bicycle_model.py: InvertibleBicycleModel.inverse, compute_inverse", "waymax/utils/geometry.py: wrap_yaws"]}
{"id": "C172", "title": "Left and right are treated alike by the sim agents", "statement": "The IDM, constant speed and frozen agents choose the mirrored update in the mirror image of a scenario and claim the same objects.", "quantifier": "every state and its mirror image, every object that occurs in its log while present, every agent parameter", "why_tests_cant": "The agents project onto the log, look ahead along it and search for collisions; a directed step in any of these would show only in some geometries.", "anchors": ["waymax/agents/waypoint_following_agent.py: WaypointFollowingPolicy, IDMRoutePolicy", "waymax/agents/constant_speed.py: create_constant_speed_actor", "waymax/agents/sim_agent.py: SimAgentActor"]}
{"id": "C173", "title": "An observer in the mirror sees the mirror image", "statement": "The observation of an object or of the SDC in the mirror image of a scenario shows the same objects, road points and lights with left and right exchanged, in the same order.", "quantifier": "every state and its mirror image, every observer that is present, every number of road points and history length", "why_tests_cant": "Rotations into the observer's frame, the selection of nearest road points and the velocity and direction columns must all agree in sign for every pose.", "anchors": ["waymax/datatypes/observation.py: observation_from_state, sdc_observation_from_state, transform_observation", "waymax/datatypes/roadgraph.py: filter_topk_roadgraph_points"]}
{"id": "C174", "title": "Left and right are treated alike in the planning environment", "statement": "An episode of the planning environment with its sim agents, run on a scenario and on its mirror image with mirrored actions of the planner, gives mirrored states.", "quantifier": "every scenario and its mirror image, every set of mirror-free sim agents (frozen, IDM), every action space and every sequence of actions of any length", "why_tests_cant": "The environment merges planner and agents and ignores agents whose object starts in an overlap; placeholder boxes of absent objects take part in that test at fixed coordinates, so the answer depends on the whole scenario.", "anchors": ["waymax/env/planning_agent_environment.py: PlanningAgentEnvironment.reset, PlanningAgentEnvironment.step", "waymax/agents/waypoint_following_agent.py: IDMRoutePolicy", "waymax/agents/sim_agent.py: FrozenSimPolicy"]}
{"id": "C175", "title": "Observations are as the environment declares them", "statement": "Every observation of an episode of the DM environment has exactly the arrays that `observation_spec()` declares, each with the batch axes followed by the declared axes; the declaration does not depend on which scenario the wrapper used as its sample.", "quantifier": "every sample scenario, every scenario with arrays of the same shapes, every number of batch axes, every dynamics model, every set of sim agents and every sequence of actions of any length", "why_tests_cant": "The declaration is computed from one sample by cutting as many leading axes from each array as the sample has batch axes; whether every later observation fits depends on what reset and any number of steps do to the shape of every array, for every batch shape.", "anchors": ["waymax/env/wrappers/dm_env_wrapper.py: DMEnvWrapper.observation_spec, DMEnvWrapper.observe", "waymax/env/base_environment.py: BaseEnvironment.reset, BaseEnvironment.step, BaseEnvironment.observe", "waymax/env/planning_agent_environment.py: PlanningAgentEnvironment.observe"]}
{"id": "C176", "title": "An episode can be saved as a log and resumed", "statement": "Take the state reached after any number of steps, write what was simulated so far into its log, and reset an environment on it with all steps so far as warm-up steps: the reset gives back exactly that state, and the same further actions lead to the same simulated trajectories and clock, to the same failures, and after every further step to the same metrics and rewards as continuing the original episode; the expert that replays logged states gives the same actions.", "quantifier": "every scenario, every dynamics model, every configuration, every recorded prefix and every continuation of any length within the horizon", "why_tests_cant": "Whether the saved part determines everything that comes later depends on every place where the environment looks back at the log, at earlier sim steps or at the warm-up length, after every possible prefix and for every continuation; a test checks one split of one episode.", "anchors": ["waymax/env/base_environment.py: BaseEnvironment.reset, BaseEnvironment.step", "waymax/datatypes/simulator_state.py: update_state_by_log", "waymax/dynamics/abstract_dynamics.py: DynamicsModel.forward", "waymax/metrics/metric_factory.py: run_metrics"]}
{"id": "C177", "title": "Making an object larger never makes it collide less", "statement": "If every object stands where it stood, with the same heading, and is at least as long and as wide as before, then every object that was reported as overlapping still is; also when further objects are present. The same is expected of the off-road metric.", "quantifier": "every scene, every number of objects, all sizes and headings, every road graph", "why_tests_cant": "Monotonicity relates the results for two inputs in a continuum; a wrong separating-axis test or sign error shows only for particular pairs of sizes and headings.", "anchors": ["waymax/metrics/overlap.py: OverlapMetric.compute, OverlapMetric.compute_overlap", "waymax/utils/geometry.py: compute_pairwise_overlaps, has_overlap", "waymax/metrics/roadgraph.py: OffroadMetric.compute, is_offroad"]}
{"id": "C178", "title": "Masked arrays hide exactly the entries that are not valid", "statement": "`MaskedArray.create_and_validate(value, valid)` accepts boolean flags together with values that have the axes of the flags and possibly more; for every accepted array `masked_value(fill)` has the shape of the values and holds the value where the element is valid and `fill` where it is not. Results of metrics are such arrays.", "quantifier": "all shapes with any number of axes, all values, flags and fill values", "why_tests_cant": "Whether flags and values are lined up correctly depends on the shapes: square arrays, single flags and missing axes behave differently, and the usual shapes hide the difference.", "anchors": ["waymax/datatypes/array.py: MaskedArray.create_and_validate, MaskedArray.validate, MaskedArray.masked_value", "waymax/metrics/abstract_metric.py: MetricResult.validate"]}
{"id": "C179", "title": "Cutting off the beginning and the end of the log has no influence", "statement": "Cut a scenario in time, so that it begins at a later step of the warm-up and possibly ends earlier, and shorten the warm-up accordingly: reset and any actions lead to the same simulated states, shifted in time, and the metrics of the current step are the same.", "quantifier": "every scenario, every dynamics model, every configuration, every cut that leaves the last warm-up step in, and all sequences of actions of any length within the cut scenario", "why_tests_cant": "Indices are clamped and wrapped at both ends of the time axis, so a dependence on the absolute step or on the length of the log shows only for particular lengths, cuts and steps.", "anchors": ["waymax/env/base_environment.py: BaseEnvironment.reset, BaseEnvironment.step", "waymax/datatypes/simulator_state.py: update_state_by_log", "waymax/dynamics/abstract_dynamics.py: DynamicsModel.forward", "waymax/metrics/metric_factory.py: run_metrics"]}
{"id": "C180", "title": "Agents that keep their distance and broken objects", "statement": "In single precision with NaN and infinities: an object whose position or heading is not a number, or that is not there, makes no difference to the speed that an agent driven by the intelligent driver model (IDM) chooses. The same is expected of an object whose velocity is NaN. That fails: such an object is no leader, and it also hides every object that stands in the same place, so an agent that waits behind a stopped car starts to drive into it. If everything around the agent has an unknown speed or shares its place with something of unknown speed, the agent drives exactly as if it were alone. An agent whose own velocity is NaN gets NaN for its new speed.", "quantifier": "all floating point formats, all libraries of elementary functions, all IDM parameters, all states of all objects", "why_tests_cant": "the effect needs NaN in one object's velocity and an overlap with another object at a way point; tests use finite speeds", "anchors": ["waymax/agents/waypoint_following_agent.py:IDMRoutePolicy.update_speed", "waymax/agents/waypoint_following_agent.py:IDMRoutePolicy._get_accel", "waymax/agents/waypoint_following_agent.py:IDMRoutePolicy._compute_lead_velocity", "waymax/datatypes/object_state.py:Trajectory.speed"]}
{"id": "C181", "title": "Agents that keep their distance choose finite, bounded speeds", "statement": "In machine arithmetic with NaN, infinities and overflow: an agent driven by the intelligent driver model (IDM) that is in the scene and whose own speed is a finite number (up to 2^120 in single precision) gets a new speed that is a finite number, that is not negative, and that is at most its speed plus 0.1 s times the largest acceleration, as the machine computes that. It holds whatever the positions, headings, sizes and velocities of all other objects and the numbers in the log are, NaN and infinities included, and although the distance to the leader is divided by.", "quantifier": "all floating point formats at least as wide as half precision, all libraries with a sane square root and power, all parameters of a usual size, all states of all objects, all logs", "why_tests_cant": "a NaN or an overflow may arise at any of some twenty operations, and depends on numbers of any other object", "anchors": ["waymax/agents/waypoint_following_agent.py:IDMRoutePolicy.update_speed", "waymax/agents/waypoint_following_agent.py:IDMRoutePolicy._get_accel", "waymax/agents/waypoint_following_agent.py:IDMRoutePolicy._compute_lead_velocity", "waymax/agents/waypoint_following_agent.py:IDMRoutePolicy._compute_lead_distance"]}
{"id": "C182", "title": "Metrics judge what has been simulated so far", "statement": "The metrics of a state judge what has been simulated up to the current step: what the arrays of the simulated trajectory hold for later steps has no influence. This holds for log divergence, overlap, off-road, wrong-way, off-route and progression at every step, and for the kinematic infeasibility from the second step on, and so for everything the environment reports. At the first step of a scenario it fails for the kinematic infeasibility: there is no transition to judge, and the index -1 makes it judge the last transition stored in the arrays. After a reset with one warm-up step nothing is stored there, so the metric is 0 and marked invalid. A scenario of a single step has no kinematic metric: the call is rejected.", "quantifier": "every pair of states that agree up to the current step, every number of objects and steps, every list of metrics; rejection for every batch shape", "why_tests_cant": "the arrays after the current step usually hold padding, and the index wraps around only at the first step", "anchors": ["waymax/metrics/comfort.py:KinematicsInfeasibilityMetric.compute", "waymax/dynamics/bicycle_model.py:compute_inverse", "waymax/metrics/metric_factory.py:run_metrics", "waymax/env/base_environment.py:BaseEnvironment.metrics"]}
{"id": "C183", "title": "The rollout, Brax and DeepMind interfaces show the same run", "statement": "Driving a scenario with the actions a rollout recorded gives the same run through the Brax interface and through the DeepMind interface: no call fails, the k-th time step has the observation (and in Brax the state) of the k-th rollout entry, and the reward of action k is reported with the time step that action k leads to. In the DeepMind interface the first time step is FIRST without a reward, and a later one is LAST exactly when every scenario of the batch has ended. A Brax time step is expected to carry the metrics of the state it carries; the code breaks this: each step returns the metrics of the state it started from, so the metrics of the initial state are reported twice and those of the last state never.", "quantifier": "every environment (any reset, step, observation, metrics, reward and end-of-episode functions), every actor, every scenario, every number of steps; for the DeepMind interface every raw action the wrapper converts to the recorded one, and runs in which the scenarios of a batch end together, not before the last recorded action; for the base environment every scenario with enough steps left", "why_tests_cant": "A test compares two interfaces on one environment and a few steps; the agreement must hold for every environment, actor and length, and the off-by-one of the metrics only shows if the metrics change at the step that is compared.", "anchors": ["waymax/env/rollout.py: rollout", "waymax/env/wrappers/brax_wrapper.py: BraxWrapper.reset, step", "waymax/env/wrappers/dm_env_wrapper.py: DMEnvWrapper.reset, step"]}
{"id": "C184", "title": "The episodes of the DeepMind interface are the scenarios of the generator", "statement": "Whatever is called in between, the k-th reset of the DeepMind interface starts the k-th scenario of the generator; a refused reset uses its scenario up, steps use none, and when the generator is exhausted every reset says so. After a successful reset all further answers are those of a wrapper that was never used before: an episode does not depend on earlier ones. The code breaks the first part by one: the constructor takes a scenario as a sample and does not play it, so the k-th reset starts scenario k+1 and the first scenario is never simulated.", "quantifier": "every environment, every finite stream of scenarios, every sequence of reset and step calls in any order and of any length, including refused ones", "why_tests_cant": "The call histories are unbounded and mix accepted and refused calls; a test runs a few episodes and usually with one scenario repeated, which hides both skipped scenarios and state left over from earlier episodes.", "anchors": ["waymax/env/wrappers/dm_env_wrapper.py: DMEnvWrapper.__init__, reset, step"]}
{"id": "C185", "title": "Ids, classes and marks of objects have no influence on the simulation", "statement": "Two scenarios that differ only in the labels of their objects - ids, object classes, objects of interest and control marks - behave the same: reset, step, whole episodes, expert actions, metrics, rewards, rollouts, the built-in agents, the planning environment and observations give the same results, with the new labels carried along unchanged. The code thereby breaks the documented meaning of the control mark (\"whether an object will be controlled by external agents in an environment\"): which objects are controlled is decided by the configuration and the roles alone, and the mark is ignored.", "quantifier": "every scenario, every two labellings with the same SDC, modeled and valid flags, every configuration, dynamics, list of actions, agents that do not look at the labels, metrics and rewards", "why_tests_cant": "Needs every labelling and every episode; a test compares at most a few labellings, and almost every test data set leaves the marks at their defaults.", "anchors": ["waymax/datatypes/object_state.py: ObjectMetadata", "waymax/datatypes/simulator_state.py: get_control_mask", "waymax/env/base_environment.py: BaseEnvironment", "waymax/env/planning_agent_environment.py: PlanningAgentEnvironment", "waymax/datatypes/observation.py: observation_from_state, sdc_observation_from_state"]}
{"id": "C186", "title": "Time stamps, heights of objects and traffic lights have no influence on the simulation", "statement": "Two scenarios that differ only in the time stamps of their entries, in the heights of their objects and in their traffic lights behave the same: whole episodes move the objects in the same way, and expert actions, metrics, rewards, rollouts, the built-in agents (which stop for no light), the planning environment and observations agree, up to those fields themselves. In particular a step lasts as long as the dynamics were told, whatever the time stamps of the log say.", "quantifier": "every two such scenarios (any number of lights, any time stamps), every configuration, every dynamics and agents that do not look at these fields and all built-in ones, every list of actions", "why_tests_cant": "The claim compares all pairs of scenarios over episodes of any length; a test fixes one set of time stamps and lights.", "anchors": ["waymax/datatypes/object_state.py: Trajectory", "waymax/datatypes/traffic_lights.py: TrafficLights", "waymax/dynamics/abstract_dynamics.py: apply_trajectory_update_to_state", "waymax/env/base_environment.py: BaseEnvironment", "waymax/env/planning_agent_environment.py: PlanningAgentEnvironment", "waymax/agents/waypoint_following_agent.py: IDMRoutePolicy", "waymax/metrics/"]}
{"id": "C187", "title": "More traffic changes nothing for the others but overlaps and what agents react to", "statement": "Adding other road users to a scenario, present or absent, moving or parked, in the way or not, but not the SDC, leaves everything that concerns the old objects as it was: reset and step fail in the same cases and otherwise move the old objects identically, over whole episodes, for every dynamics model that treats objects one by one; the expert picks the same actions; log divergence, kinematic infeasibility and off-road of the old objects and the SDC's wrong-way, off-route and progression metrics are the same. The overlap metric of an old object becomes 1 exactly if it was 1 or the object overlaps an added one, so it never goes down. One would also expect that more traffic never makes the IDM agent faster; it does: with default settings a fast car between the agent and a stopped car makes the agent accelerate, since only the first object met counts. It does hold if the added objects on the way are no faster than the old ones on the way, in particular on a road that was free, and added objects off the way change nothing.", "quantifier": "all scenarios, all numbers of old and added objects, all positions of the added objects in the arrays, all actions of old and added objects, all episodes of any length, all metrics, all IDM settings with non-negative acceleration and spacing", "why_tests_cant": "A relation between two runs with different numbers of objects; tests run one scenario at a time.", "anchors": ["waymax/env/base_environment.py: BaseEnvironment.reset, BaseEnvironment.step", "waymax/metrics/overlap.py: OverlapMetric", "waymax/metrics/imitation.py", "waymax/metrics/roadgraph.py", "waymax/metrics/route.py", "waymax/agents/waypoint_following_agent.py: IDMRoutePolicy.update_speed, IDMRoutePolicy._compute_lead_velocity, IDMRoutePolicy._compute_lead_distance"]}
{"id": "C188", "title": "A longer warm-up is a replay of the log", "statement": "Resetting with k more warm-up steps should give the same state as resetting and then replaying these k steps with the expert. The clock, the log, the map and the pose, velocity and time stamp of every object at every step are the same. But z and the sizes stay those of the last step of the short warm-up when replayed, and without object injection an object that enters the scene during the extra steps is taken over by the longer warm-up and missing after the replay. If z, sizes and presence are logged unchanged over the extra steps, the two states are equal, and so are all episodes that follow, for any actions and dynamics model.", "quantifier": "all scenarios, all configurations with at least one warm-up step, all numbers of extra steps within the log, all later actions and dynamics models, all lengths of the episode that follows", "why_tests_cant": "A relation between two runs with different configurations, for every split of the log between warm-up and replay.", "anchors": ["waymax/env/base_environment.py: BaseEnvironment.reset, BaseEnvironment.step", "waymax/datatypes/operations.py: update_by_slice_in_dim", "waymax/datatypes/simulator_state.py: update_state_by_log", "waymax/agents/expert.py: infer_expert_action", "waymax/dynamics/abstract_dynamics.py: DynamicsModel.forward", "waymax/dynamics/state_dynamics.py: StateDynamics"]}
{"id": "C189", "title": "Expert rollouts with discretised actions do not drift", "statement": "When the expert drives an environment whose delta action space is discretised, the rounding of the actions to the grid does not accumulate: at every step of a rollout of any length a controlled object stays within half a bin of its logged x, y and heading (DeltaGlobal), or within half the diagonal of a bin of its logged position (DeltaLocal), as long as its log is valid and moves per step by at most the bounds of the action space (DeltaLocal: by at most the bounds minus that distance).", "quantifier": "all scenarios, all bounds with a heading bound of at least half a turn, all numbers of bins per coordinate, all sets of controlled objects, all rollout lengths within the log, all configurations with at least one warm-up step", "why_tests_cant": "The bound must hold after any number of steps, for any log and any resolution; a test shows one log at one resolution, and accumulation shows only in long rollouts.", "anchors": ["waymax/dynamics/discretizer.py: DiscreteActionSpaceWrapper, Discretizer.discretize, Discretizer.make_continuous", "waymax/dynamics/delta.py: DeltaGlobal, DeltaLocal", "waymax/agents/expert.py: infer_expert_action, create_expert_actor", "waymax/env/rollout.py: rollout"]}
{"id": "C190", "title": "Actions labelled from the log, executed without feedback", "statement": "The actions that the inverse of DeltaGlobal infers from successive pairs of logged steps, executed in order after the warm-up, should keep an object at its log. Undiscretised labels within the bounds do, exactly. Discretised labels should stay within half a bin, but they drift: by at most half a bin per executed label and coordinate, and for every number of labels there is a log for which this drift is reached (a slow object never moves).", "quantifier": "all scenarios, all warm-up lengths, all numbers of labels within the log, all bounds with a heading bound of at least half a turn, all numbers of bins, all sets of controlled objects", "why_tests_cant": "The drift grows with the length of the episode and depends on the log and the resolution; a test sees one of them.", "anchors": ["waymax/dynamics/discretizer.py: DiscreteActionSpaceWrapper, Discretizer", "waymax/dynamics/delta.py: DeltaGlobal.inverse, DeltaGlobal.compute_update", "waymax/env/base_environment.py: BaseEnvironment.reset, BaseEnvironment.step"]}
{"id": "C191", "title": "Sim agents and the future of the log", "statement": "One would expect that planning episodes with a sim agent do not depend on what is logged after the current step, as C148 shows for everything else in the simulator. For agents that follow logged way points this is false: the default IDM agent sets a parked car in motion exactly if the recording says that the car will leave later. What such an agent knows of the future is limited to two things: which logged way point is nearest to the point it is about to reach, and whether that way point is the end of the route. If both are the same in two recordings for all objects it drives, the next simulated state is the same. In particular this holds if everything logged later stays farther away and neither recording ends there.", "quantifier": "all pairs of recordings equal up to some step, all planning states before that step, all planner actions and keys, all speed rules; IDM with look-ahead from the current position; the violation is a one-step episode", "why_tests_cant": "The dependence shows only when comparing runs on two recordings with a common past; a test replays one recording.", "anchors": ["waymax/agents/waypoint_following_agent.py: WaypointFollowingPolicy.update_trajectory, _project_to_a_trajectory, IDMRoutePolicy", "waymax/env/planning_agent_environment.py: PlanningAgentEnvironment.step"]}
{"id": "C192", "title": "IDM agents and parked objects on a straight road", "statement": "An object driven by the default IDM agent along a straight logged route never runs into an object that stands still, if at the start every other object is either out of its way or blocks the way for at least one metre at a distance of at least a tenth of a second at the present speed: at no later step of the episode do the boxes overlap, the object stays on the straight line, never drives backwards and never faster than 30 m/s (the start speed being at most that). The condition on the route is needed: where the logged route is at its end the agent keeps its velocity for ever and covers at least half the distance this velocity stands for, whatever is in the way.", "quantifier": "all numbers of objects, all planning episodes of any length, all planner actions and keys, all positions, sizes and speeds meeting the condition; real arithmetic", "why_tests_cant": "Absence of collisions over episodes of every length and from every admissible distance and speed is an invariant; a test drives up to one obstacle from one distance.", "anchors": ["waymax/agents/waypoint_following_agent.py: IDMRoutePolicy.update_speed, IDMRoutePolicy._get_accel, WaypointFollowingPolicy.update_trajectory", "waymax/env/planning_agent_environment.py: PlanningAgentEnvironment.step"]}
{"id": "C193", "title": "IDM agents and the vehicle they follow", "statement": "An object driven by the default IDM agent along a straight logged route never runs into the vehicle it follows. The leader may be moved by anything (planner, log, another agent); it is enough that it blocks the way for at least one metre, moves on in every step by at least a tenth of a second of its own velocity, and is at least a tenth of a second away at the start, and that no other object is in the way. Then at no step of the episode do the boxes overlap; the object stays on the straight line, never drives backwards, never faster than 30 m/s, and stays at least a tenth of a second behind the leader. A standing object stays where it is as long as some object, standing or moving, blocks its way less than two metres ahead. It is not enough that the leader does not come back: the agent trusts the velocity stored for the leader and drives into one that stands although it is stored with a high velocity.", "quantifier": "all numbers of objects, all planning episodes of any length, all planner actions and keys, all motions of the leader meeting the condition; real arithmetic", "why_tests_cant": "Absence of collisions over episodes of every length behind every admissible leader is an invariant; a test follows one leader from one distance.", "anchors": ["waymax/agents/waypoint_following_agent.py: IDMRoutePolicy.update_speed, IDMRoutePolicy._get_accel, WaypointFollowingPolicy.update_trajectory", "waymax/env/planning_agent_environment.py: PlanningAgentEnvironment.step"]}
