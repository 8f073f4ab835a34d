# Formal model of Waymax in Lean 4

## Approach

* One Lake library, `lean/Verif`. `Verif/Model/*` models the Python code function by function, each definition citing
  the lines it models. `Verif/Spec/*` holds small specifications that do not mention model helpers. `Verif/Props/*`
  holds the property theorems, with a concrete instance of the hypotheses beside each.
* Arrays of static shape are functions on `Fin n`. JAX shapes are static, so dimension equalities that JAX checks at
  trace time are typing facts here, except where a shape error is the point of a property (then shapes are data).
* The base model is one scenario without batch axes. `Model/Batch*.lean` models resetting, stepping, metrics, rewards, rollouts, observations and the planning environment
  on arrays with any leading batch axes (`Nd`: a list of dimensions and a function of the index list, with NumPy
  broadcasting), and C105, C106, C108, C109, C112, C120-C123 refine them to the base model: at every batch index the batch does what
  the base model does for that scenario alone. Other properties are about one scenario.
* Bookkeeping code (reset, step, validity, rollout, wrappers, merging) is modelled for an arbitrary scalar type and an
  arbitrary dynamics model, without any law on the scalars, so those theorems hold for IEEE floats as well.
* Numeric code (geometry, dynamics, metrics, discretiser) is modelled over the real numbers. This idealises float32:
  rounding, overflow and NaN are not modelled there, except in C132-C138, C153, C154, C156, C165 and C167, which treat `wrap_yaws`, the displacement model, the
  discretiser, the overlap test, the bicycle model and the kinematic infeasibility metric, log divergence, wrong-way, off-route, off-road, route progression, the linear reward and observations in machine arithmetic (`Model/Float.lean`,
  `Model/Machine.lean`, `Model/MachineGeometry.lean`, `Model/MachineBicycle.lean`, `Model/MachineMetrics.lean`, `Model/MachineFrame.lean`, `Model/MachineOffroad.lean`, `Model/MachineProgression.lean`): any binary format with rounding to nearest
  even and gradual underflow after every operation; overflow, infinities, NaN and fused operations are left out.
  C158-C160, C164, C166, C168, C180 and C181 (`Model/Ieee*.lean`) add NaN, infinities and overflow; the sign of a zero and fused operations are left out. `arctan2(y,x)` is the argument of the complex number x+iy. Infinite
  distances are modelled explicitly (`WithTop ℝ`).
* Python exceptions and failed asserts are `Except` values.
* Where the code does not satisfy a property that a user would expect (or that the doc strings promise), the negation
  is proved with a concrete witness, the exact behaviour is proved, and a `_partial` theorem covers what does hold.

## Trusted base

* Lean 4.33.0 kernel, and Mathlib's definitions used in statements (ℝ, sin, cos, Complex.arg, Finset, ...).
* Axioms: only `propext`, `Classical.choice`, `Quot.sound`. `AXIOMS.md` lists what `#print axioms` prints for every
  theorem named in `MANIFEST.json`. No axioms are declared, and there is no `sorry`, `native_decide` or `bv_decide`.
* The transcription of the Python code into the model (by reading; nothing was executed), and these facts about JAX /
  NumPy / TensorFlow used by the code: `dynamic_slice`/`dynamic_update_slice` add the axis length to a negative start and
  then clamp it into `[0, dim - size]`, and reject `size > dim`; `argmin`/`argmax`/`top_k` take the first index
  among ties; `%` is floor modulo; `rint` rounds half to even; `tf.data.shard(n,i)` keeps the elements with index ≡ i mod n.
  `interleave` with block length 1 takes one element from the current slot and moves on, clears a slot whose input has ended and fills
  an empty slot with the next input; the cycle length under AUTOTUNE is any positive number and may depend on the machine; without
  `deterministic` any open slot may be next. `shuffle(B)` returns a random element of a buffer that is always refilled to `B`.
  `random.seed` overwrites the state and `random.shuffle` permutes.

## Plan per property

- **C01** Reset starts from the log alone: Model reset on `Fin n → Fin T → Pt` trajectories; pointwise characterisation of every entry; equality of resets of states that share a log; idempotence.
- **C02** Reset rejects mis-sized scenarios: reset returns `Except`; iff-characterisation of success.
- **C03** Simulated history is never rewritten: Pointwise frame theorem for one step, then induction over an arbitrary list of actions (inductive run relation/fold).
- **C04** Log, metadata and map are immutable: Same fold; equality of the immutable components.
- **C05** Time advances by exactly one step: Fold lemma on timestep; arithmetic on Int.
- **C06** Controlled objects obey the dynamics, all others follow the log: Pointwise characterisation of the written column for an arbitrary dynamics (a parameter).
- **C07** Without object injection nothing appears and controlled objects never vanish: Invariants by induction over the action list.
- **C08** With object injection, uncontrolled objects are present exactly when logged: Pointwise theorem on validity + induction.
- **C09** An object that appears starts at its logged pose: Code violates it for controlled objects: negation by witness, partial theorem for uncontrolled ones.
- **C10** The set of controlled objects is fixed for the episode: Uses C03; equality of the control mask at every reachable state.
- **C11** Actions marked invalid fall back: Code violates it: theorem that the next state does not depend on action validity at all (for every dynamics whose numeric update ignores validity), witness of the negation, partial theorem for the `use_fallback` path.
- **C12** Uncontrolled objects replay every logged field: Code violates it for z/length/width/height: exact characterisation + witness; partial theorem for the other fields.
- **C13** Expert actions reproduce the log: Induction over the rollout with StateDynamics.inverse/compute_update.
- **C14** A rollout is the iteration of env.step: Model lax.scan as a recursive fold; theorem by induction on n.
- **C15** Rollouts are prefix-stable: Corollary by induction on n, m.
- **C16** Stepping past the end: Code violates it: exact characterisation of what is overwritten + witness; partial theorem.
- **C17** Brax wrapper reports the episode: Model of the wrapper's pure functions; induction over the episode.
- **C18** Brax reset reports done for an already finished scenario: Code violates it; witness and partial theorem.
- **C19** DMEnv wrapper call protocol: State machine over call lists; invariants by induction.
- **C20** A failed DMEnv reset does not start an episode: Code violates it; witness and partial theorem.
- **C21** Yaw wrapping: ℝ; floor-mod; uniqueness.
- **C22** Frame changes are rigid motions: ℝ matrices written out in coordinates.
- **C23** Combining poses: ℝ; matrix product written out.
- **C24** Bounding-box corners: ℝ; trigonometric identities.
- **C25** Box overlap test is exact: ℝ; separating axis theorem proved from Hahn-Banach (Mathlib) plus a sector argument for the four axes.
- **C26** Overlap is symmetric and frame independent: ℝ; algebra on projections.
- **C27** Overlap metric: Definition unfolds to a count of overlapping valid others; iff theorem.
- **C28** Delta actions round trip (global frame): ℝ; algebra.
- **C29** Delta actions round trip (local frame): ℝ; rotation algebra; counterexample for the double clipping; partial theorem.
- **C30** Bicycle model respects its limits: ℝ; trigonometric algebra and clipping lemmas.
- **C31** Bicycle model inverse: ℝ; Complex.arg as arctan2.
- **C32** Bicycle rollouts are kinematically feasible: ℝ; combines C31 facts with |wrap d| ≤ |d|.
- **C33** Discretizer: ℝ for the per-coordinate part with round-half-even, mixed radix index over lists by induction.
- **C34** Discrete action space wrapper: Built on C33.
- **C35** Inverse action by search is optimal: argmin over a Fin; violated for non-SDC objects (witness), partial for the SDC.
- **C36** Log divergence: ℝ.
- **C37** Wrong-way metric: Minimum over Finset in WithTop ℝ.
- **C38** Off-route metric: WithTop ℝ with IEEE-style comparisons against inf/nan.
- **C39** Progression metric: ℝ; argmin; violated non-negativity (witness), partial.
- **C40** Off-road metric: ℝ; argmin over points; exact characterisation.
- **C41** Linear reward: Sum over the reward dictionary (List of name/weight).
- **C42** Metric registry: Registry as an association list; induction over operation lists.
- **C43** Selecting the SDC: Finset sum over Fin n.
- **C44** Merging actors: List fold; permutation induction.
- **C45** Planning environment: who moves each object: List fold over agents; last-writer characterisation.
- **C46** Planning environment with no sim agents: Corollary of the StateDynamics update.
- **C47** IDM speeds are safe and bounded: ℝ; monotonicity.
- **C48** IDM lead vehicle: cumsum/min over lists by induction.
- **C49** Constant-speed agent: ℝ.
- **C50** Observation window shows only the past: Window theorem from dynamic_slice clamping/wrapping plus reachable-timestep invariant.
- **C51** is_ego marks the observing object: Code violates it: exact characterisation, witness, partial.
- **C52** Observations are in one frame: Code violates it for sdc_paths: witness, partial for the other parts.
- **C53** Road-graph filtering keeps the nearest points: stable top-k over lists.
- **C54** Road-graph ids survive filtering: float32 rounding of integers: exact for |id| ≤ 2^24, witness beyond.
- **C55** Sharded file names: List Char model of split, int and % formatting; violated for base names with a percent sign, partial otherwise.
- **C56** Distributed reading covers every file once: List.shard by index mod; counting.
- **C57** num_shards has no effect on the data returned: Multisets; violated with drop_remainder (witness), partial without batching.
- **C58** WOMD metadata round trip: Round trip through the record model of examples; violated because ids are stored as float32: witness, exact value, partial.
- **C59** Unknown future stays unknown through WOMD export: Violated because -1 reads back as True: shown for every state, objects and lights; partial.
- **C60** Masked mean: Finset sums over ℝ.
- **C61** Slice update and mask update: Fin-indexed arrays and JAX index normalisation.
- **C62** Batched reward: Shape-level model of numpy broadcasting; violated (witness), partial for per-object metrics.
- **C63** Configured sim agents are usable: Decision model of the constructors; violated (witness), partial.
- **C64** Expert rollouts with delta actions follow the log: Induction over the rollout with the round-trip theorems of C28/C29.
- **C65** Braking does not reverse a vehicle: ℝ; violated (witness), partial when the speed is at least max_accel*dt.
- **C66** Only controlled objects are rewarded: Comparison of the two masks; violated (witness), partial for the other configurations.
- **C67** Discretizer shape check: Decision model of the constructor; violated (witness), exact condition.
- **C68** State dynamics executes the command: Corollaries of the step theorem, any scalar type.
- **C69** Sim agents control objects that enter later: ℝ; violated (witness: placeholder boxes coincide), partial for objects whose first box meets no other.
- **C70** The planner moves the SDC: Violated (witness), partial when no sim agent claims the SDC.
- **C71** Planning metrics are single-agent: Exact result for any registry; violated for user-registered per-object metrics (witness), holds for the built-in ones.
- **C72** Planning reward matches planning metrics: Exact formula for any registry; violated right after reset (witness), partial otherwise.
- **C73** PlanningAgentDynamics.forward: Shape-level model of the action tiling; violated for every number of objects other than 1 and for allow_new_objects (witness), exact behaviour.
- **C74** PlanningAgentDynamics.inverse: One-hot selection theorem plus the step theorem of C45.
- **C75** Route end invalidates: Code violates it: the action's validity is ignored; witness and exact behaviour.
- **C76** Way-point followers stay on their route: Exact result of the projection (nearest logged point, foot of the perpendicular), carried through the environment step.
- **C77** IDM reacts to its leader: Monotonicity of the IDM formula over ℝ.
- **C78** Frozen agents stay put: Invariant of a driven object, by induction over the steps.
- **C79** IDM braking is bounded: Code violates it: witness; bound that does hold as partial.
- **C80** Object-centric observations: Compose the pose transform theorems with the global observation of C50.
- **C81** Selecting one observer: Shape-level array model; code violates it: witnesses and exact result per leaf rank.
- **C82** SDC observation agrees with the object observation: Equality of two model functions on every state with one SDC.
- **C83** Masked mean along any axis: Shape-level array model; last axis proved, default axis violated with exact behaviour.
- **C84** One-hot selection on batched data: Shape-level array model, arbitrary rank.
- **C85** Planning metrics on batches: Shape-level array model; violated (witness), exact result for square batches, partial unbatched.
- **C86** Keeping the remainder loses nothing: List model of tf.data batching; violated for two dimensions, partial for at most one.
- **C87** Dropping the remainder keeps batch shapes: Induction over the batch dimensions.
- **C88** Delta dynamics integrate: Induction over the steps of an episode.
- **C89** Exported WOMD window: Window lemma for dynamic slices; composition of writer and reader; acceptance condition by case analysis.
- **C90** A loaded scenario is the example: Reader evaluated on arbitrary examples; specification by the list of records.
- **C91** Sizes survive WOMD export: Violated: unknown future counts as size -1 in the average; exact formula, negative sizes, partial without future steps.
- **C92** Aggregated time features: Association lists keyed by character lists, N-d tensors; lookups of the result characterised for every key.
- **C93** Limiting the number of objects: Violated (SDC dropped, which_time cut): witness, exact behaviour, partial.
- **C94** Objects entering under a sim agent: Violated: the object enters at the placeholder (-1,-1); exact behaviour, witness, partial without injection.
- **C95** Sim agents built from a configuration: Builder evaluated for every configuration; composition with the planning step theorem (last claimant).
- **C96** Accepted configurations can be evaluated: Checks and metric/reward evaluation composed; violated because rewards are not checked; exact acceptance condition and partial.
- **C97** A box is drawn as the object's rectangle: Drawing calls as a list of marks; corners compared with the rectangle of the overlap specification (real arithmetic).
- **C98** The picture of a trajectory shows what is there: Exact characterisation of the marks by membership, and counts.
- **C99** Red boxes agree with the overlap metric: C98 composed with the overlap-metric theorem.
- **C100** Map and lights in the picture: Membership and counts over arbitrary lists of points and lights; exact acceptance condition.
- **C101** The view follows the chosen object: Code violates it: every index other than -1 indexes a vector with two indices; default centre as partial.
- **C102** A trajectory without highlighted step can be drawn: Code violates it: comparing with None raises; every given step as partial.
- **C103** Metrics on the picture are readable: Code violates it: all texts at one place; exact texts and paths, single metric as partial.
- **C104** An observation is drawn around its observer: C98 composed with the frame theorem C80.
- **C105** A batch is its scenarios: Second model, arrays with any leading axes and the axis arithmetic of the code; refinement to the one-scenario model, step and episode by induction.
- **C106** Scenarios at different steps: Code violates it: the update index is mapped over a batch axis it does not have; reading and log replay hold; shared step as partial.
- **C107** Reset keeps a state valid: Code violates it for every batch: reset stores a scalar time step; one scenario as partial.
- **C108** Metrics of a batch are the metrics of its scenarios: Refinement of each metric to its one-scenario model.
- **C109** Every metric accepts a batched time step: Code violates it: TypeError; shared step as partial.
- **C110** The declared action space is the accepted one: Specs with extended-real bounds, reshape on arrays of any rank, and the wrapper's step up to the next state. Code violates it for state dynamics in the multi-agent environment (0-d bounds): exact error, the other models as partial.
- **C111** Declared limits are enforced: Bicycle: equality of whole episodes under replacing actions by nearest allowed ones. Delta: code violates it (no clipping in the forward model); allowed actions as partial.
- **C112** Rewards of a batch are the rewards of its scenarios: Reward loop on arrays of any batch shape, refined to the one-scenario reward. Data type: code violates it for an empty reward configuration; exact data type, the rest as partial.
- **C113** Batches end together: Case analysis on the flags of the batch. The shape of the discount is violated by the code before the last step: witness, the last step as partial.
- **C114** Equality of data objects: Objects as trees of arrays with class tags; mutual induction over trees. Code violates it for classes without their own comparison and for missing parts: exact errors, the other classes as partial.
- **C115** Validated scenarios can be simulated: Shape and type checks as equivalences. Simulation: code violates it when metadata and trajectories differ in the number of objects; same number as partial, by the batch refinement of C105.
- **C116** A loaded batch is its examples: Dictionaries of arrays with any leading axes (Model/Loader). Spec: the example at a batch index by feature name. Refined to the single-example loader of C90.
- **C117** SDC paths are loaded as stored: As C116; a path record read off the features by name.
- **C118** The scenario generator yields every record exactly once, faithfully: Model/Generator: feature description, parsing of a record as named flat lists, preprocessing, stacking into batches, `pmap` as application per device; the pipeline of Model/Dataset in between. Compose C92/C93 (aggregation), C116/C117 (conversion of batches), C56/C86/C87 (pipeline) into one statement from files to scenarios.
- **C119** Records can be read scenario by scenario or object by object: Splitting by object needs all features to have the same first dimension. Negation with the default configuration and a complete record, exact condition, and the part that holds.
- **C120** A rollout of a batch is the rollouts of its scenarios: Model/BatchRollout.lean models `rollout`, `RolloutOutput.validate`, `rollout_log_by_expert_sdc`, the expert and the four inverse dynamics on arrays with any batch axes. Proof: the inverses and the expert refine their one-scenario versions, a simulation theorem between the two scans gives entry-by-entry correspondence, and a stacking lemma reads entry t of scenario p out of the stacked arrays.
- **C121** The planning environment treats the scenarios of a batch separately: Model/BatchPlanning.lean models the planning environment, its dynamics and sim agents on arrays with any batch axes. Proof: a refinement relation between the state of the batch and the state of each scenario that also relates the internal states of the sim agents is preserved by reset and by each merge of the agent loop, hence by step and, by induction, by episodes; metrics and reward by one-hot selection of the arrays of C108.
- **C122** A rollout of a batch in the planning environment is the rollouts of its scenarios: planRolloutNd in Model/BatchPlanning.lean. Proof: the simulation theorem between scans of C120 with the relation of C121; the SDC part by induction over the entries from C45, C70 and C74.
- **C123** Observations of a batch are the observations of its scenarios: Model/BatchObservation.lean models the observation functions on arrays with any batch axes: repeat and expand_dims over the observer axis, reshapes in the rigid transforms, top-k over the last axis. Proof: each array step is related to its one-scenario counterpart at every index (Props/BatchObservation.lean), the steps are composed in Props/BatchObserve.lean, and C50, C80 and C82 are carried over in Props/BatchSeen.lean.
- **C124** Shuffling loses nothing and works locally: Model/Pipeline.lean models the tf.data operations on possibly endless data sets: interleave with slots and a cursor, repeat, shuffle with a buffer, batch. Proof: invariant of the buffer (returned and held records are a permutation of a beginning of the input), then records tagged with their positions (Props/Pipeline.lean).
- **C125** Every epoch contains every record once: Model/Pipeline.lean models the tf.data operations on possibly endless data sets: interleave with slots and a cursor, repeat, shuffle with a buffer, batch. Violated because the data set is repeated before it is shuffled (C125_violated). Proved: without shuffling every epoch is whole; with shuffling a bound on how far the counts can be off.
- **C126** Reading reaches every record: Model/Pipeline.lean models the tf.data operations on possibly endless data sets: interleave with slots and a cursor, repeat, shuffle with a buffer, batch. Violated with more shards than the cycle length TensorFlow chooses (C126_violated, C126_starved). Proved: with enough slots every record is read again and again (fairness of the round robin, Props/Interleave.lean); finite reading refines Model/Dataset.lean.
- **C127** Deterministic reading is the same on every machine: Model/Pipeline.lean models the tf.data operations on possibly endless data sets: interleave with slots and a cursor, repeat, shuffle with a buffer, batch. Violated because the cycle length is left to TensorFlow (C127_violated). Proved: with enough slots for all inputs the order does not depend on the machine; a single file is read in its order.
- **C128** Processes agree on the order of the files: Model/Pipeline.lean models the tf.data operations on possibly endless data sets: interleave with slots and a cursor, repeat, shuffle with a buffer, batch. Python's `random` is any generator with a state, a seed function and a shuffle that permutes. Proof: the seed overwrites the state; with C56.
- **C129** A seed shuffles the files and only the files: Model/Pipeline.lean models the tf.data operations on possibly endless data sets: interleave with slots and a cursor, repeat, shuffle with a buffer, batch. Violated for seed 0, which Python takes for false, and for the global random state (C129_zero_violated, C129_global_violated). Proved: nonzero seeds shuffle the files, no seed leaves the state alone.
- **C130** Files are replayed to metrics: Composition of C118 (generator) with C120 (expert rollouts of batches), C14 and C36; Spec/EndToEnd.lean says what it means that a rollout replays a record.
- **C131** Agents drive each scenario of a batch by itself: Model/BatchWaypoint.lean has the agents on arrays with all axes, with the broadcasting of the code. Proof: each array expression is evaluated at one index (Lemmas/Broadcast.lean: broadcasting of arrays with common leading axes) and found equal to the one-scenario model (Props/BatchWaypoint.lean, Props/BatchIdm.lean).
- **C132** Yaw wrapping in machine arithmetic: Model/Float.lean: floating point formats (precision, least exponent), representable numbers, rounding to nearest even with gradual underflow; Model/Machine.lean: the code with every operation rounded. Proof: the floored remainder is exact (Sterbenz and grid arguments, Lemmas/Float.lean) up to the addition of the modulus; monotonicity of rounding gives the range.
- **C133** Expert replay does not drift in machine arithmetic: Machine numbers are an instance of the scalars of the environment model, so the proof of the replay is the induction of C30 with `close to the log` as invariant, and one-step error bounds of rounding.
- **C134** Discretised actions in machine arithmetic: Standard error analysis (relative error of each operation) shows that the computed bin coordinate is less than half a bin away from the bin; explicit floats as witnesses for the two violations.
- **C135** Overlap test and overlap metric in machine arithmetic: Model/MachineGeometry.lean: the functions of the overlap test with every operation rounded, over an abstract kernel for sine, cosine and the matrix product. Error analysis of corners, axes and projections; comparing the rounded difference with zero is exact (gradual underflow); the separating axis theorem (Lemmas/Sat.lean) for boxes enlarged by the margin gives the bound on the distance.
- **C136** Bicycle model in machine arithmetic: Model/MachineBicycle.lean: the bicycle model, its inverse and the metric with every operation rounded, over an abstract library for sine, cosine, arctan2, square root and division. Error analysis of one step in Props/BicycleMachineNumbers.lean and Props/BicycleMachineSteps.lean, then induction over episodes. The heading of a parked vehicle changes in the first step (C136_parked_violated); position and velocity are kept exactly.
- **C137** The bicycle model is feasible in machine arithmetic: The speed before the step is the same machine number in the model and in the inverse. The change of speed, the distance travelled and the turn found by the inverse are compared with those of the model; angles are compared up to turns of the rounded 2π. The errors add up to half of the tolerance.
- **C138** Rounding drift of simulated episodes: Compare one step of Model/MachineBicycle.lean with the step of Model/Continuous.lean from nearby states (Props/BicycleMachineAccurate.lean, drift_step), then induction over the episode with explicit error polynomials. The speed error is tracked apart from the velocity error, so that errors add up instead of being multiplied.
- **C139** Actions of another shape are rejected: Model/Batch.lean already carries the shape checks and the broadcasting. Characterise, for each model, the shapes for which computing and validating the update succeeds, and relate the accepted steps to the one-scenario model (Props/ActionShape.lean).
- **C140** The order of the objects and padding objects have no influence: A relation between two differently stored copies of a scenario (Spec/Padding.lean); reset, step, metrics, rewards and actors preserve it, rollouts by induction (Props/Padding.lean).
- **C141** The order of the objects and padding objects have no influence in the planning environment: The same relation on planning states; the exact condition under which the first-frame overlap test ignores padding, and a counterexample with the usual placeholder values (Props/PaddingPlanning.lean).
- **C142** The map frame has no influence on the simulation: A relation between a scenario and its moved copy (Spec/Motion.lean); each dynamics model commutes with motions, reset and step preserve the relation, episodes by induction; a counterexample for an object that enters (Props/Motion.lean).
- **C143** The map frame has no influence on the metrics: Each metric on related states: distances, cross products and rectangle interiors are preserved by motions (Props/MotionMetrics.lean).
- **C144** The map frame has no influence on the expert's actions: The inverse dynamics on related logs; a counterexample with 8 m in one step and a turn of 45 degrees (Props/MotionMetrics.lean).
- **C145** The map frame has no influence on what an observer sees: The observer's frame absorbs the motion: related states give equal views, for the nearest road points by equality of their distances (Props/MotionObserve.lean).
- **C146** The map frame has no influence on the sim agents: Projection onto a moved log, look-ahead way points and collisions are related point by point, so speeds are equal and poses moved (Props/MotionAgents.lean).
- **C147** The map frame has no influence on the planning environment: Agents' answers are related, merging preserves the relation, episodes by induction with the invariant that present objects are logged; a counterexample with a placeholder box (Props/MotionPlanning.lean).
- **C148** The simulator does not look into the future of the log: A relation between states whose logs agree up to step k and whose simulated parts are equal; every function that reads the log does so at a step not beyond k; episodes and rollouts by induction (Spec/Causal.lean, Props/Causal.lean).
- **C149** Padding of the road map and of the routes has no influence on the simulation and the metrics: Minimum and argmin of a list do not change when infinities are appended; the state transitions do not read the map; episodes by induction, rollouts with a general lemma on related environments (Spec/MapPadding.lean, Lemmas/RolloutRel.lean, Props/MapPadding.lean).
- **C150** Padding of the road map does not influence what an observer sees: The stable sort of the padded keys is the sort of the keys followed by the padding, by uniqueness of lists sorted by (distance, index); a counterexample for equal sizes (Props/MapPadding.lean).
- **C151** An action moves only the object it is for: The update of one object reads only its own entries; episodes by induction over the actions, ignored actions with the constancy of the control mask (Spec/Influence.lean, Props/Influence.lean).
- **C152** Numbers stored for absent objects have no influence: A relation on states that is preserved by reset and step; for new objects the invariant that what the log holds at the clock is present; metrics, expert and observations one by one; a counterexample for an arriving object (Spec/Absent.lean, Props/Absent.lean).
- **C153** Log divergence, wrong-way and off-route in machine arithmetic: The metrics with every operation rounded; error of the distance from the errors of its operations; minimum over points and thresholds by case distinction; exact zeros from x - x = 0 (Model/MachineMetrics.lean, Spec/MachineMetrics.lean, Props/MetricsMachine.lean).
- **C154** Rewards in machine arithmetic: Induction over the weights with the error of one term and of one addition; monotonicity of rounding for the signs; representability of whole numbers for exactness; a counterexample for the order (Props/RewardMachine.lean).
- **C155** Pictures of one scenario of a batch: The indexing of all leaves at the level of whole arrays (Model/BatchViz.lean); the picked state read as a scenario is the scenario of the batch, leaf by leaf; then the pictures of Model/Viz.lean; observations by composition with C123 (Props/BatchViz.lean).
- **C156** What an observer sees in machine arithmetic: The change of frame with every operation rounded (Model/MachineFrame.lean; sine, cosine, matrix products and the matrix inverse are parameters of a given accuracy); forward error analysis against the exact coordinates of Spec/Observation.lean (Props/FrameMachine.lean); kernels that meet the assumptions and witnesses of lost accuracy (Props/FrameMachineKernels.lean).
- **C157** Random keys: who gets which: The rollout, environments and actors of C14 and C45 with an arbitrary type of keys. Spec/Keys.lean defines actors without random numbers and ideal key generators. `C157_fresh_keys`, `C157_keys_apart`, `C157_rollout_key_free`, `C157_planning_key_free`, `C157_builtin_actors`. Sim agents in a rollout: the expectation is `AgentsGetKeys`, refuted by `C157_agents_violated`; `C157_agents_partial` gives the exact behaviour (they are always called without a key) and `C157_rollouts_do_not_vary_partial` the consequence.
- **C158** NaN and infinities of one object stay with it: Model/Ieee.lean extends the machine numbers of C132 with NaN, infinities and overflow and repeats the displacement model, log divergence, overlap, route metrics, linear reward and `select_by_onehot` in it; Spec/Broken.lean says what a broken pose is. Proved: `C158_builtin`, `C158_episode`, `C158_log_divergence`, `C158_no_overlap`, `C158_overlap`. Route metrics and planning environment: the expectations are `RouteSeesOnlySdc` and `PlanningSeesSdc`, refuted by `C158_route_violated` and `C158_planning_violated`; exact behaviour in `C158_wrong_way_exact`, `C158_off_route_exact`, `C158_planning_metric_exact`, `C158_planning_reward_exact`; `C158_route_partial` and `C158_planning_partial` prove the expectation when all entries are finite.
- **C159** A broken position is not rated as good driving: Same model. The expectation is `BrokenIsNotPerfect`, refuted by `C159_violated` and `C159_overlap_violated`; exact behaviour in `C159_off_route_exact` and `C159_overlap_exact`. Log divergence and wrong-way do what one expects: `C159_log_divergence_partial`, `C159_wrong_way_partial`.
- **C160** No overflow at any realistic distance: Model/Ieee.lean against the models without overflow of C134 and C153. Spec/Overflow.lean defines the embedding of data without special values and the bounds. `C160_log_divergence`, `C160_wrong_way`, `C160_off_route`, `C160_overlap`, `C160_overlap_metric`, `C160_displacement`, `C160_reward`; `C160_log_divergence_accurate` combines it with C153; `C160_limit` shows that distances do overflow at 2^64 metres.
- **C161** Expert rollouts in the planning environment follow the log: Model/Planning.lean and Model/BatchPlanning.lean (`planEnv`, `planExpert`, `planRolloutNd`). Spec/PlanExpert.lean says which objects nobody moves. `C161_others`, `C161_sdc_state`, `C161_sdc_delta_global`, `C161_sdc_delta_local`, `C161_replay`, `C161_log_divergence` by induction over the rollout. `C161_object_actions_rejected`: a step with one action row per object fails for every built-in dynamics, since the result has one axis too many for the trajectory; hence `C161_plain_expert_fails` and `C161_full_violated`: the expert built with the plain dynamics model fails in the planning environment. `C161_wrapped_succeeds` with `env.dynamics`.
- **C162** An IDM agent brakes for what stands on its route: Model/Waypoint.lean (`idmLookahead`, `idmUpdateSpeed`). Spec/IdmRoute.lean: the next stretch of the route and the two halves of the claim (`ReactsToRoute`, `IgnoresOffRoute`). The code violates both with the default setting, which looks straight ahead: `C162_full_violated`. `C162_default_ignores_route`: with that setting neither the log nor the step count have any influence. `C162_looks_along_log_partial`: told to look along the log, the agent reacts to every object on the stretch. `C162_ignores_others_partial`: it ignores the others if the stretch ends within the log and no points are added. `C162_behind_violated`: near the end of the log the window reaches back and the agent brakes for a car behind it.
- **C163** A transition rated as feasible can be driven: Model/Continuous.lean (`kinematicsInfeasibilityMetric`, `bicycleUpdate`). Spec/Drivable.lean: `Drivable`, the vehicle of the metric. The code violates the claim: `C163_full_violated`, a car that jumps by 1 km is feasible, and `C163_ignores_position`: positions never have an influence. `C163_velocity_partial`: some action within the limits gives the new speed, and the new velocity if both speeds are above 0.6 m/s.
- **C164** A broken action does not break the vehicle: Model/IeeeBicycle.lean: the bicycle model and the kinematic infeasibility metric in arithmetic with overflow, NaN and infinities. Spec/BrokenAction.lean. Infinite entries are executed as the bound (`C164_infinite_acceleration`, `C164_infinite_steering`); without NaN in the action everything stays finite (`C164_no_nan_partial`) and finite actions give exactly what arithmetic without overflow gives (`C164_no_overflow`), so that C136 and C137 carry over. NaN gets through (`C164_full_violated`, `C164_nan_acceleration`, `C164_nan_steering`), is never made up for by later actions (`C164_never_recovers`, by induction over the episode), and the metric rates the object as feasible (`C164_rated_feasible`).
- **C165** The off-road metric in machine arithmetic: Model/MachineOffroad.lean: the off-road test with every operation rounded, for any kernel of sine, cosine, sums of products and norms with a relative accuracy. Spec/OffroadMachine.lean: corners, sides and nearest edges of the exact geometry with a tolerance. A corner off the road by more than the tolerance is reported (`C165_off`), a box on the road by more than it is not (`C165_on`), and the verdict is that of exact geometry when every corner is clear (`C165_agrees_partial`). At 2^25 m from the origin corners round onto the edge and the verdict is wrong (`C165_full_violated`).
- **C166** Broken positions and the off-road metric: Model/IeeeOffroad.lean: the off-road test in arithmetic with overflow, NaN and infinities, with the first NaN winning in argmin. Spec/OffroadIeee.lean. A NaN box is always reported on the road and valid (`C166_nan_object`, `C166_full_violated`), it does not change others (`C166_others`); one NaN road edge puts every object on the road (`C166_nan_road`); an infinite x is judged by the first point of the map (`C166_infinite`, `C166_infinite_order`); with moderate coordinates nothing overflows and the metric is that of C165 (`C166_no_overflow`).
- **C167** Route progress in machine arithmetic: Model/MachineProgression.lean: the metric with every operation rounded. Spec/ProgressionMachine.lean: points and paths that are nearest up to a tolerance, the covered fraction. The value is the covered fraction of nearly nearest points of a nearly nearest path, up to a relative tolerance (`C167_progression`); at the logged end it is 1 and at the start 0, exactly (`C167_start_and_end`); when the nearest points are clear it is the exact fraction up to rounding (`C167_agrees_partial`). At 2^24 m the distances to both ends round to the same number and the value is 0 instead of 1, for every accurate float32 library (`C167_progress_violated`).
- **C168** Broken positions and route progress: Model/IeeeProgression.lean: the metric with overflow, NaN and infinities. Spec/ProgressionIeee.lean. A broken current position of any object makes the metric invalid (`C168_broken_position`), so does a valid NaN point of an on-route path (`C168_broken_path`); a log that is broken at its first and last step, for any object, gives full progress (`C168_broken_log`, `C168_sees_only_sdc_violated`); with finite positions only the car counts (`C168_sees_only_sdc_partial`); coordinates of invalid path points never matter (`C168_padding`); with moderate coordinates and arc lengths nothing overflows and the metric is that of C167 (`C168_no_overflow`).
- **C169** Left and right are treated alike by the simulator: Spec/Mirror.lean: mirror images of states, actions and updates. Every dynamics model is mirror free (`C169_state`, `C169_deltaGlobal`, `C169_deltaLocal`, `C169_bicycle`); reset and step preserve mirror images (`C169_reset`, `C169_step_partial`, `C169_state_step`) and so do whole episodes, by induction over the actions (`C169_episode_partial`, `C169_state_episode`). It fails when a controlled object enters the scene: it moves relative to the placeholder coordinate -1 (`C169_violated`).
- **C170** Left and right are treated alike by the metrics: Log divergence, overlap, kinematic infeasibility, wrong way, off route, progression and off-road give the same results (`C170_...`). If a road edge is mirrored without reversing it, the signed distance changes its sign (`C170_edge_not_reversed`).
- **C171** Left and right are treated alike by the expert: Setting the state: `C171_state`. Displacements in map and vehicle axes and bicycle commands: mirrored unless the heading makes an exact half turn (`C171_displacement_partial`, `C171_local_partial`, `C171_bicycle_partial`). A car that turns round on the spot is its own mirror image, and the expert turns right in both (`C171_violated`).
- **C172** Left and right are treated alike by the sim agents: IDM speeds, following the log, constant speed and frozen agents (`C172_idm_speed`, `C172_following`, `C172_idm`, `C172_constant_speed`, `C172_frozen`, `C172_claims`).
- **C173** An observer in the mirror sees the mirror image: `C173_object`, `C173_sdc_frame`, `C173_sdc_observation`: both observations exist or both fail with the same error, and one is the mirror image of the other.
- **C174** Left and right are treated alike in the planning environment: Spec/MirrorPlanning.lean. Frozen and IDM agents are mirror free (`C174_agents`); reset, one step and whole episodes by induction (`C174_reset`, `C174_step_partial`, `C174_episode_partial`), as long as no object enters and placeholder boxes of absent objects keep away from the others in the first logged frame. With a car that starts on such a placeholder box the sides differ (`C174_violated`). Every scenario has a mirror image (`flipScene_flipped`).
- **C175** Observations are as the environment declares them: Model/ObservationSpec.lean, Spec/ObservationSpec.lean. A layout is the list of named array shapes of the observed state (element types are left out). By C105 and C121 reset and steps keep all shapes except that of the clock, which reset replaces by a clock without axes; hence observations conform exactly when there are no batch axes (`C175_exact`, `C175_planning_exact`), all arrays other than the clock always conform (`C175_batched_partial`, `C175_planning_partial`), the declaration depends only on the shapes of the sample (`C175_sample`) and declares the same arrays (`C175_names`). A batch of two scenarios violates the full expectation (`C175_violated`).
- **C176** An episode can be saved as a log and resumed: Spec/Resume.lean: the recorded scenario, the configuration of the resumed run and equality of states up to the log before the current step. `C176_reset`: resetting the recorded episode gives it back. `C176_resume`: the continuations correspond step by step, with the same errors. `C176_metrics`, `C176_rewards`, `C176_expert`: what is computed from the states agrees. Sim agents are not covered.
- **C177** Making an object larger never makes it collide less: Spec/Size.lean: larger objects and scenes. `C177_overlap`, `C177_pair` follow from the exact meaning of the overlap test (C25, C27). For the off-road metric the expectation is false (`C177_offroad_violated`: a 2 m object on a road edge is off the road, made 20 m long it is reported on the road since its corners are nearest to other edges) and holds where the road is convex (`C177_offroad_partial`).
- **C178** Masked arrays hide exactly the entries that are not valid: Model/Masked.lean models waymax/datatypes/array.py. `C178_accepts`, `C178_created`: what is accepted. `C178_exact`: for given shapes `masked_value` is right for all contents iff the values have no further axes or all axes of the flags have length 1. `C178_rows`: what happens with one flag per row of a matrix. `C178_violated`: the documented shape `valid.shape + (...)` does not work in general. `C178_same_axes_partial`, `C178_metrics`: where it does.
- **C179** Cutting off the beginning and the end of the log has no influence: Spec/Window.lean: the cut scenario. `C179_reset`, `C179_steps`, `C179_episode`: reset and steps commute with cutting, as an equality of results including errors. `C179_metrics`, `C179_kinematic`: so do the metrics, except progress along the route, which is measured from the first to the last step of the log (`C179_progression_violated`, `C179_progression_partial`).
- **C180** Agents that keep their distance and broken objects: Model/IeeeIdm.lean is Model/Waypoint.lean's IDM speed update in the arithmetic with NaN and infinities. `Removed`, `AloneIn` and the full expectation `BrokenObjectsIgnored` are in Spec/BrokenSpeed.lean. The lead velocity is the minimum over the objects met at each way point; NaN among them makes it NaN, which `isfinite` masks out. The counterexample is computed in binary32 with bounds on every operation.
- **C181** Agents that keep their distance choose finite, bounded speeds: Over Model/IeeeIdm.lean. Every operation is tracked in one of three classes: a finite number with bounds, not negative (perhaps infinite), or up to a bound (perhaps minus infinity). Lead velocity and lead distance are either the marker -1 or finite and not negative; the ratio of desired to actual distance is then never NaN. Minus infinity is clipped to zero at the end. `SaneIdm`, `WideFormat`, `topSpeed` are in Spec/IdmMachine.lean.
- **C182** Metrics judge what has been simulated so far: Over Model/Metrics.lean, Model/Continuous.lean and Model/Reward.lean; the rejection over Model/BatchMetrics.lean. `SameSoFar` and the full expectation `SoFar` are in Spec/SoFar.lean. All metrics but two read one step of the simulated trajectory, at the clock; the kinematic metric reads two, from the clock minus one, where a negative start counts from the end.
- **C183** The rollout, Brax and DeepMind interfaces show the same run: Model: `rollout`, `braxReset`/`braxStep`, `dmReset`/`dmStep` over an arbitrary `Env`. Induction over the recorded entries (`C183_brax`, `C183_dm`), the clock of the base environment discharges the side conditions (`C183_dm_base`). Metrics: `C183_reset_metrics_partial`, `C183_step_metrics_exact`, and `C183_violated` with the log divergence of an object that drives away from its log.
- **C184** The episodes of the DeepMind interface are the scenarios of the generator: Model: `dmInit`, `dmReset`, `dmStep`, `dmRun` over an arbitrary `Env`. Specification `startsOf` lists how the scenarios start, independent of the wrapper. Induction over the calls (`C184_resets_exact`, `C184_stream_partial`), `C184_independent`, and `C184_violated`/`C184_first_skipped` for the scenario taken by the constructor.
- **C185** Ids, classes and marks of objects have no influence on the simulation: Model: the existing environment, metrics, agents, planning environment and observations. Specification `SameRoles`, `relabel`, `LabelBlind`. Each operation commutes with `relabel`; induction over the actions for episodes and rollouts. `C185_marks_violated` shows that control marks are ignored in both directions, `C185_marks_exact` that they never matter.
- **C186** Time stamps, heights of objects and traffic lights have no influence on the simulation: Model: the existing environment, dynamics, metrics, agents, planning environment and observations. Specification `SameTraffic` lists the fields that agree. Each operation preserves the relation or gives the same result; induction over the actions for episodes and rollouts.
- **C187** More traffic changes nothing for the others but overlaps and what agents react to: Relation AddedTo between a scenario and one with more objects (Spec/Traffic); reset, step, episodes, expert and metrics preserve it as in C140 but without assuming that the added objects are absent; overlap from C27; the IDM agent through C48 (leader) and monotonicity of the formula; violation by a fast car cutting in, with default settings.
- **C188** A longer warm-up is a replay of the log: expertRun is the iteration of step with the expert's actions (Spec/Warmup); one expert step of a steady log turns the warmed-up state w into w+1; induction; the control mask for the later episode is the same because the warm-up history is never rewritten; violations by the example scenario.
- **C189** Expert rollouts with discretised actions do not drift: NearLog and NearLogDist (Spec/DiscreteReplay) say how close a simulated point is to the log. Invariant over the rollout, as for C64: from a pose within the bound the action inferred towards the next logged pose, clipped and rounded to the grid, leads to a pose within the bound; when clipping acts the bound itself is a grid value, so nothing more is lost. DeltaLocal: the error is rotated, its length is kept.
- **C190** Actions labelled from the log, executed without feedback: logLabels are the inferred actions of the logged steps, LabelsReplay says what their execution guarantees (Spec/OpenLoop). Induction over the labels; one executed label adds at most the rounding error of that label. Attained by a car that moves half a bin per step: rounding halves to even makes every label the zero action.
- **C191** Sim agents and the future of the log: KnowsNoFuture states the expectation for whole planning episodes, SameRoute what a way-point follower can see of a log (Spec/Foresight). The projection is determined by the nearest logged point and the end test; the step then is equal as in C148. The violation is computed from the exact behaviour of the agent at a parked car.
- **C192** IDM agents and parked objects on a straight road: LaneClear, BlocksLane, WayAhead, StraightRoute and RouteOver describe the situation from the driving object (Spec/Lane). The invariant 'every blocking object is at least 0.1 s away at the present speed' is preserved by the IDM formula (gap_kept) because the first sampled way point that meets an obstacle is at most one metre inside it; the step of the planning environment then keeps the object on the line (lane_step), and induction over the episode gives the claim.
- **C193** IDM agents and the vehicle they follow: LeadsAhead describes the leader by the point from which it blocks the way (Spec/Convoy). The invariant 'the leader is at least 0.1 s away at the present speed' is preserved by the IDM formula for every leader speed (follow_kept): much faster leaders move away far enough, and behind slower ones the desired gap makes the agent brake hard enough (catch_up). Motion on the line and induction as for C192.

## Modelled and not modelled, by file

A function counts as modelled when a definition in `lean/Verif/Model` cites its lines. Properties that only read fields or
shapes (`xy`, `num_objects`, ...) are written out where they are used.

- `waymax/agents/actor_core.py`: modelled: WaymaxActorOutput.validate, WaymaxActorCore.init, WaymaxActorCore.select_action, WaymaxActorCore.name, merge_actions; not modelled: register_actor_core (type registration), actor_core_factory
- `waymax/agents/agent_builder.py`: modelled: create_sim_agents_from_config
- `waymax/agents/constant_speed.py`: modelled: create_constant_speed_actor, ConstantSpeedPolicy.__init__, ConstantSpeedPolicy.update_speed
- `waymax/agents/expert.py`: modelled: infer_expert_action, create_expert_actor
- `waymax/agents/sim_agent.py`: modelled: SimAgentActor.__init__, SimAgentActor.update_trajectory, SimAgentActor.init, SimAgentActor.select_action, FrozenSimPolicy.update_trajectory; not modelled: SimAgentActor.name (a string)
- `waymax/agents/waypoint_following_agent.py`: modelled: WaypointFollowingPolicy.update_trajectory, WaypointFollowingPolicy._get_next_trajectory_by_projection, WaypointFollowingPolicy.update_speed, IDMRoutePolicy.__init__, IDMRoutePolicy.update_speed, IDMRoutePolicy._get_accel, IDMRoutePolicy._compute_lead_velocity, IDMRoutePolicy._compute_lead_distance, _find_reference_traj_from_log_traj, _project_to_a_trajectory, _add_headway_waypoints; not modelled: WaypointFollowingPolicy.__init__ (stores its argument), _compute_arclengths
- `waymax/config.py`: modelled: EnvironmentConfig.__post_init__, WaymaxConfig.__post_init__
- `waymax/dataloader/dataloader_utils.py`: modelled: generate_sharded_filenames, tf_examples_dataset, get_data_generator
- `waymax/dataloader/womd_dataloader.py`: modelled: preprocess_serialized_womd_data, preprocess_womd_example, simulator_state_generator
- `waymax/dataloader/womd_factories.py`: modelled: object_metadata_from_womd_dict, roadgraph_from_womd_dict, paths_from_womd_dict, simulator_state_from_womd_dict, trajectory_from_womd_dict, traffic_lights_from_womd_dict
- `waymax/dataloader/womd_factories_internal.py`: constants, types or re-exports only
- `waymax/dataloader/womd_utils.py`: modelled: aggregate_time_tensors, get_features_description, simulator_state_to_womd_dict, _roadgraph_to_dict, _trajectory_to_dict, _traffic_light_to_dict, _object_metadata_to_dict, _get_invalid_future_trajectory, _get_invalid_future_traffic_light; not modelled: simulator_state_to_womd_dict_tensorflow (converts NumPy arrays to tensors)
- `waymax/datatypes/action.py`: modelled: Action.shape, Action.__eq__, Action.validate, TrajectoryUpdate.shape, TrajectoryUpdate.__eq__, TrajectoryUpdate.validate, TrajectoryUpdate.as_action
- `waymax/datatypes/array.py`: modelled: MaskedArray.shape, MaskedArray.__eq__, MaskedArray.validate, MaskedArray.create_and_validate, MaskedArray.masked_value
- `waymax/datatypes/constant.py`: constants, types or re-exports only
- `waymax/datatypes/object_state.py`: modelled: ObjectMetadata.__eq__, ObjectMetadata.validate, Trajectory.shape, Trajectory.num_objects, Trajectory.num_timesteps, Trajectory.xy, Trajectory.xyz, Trajectory.vel_xy, Trajectory.speed, Trajectory.vel_yaw, Trajectory.__eq__, Trajectory.stack_fields, Trajectory.bbox_corners, Trajectory.zeros, Trajectory.validate, fill_invalid_trajectory; not modelled: ObjectMetadata.shape, ObjectMetadata.num_objects
- `waymax/datatypes/observation.py`: modelled: ObjectPose2D.shape, ObjectPose2D.num_objects, ObjectPose2D.rotation_matrix, ObjectPose2D.__eq__, ObjectPose2D.from_center_and_yaw, ObjectPose2D.from_transformation, ObjectPose2D.validate, Observation.shape, Observation.for_obj, Observation.validate, transform_trajectory, transform_roadgraph_points, transform_traffic_lights, transform_observation, combine_two_object_pose_2d, global_observation_from_state, _tree_expand_and_repeat, observation_from_state, sdc_observation_from_state; not modelled: ObjectPose2D.translation_vector, Observation.batch_dims, Observation.num_objects, Observation.valid
- `waymax/datatypes/operations.py`: modelled: update_by_mask, _vmap_over_batch_dims, dynamic_slice, dynamic_index, update_by_slice_in_dim, compare_all_leaf_nodes, select_by_onehot, make_invalid_data, masked_mean
- `waymax/datatypes/roadgraph.py`: modelled: RoadgraphPoints.xy, RoadgraphPoints.xyz, RoadgraphPoints.dir_xy, RoadgraphPoints.__eq__, RoadgraphPoints.validate, filter_topk_roadgraph_points, is_road_edge; not modelled: RoadgraphPoints.shape, RoadgraphPoints.num_points, RoadgraphPoints.dir_xyz
- `waymax/datatypes/route.py`: modelled: Paths.__eq__, Paths.validate; not modelled: Paths.shape, Paths.num_points_per_path, Paths.num_paths, Paths.xy, Paths.xyz
- `waymax/datatypes/simulator_state.py`: modelled: SimulatorState.shape, SimulatorState.is_done, SimulatorState.remaining_timesteps, SimulatorState.current_sim_trajectory, SimulatorState.__eq__, SimulatorState.current_log_trajectory, SimulatorState.validate, update_state_by_log, get_control_mask; not modelled: SimulatorState.batch_dims, SimulatorState.num_objects
- `waymax/datatypes/traffic_lights.py`: modelled: TrafficLights.shape, TrafficLights.xy, TrafficLights.__eq__; not modelled: TrafficLights.num_traffic_lights, TrafficLights.num_timesteps, TrafficLights.validate
- `waymax/dynamics/abstract_dynamics.py`: modelled: DynamicsModel.action_spec, DynamicsModel.forward, DynamicsModel.compute_update, DynamicsModel.inverse, apply_trajectory_update_to_state
- `waymax/dynamics/bicycle_model.py`: modelled: compute_inverse, InvertibleBicycleModel.__init__, InvertibleBicycleModel.action_spec, InvertibleBicycleModel._clip_values, InvertibleBicycleModel.compute_update, InvertibleBicycleModel.inverse
- `waymax/dynamics/delta.py`: modelled: DeltaGlobal.__init__, DeltaGlobal.action_spec, DeltaGlobal.compute_update, DeltaGlobal._clip_values, DeltaGlobal.inverse, DeltaLocal.compute_update, DeltaLocal.inverse
- `waymax/dynamics/discretizer.py`: modelled: Discretizer.__init__, Discretizer.discretize, Discretizer.make_continuous, DiscreteActionSpaceWrapper.__init__, DiscreteActionSpaceWrapper.action_spec, DiscreteActionSpaceWrapper.compute_update, DiscreteActionSpaceWrapper.inverse, inverse_action_by_search
- `waymax/dynamics/state_dynamics.py`: modelled: StateDynamics.__init__, StateDynamics.action_spec, StateDynamics.compute_update, StateDynamics.inverse
- `waymax/env/abstract_environment.py`: modelled: AbstractEnvironment.reset, AbstractEnvironment.step, AbstractEnvironment.reward, AbstractEnvironment.metrics, AbstractEnvironment.observe, AbstractEnvironment.action_spec, AbstractEnvironment.reward_spec, AbstractEnvironment.discount_spec, AbstractEnvironment.observation_spec, AbstractEnvironment.termination, AbstractEnvironment.truncation
- `waymax/env/base_environment.py`: modelled: BaseEnvironment.__init__, BaseEnvironment.dynamics, BaseEnvironment.metrics, BaseEnvironment.reset, BaseEnvironment.observe, BaseEnvironment.step, BaseEnvironment.reward, BaseEnvironment.action_spec, BaseEnvironment.reward_spec, BaseEnvironment.discount_spec, BaseEnvironment.observation_spec, _get_control_mask, _multi_agent_reward_spec
- `waymax/env/errors.py`: constants, types or re-exports only
- `waymax/env/planning_agent_environment.py`: modelled: PlanningAgentDynamics.action_spec, PlanningAgentDynamics.compute_update, PlanningAgentDynamics.forward, PlanningAgentDynamics.inverse, PlanningAgentEnvironment.__init__, PlanningAgentEnvironment.dynamics, PlanningAgentEnvironment.reset, PlanningAgentEnvironment.observe, PlanningAgentEnvironment.metrics, PlanningAgentEnvironment.reward, PlanningAgentEnvironment.action_spec, PlanningAgentEnvironment.step, PlanningAgentEnvironment.reward_spec, PlanningAgentEnvironment.discount_spec, _initialized_overlap; not modelled: PlanningAgentDynamics.__init__, PlanningAgentEnvironment.observation_spec
- `waymax/env/rollout.py`: modelled: RolloutOutput.validate, rollout, rollout_log_by_expert_sdc; not modelled: RolloutOutput.shape
- `waymax/env/typedefs.py`: constants, types or re-exports only
- `waymax/env/wrappers/brax_wrapper.py`: modelled: TimeStep.shape, BraxWrapper.reset, BraxWrapper.step; not modelled: TimeStep.__eq__, BraxWrapper.__init__, BraxWrapper.metrics, BraxWrapper.observe, BraxWrapper.reward, BraxWrapper.termination, BraxWrapper.truncation, BraxWrapper.action_spec, BraxWrapper.reward_spec, BraxWrapper.discount_spec, BraxWrapper.observation_spec
- `waymax/env/wrappers/dm_env_wrapper.py`: modelled: DMEnvWrapper.__init__, DMEnvWrapper.simulation_state, DMEnvWrapper.reset, DMEnvWrapper.step, DMEnvWrapper.action_spec, DMEnvWrapper.discount_spec, DMEnvWrapper.observation_spec, make_sdc_dm_environment; not modelled: DMEnvWrapper.config, DMEnvWrapper.stateless_env, DMEnvWrapper.observe, DMEnvWrapper.reward_spec
- `waymax/metrics/abstract_metric.py`: modelled: MetricResult.validate, AbstractMetric.compute
- `waymax/metrics/comfort.py`: modelled: KinematicsInfeasibilityMetric.__init__, KinematicsInfeasibilityMetric.compute, KinematicsInfeasibilityMetric.compute_kinematics_infeasibility
- `waymax/metrics/imitation.py`: modelled: LogDivergenceMetric.compute, LogDivergenceMetric.compute_log_divergence
- `waymax/metrics/metric_factory.py`: modelled: run_metrics, register_metric, get_metric_names
- `waymax/metrics/overlap.py`: modelled: OverlapMetric.compute, OverlapMetric.compute_overlap
- `waymax/metrics/roadgraph.py`: modelled: WrongWayMetric.compute, OffroadMetric.compute, is_offroad, compute_signed_distance_to_nearest_road_edge_point
- `waymax/metrics/route.py`: modelled: ProgressionMetric.compute, OffRouteMetric.compute
- `waymax/rewards/abstract_reward_function.py`: modelled: nothing; not modelled: AbstractRewardFunction.compute (abstract)
- `waymax/rewards/linear_combination_reward.py`: modelled: LinearCombinationReward.__init__, LinearCombinationReward.compute, _validate_reward_metrics, _linear_config_to_metric_config
- `waymax/utils/geometry.py`: modelled: rotation_matrix_2d, rotate_points, pose_from_xy_yaw, _transform_points, transform_points, transform_yaw, transform_trajectories, transform_direction, corners_from_bbox, corners_from_bboxes, has_overlap, compute_pairwise_overlaps, wrap_yaws
- `waymax/visualization/color.py`: constants, types or re-exports only
- `waymax/visualization/utils.py`: modelled: center_at_xy, get_n_colors, plot_numpy_bounding_boxes; not modelled: init_fig_ax_via_size (matplotlib), init_fig_ax (matplotlib), img_from_fig (matplotlib), save_img_as_png (file output)
- `waymax/visualization/viz.py`: modelled: _plot_bounding_boxes, _index_pytree, plot_trajectory, plot_roadgraph_points, plot_traffic_light_signals_as_points, _plot_path_points, plot_simulator_state, plot_observation, plot_single_agent_brax_timestep

Numeric code is modelled with real numbers except in the machine-arithmetic properties (C132-C138, C153, C154, C156,
C158-C160, C164-C168, C180, C181), which model rounding, and where stated overflow and NaN. Not modelled anywhere: JAX tracing,
compilation, devices and random bits (keys are opaque values); TensorFlow file reading below the list of serialized
examples; protobuf parsing; matplotlib drawing below the list of drawn primitives; tests and notebooks.

## Findings

Properties that the code violates, with the theorem that proves it; the exact behaviour is in the theorems of the same property.

- **C09** An object that appears starts at its logged pose (`C09_violated`): The code violates the property for controlled objects: negation proved with a concrete witness (C09_violated); the part that holds (uncontrolled objects) is C09_appears_at_logged_pose_partial.
- **C11** Actions marked invalid fall back (`C11_violated`): The code ignores action validity (C11_validity_is_ignored), so the documented fallback fails (C11_violated); what holds: fallback for objects that are not controlled.
- **C12** Uncontrolled objects replay every logged field (`C12_violated`): Violated by the code: z and size are frozen at the last value (C12_z_and_size_frozen, C12_violated); the remaining fields do replay the log, and full replay holds when z and size are constant in the log.
- **C16** Stepping past the end (`C16_violated`): Violated by the code: stepping past the end overwrites the last step (C16_violated, exact behaviour in C16_step_past_end_partial).
- **C18** Brax reset reports done for an already finished scenario (`C18_violated`): Violated by the code when init_steps equals the log length (C18_violated); exact behaviour in C18_brax_reset_done_partial.
- **C20** A failed DMEnv reset does not start an episode (`C20_violated`): Violated by the code (C20_violated); exact behaviour of a failed reset in C20_failed_reset_partial.
- **C28** Delta actions round trip (global frame) (`C28_inSpec_violated`): Real arithmetic. Round trip, recovery, x/y bounds and invalid case proved. The action spec also bounds the heading change, which the code does not enforce: C28_inSpec_violated, with the part that holds in C28_inSpec_partial.
- **C29** Delta actions round trip (local frame) (`C29_violated`): Real arithmetic. Violated by the code: it clips in the local frame after clipping the global displacement (C29_violated). Round trip proved when both the global and the local components are within bounds, or when the length of the displacement is.
- **C35** Inverse action by search is optimal (`C35_violated`): Real arithmetic. Optimal for the SDC (C35_search_optimal_partial). The other objects are not controlled during the search, so the code always returns index 0 for them (C35_non_sdc) and the property is violated (C35_violated).
- **C39** Progression metric (`C39_violated`): Real arithmetic; exact value (C39_progression_exact), end points; non-negativity is violated by the code (C39_violated), with the part that holds in C39_nonnegative_partial.
- **C40** Off-road metric (`C40_violated`): Real arithmetic; exact iff a valid road edge exists (C40_offroad_partial); without one the code uses the first road point (C40_no_edges), so the property is violated there (C40_violated).
- **C51** is_ego marks the observing object (`C51_violated`): Violated by the code for two or more objects in observation_from_state: is_ego is set only in the row of object 1 (it compares diag(arange(n)) with 1) (C51_violated, exact value in C51_exact); holds for the SDC observation (C51_sdc_partial).
- **C52** Observations are in one frame (`C52_violated`): Violated by the code: sdc_paths keep their old coordinates (C52_violated, C52_paths_untouched). All other parts in C52_transform_partial. Real arithmetic.
- **C54** Road-graph ids survive filtering (`C54_violated`): Violated by the code: ids go through float32 (C54_violated, id 2^24+1); ids up to 2^24 in absolute value and unfiltered road graphs are unchanged.
- **C55** Sharded file names (`C55_violated`): Violated by the code for base names containing a percent sign (C55_violated); a second @ is rejected (C55_second_at_rejected). All other names and every n >= 1 in C55_names_partial. math.log10 is taken as exact.
- **C57** num_shards has no effect on the data returned (`C57_violated`): Violated by the code with drop_remainder (C57_violated: two shards return nothing where one returns two examples); exact count in C57_drop_exact; C57_same_examples_partial covers reading without batching, and one batch dimension with the remainder kept. Record order is an arbitrary permutation.
- **C58** WOMD metadata round trip (`C58_violated`): Violated by the code: id and type features are float32 (C58_violated, id 2^24+1), and is_controlled is not stored; exact result in C58_exact, ids and types up to 2^24 in C58_small_ids_partial.
- **C59** Unknown future stays unknown through WOMD export (`C59_violated`): Violated by the code for every state: the marker -1 is read as True, so all later steps of all objects and lights come back valid at position -1 (C59_exact, C59_lights_exact, C59_violated). C59_marked_partial: the written example does carry the markers.
- **C62** Batched reward (`C62_violated`): Violated by the code for scenario-level metrics (C62_violated, exact value in C62_scenario_metric_exact); per-object metrics are right (C62_per_object, C62_per_object_partial).
- **C63** Configured sim agents are usable (`C63_violated`): Violated by the code: no parameters are passed for the sim agents, so every configuration with a sim agent is rejected (C63_violated). C63_accepts_iff is the exact condition; C63_no_agents_partial the case without sim agents.
- **C65** Braking does not reverse a vehicle (`C65_violated`): Violated by the code: one braking step can turn the velocity against the heading (C65_violated); holds when the speed is at least max_accel*dt.
- **C66** Only controlled objects are rewarded (`C66_violated`): Violated by the code: with controlled_object=VALID and no new objects after warm-up the reward uses metadata.is_valid, the step uses validity at the end of the warm-up (C66_violated). Holds for all other configurations.
- **C67** Discretizer shape check (`C67_violated`): Violated by the code: the check is `a == b or a == c` (C67_violated); C67_shape_check_partial gives the exact condition.
- **C69** Sim agents control objects that enter later (`C69_violated`): Violated by the code: the boxes of absent objects are the same placeholder and count as overlapping, so the agent is ignored (C69_violated). Holds when the object overlaps nothing in the first frame.
- **C70** The planner moves the SDC (`C70_violated`): Violated by the code: a sim agent that claims the SDC overrides the planner (C70_violated). Holds when none does.
- **C71** Planning metrics are single-agent (`C71_violated`): Violated for user-registered per-object metrics, which stay per-object (C71_violated); exact result in C71_planning_metrics, single-agent for the built-in metrics in C71_builtin_single_agent.
- **C72** Planning reward matches planning metrics (`C72_violated`): Violated right after reset: the reward charges kinematic infeasibility that metrics masks out (C72_violated). Exact formula in C72_planning_reward; agreement otherwise in C72_matches_metrics_partial.
- **C73** PlanningAgentDynamics.forward (`C73_violated`, `C73_ignores_new_objects_violated`): Violated by the code: the tiled validity has the wrong shape unless there is exactly one object, and allow_new_objects is not passed on (C73_violated, C73_ignores_new_objects_violated). Exact behaviour in C73_forward_exact_partial.
- **C75** Route end invalidates (`C75_violated`): Violated by the code: the object stays valid and jumps to the placeholder (-1, -1) (C75_violated; exact behaviour in C75_end_of_route_partial).
- **C79** IDM braking is bounded (`C79_violated`): Violated by the code (C79_violated: from 10 m/s to 0 in 0.1 s); C79_gentle_braking_partial gives a condition under which the bound holds.
- **C81** Selecting one observer (`C81_violated`, `C81_violated_batched`): Violated by the code (C81_violated, C81_violated_batched; exact result in C81_exact_*); C81_scalar_leaf_partial is what holds.
- **C83** Masked mean along any axis (`C83_violated`): Violated for the default axis=0 on matrices (C83_violated, C83_default_axis_exact, C83_default_axis_raises); proved for the last axis, which is how the code base calls it (C83_last_axis_partial).
- **C85** Planning metrics on batches (`C85_violated`): Violated by the code for kinematic infeasibility (C85_violated; C85_square_exact gives the value); C85_unbatched_partial covers the unbatched case.
- **C86** Keeping the remainder loses nothing (`C86_violated`): Violated for two or more batch dimensions (C86_violated): the short inner batch cannot be stacked. At most one dimension in C86_one_dimension_partial.
- **C91** Sizes survive WOMD export (`C91_violated`): Violated by the code: each unknown future step counts as a size of -1 (C91_exact, C91_negative, C91_violated); without future steps sizes survive (C91_no_future_partial).
- **C93** Limiting the number of objects (`C93_violated`): Violated by the code: the SDC may be dropped (C93_violated; the source has a TODO) and state/which_time, whose axis is time, is cut too (C93_which_time_cut). C93_limit is the exact behaviour, C93_keeps_partial what holds.
- **C94** Objects entering under a sim agent (`C94_violated`): Violated by the code: the object enters at (-1, -1) and valid (C94_entering, C94_violated). C94_no_entering_partial: without injection.
- **C96** Accepted configurations can be evaluated (`C96_violated`): Violated by the code: rewards on route metrics are not checked (C96_violated). C96_accepted_iff is the exact acceptance condition, C96_metrics_partial what holds.
- **C101** The view follows the chosen object (`C101_violated`): Violated by the code: any center_agent_idx other than -1 fails (C101_chosen_center, C101_violated). C101_default_center_partial covers the default; C101_rejected: no road graph, or NON_SDC highlighted.
- **C102** A trajectory without highlighted step can be drawn (`C102_violated`): Violated by the code: time_idx=None, the default, always raises TypeError (C102_no_step, C102_violated). C102_given_step_partial: any given step.
- **C103** Metrics on the picture are readable (`C103_violated`): Violated by the code: all metric texts are written at one place (C103_texts, C103_violated); C103_single_partial: at most one valid metric. C103_paths: the path points shown.
- **C106** Scenarios at different steps (`C106_violated`): Violated by the code: no step with a batched time step succeeds (C106_never, C106_violated); reading (C106_current) and log replay (C106_log_replay) do work. C106_shared_step_partial: a time step without batch axes.
- **C107** Reset keeps a state valid (`C107_violated`): Violated by the code: after reset of any batch validate fails (C107_batch_rejected, C107_violated). C107_unbatched_partial: one scenario.
- **C109** Every metric accepts a batched time step (`C109_violated`): Violated by the code: TypeError for every batched time step (C109_kinematic_rejects, C109_violated). C109_shared_step_partial: a time step without batch axes.
- **C110** The declared action space is the accepted one (`C110_violated`): Violated by the code for StateDynamics in BaseEnvironment: action_spec raises IndexError, so the DMEnv wrapper can never step it (C110_state_no_spec, C110_state_never, C110_violated). C110_step_partial: the other built-in models. Specs, planning and discrete actions without restriction.
- **C111** Declared limits are enforced (`C111_violated`): Bicycle model proved in full (C111_bicycle). Violated by the code for delta models (C111_violated): actions are not clipped; C111_delta_*_partial: allowed actions. Real arithmetic.
- **C112** Rewards of a batch are the rewards of its scenarios (`C112_dtype_violated`): Values and shapes in full for metrics with one number per object (others: C62). Data type violated by the code for an empty reward configuration (C112_dtype_violated); exact in C112_dtype.
- **C113** Batches end together (`C113_shape_violated`): Environment flags and wrapper outcome on arrays of any batch shape. Shape of the discount violated by the code before the last step (C113_shape_violated): a scalar for every batch. C113_shape_partial: the last step and single scenarios.
- **C114** Equality of data objects (`C114_violated`): Violated by the code for MetricResult, Observation and PlanningAgentSimulatorState, which have the generated comparison (ValueError on arrays), and when an optional part is missing on one side (C114_violated, C114_missing_part, C114_metric_result). C114_equal_partial: the other classes with the same parts; C114_planning_partial, C114_observation: exact behaviour of the generated comparison.
- **C115** Validated scenarios can be simulated (`C115_violated`): Checks as equivalences. Simulation violated by the code (C115_violated): validate does not compare metadata and trajectories in the number of objects; every step then fails (C115_step_rejected). C115_partial: same number of objects.
- **C119** Records can be read scenario by scenario or object by object (`C119_violated`): Violated by the code (C119_violated): with batch_by_scenario off every complete record is refused unless there are 91 map points and 91 objects (C119_by_object). What holds: C119_by_scenario_partial.
- **C125** Every epoch contains every record once (`C125_violated`): The tf.data operations are modelled from their documentation; random numbers, timing and cycle lengths are arbitrary. The claim fails with shuffling: repeat precedes shuffle.
- **C126** Reading reaches every record (`C126_violated`): The tf.data operations are modelled from their documentation; random numbers, timing and cycle lengths are arbitrary. The claim fails for endless reading with more shards than the cycle length chosen by TensorFlow (AUTOTUNE): the remaining shards are never opened.
- **C127** Deterministic reading is the same on every machine (`C127_violated`): The tf.data operations are modelled from their documentation; random numbers, timing and cycle lengths are arbitrary. The claim fails because cycle lengths depend on the machine.
- **C129** A seed shuffles the files and only the files (`C129_zero_violated`, `C129_global_violated`): The claim fails for seed 0 (files stay in order though records are shuffled) and because the global random state is reseeded.
- **C132** Yaw wrapping in machine arithmetic (`C132_keeps_yaws_in_range_violated`): Formats are rounded to nearest, ties to even, with gradual underflow; overflow, infinities and NaN are not modelled. Fails: angles in range are changed in float32 (C132_keeps_yaws_in_range_violated). The change is bounded by C132_float32_in_range_partial.
- **C134** Discretised actions in machine arithmetic (`C134_value_bounds_violated`, `C134_middle_violated`): Same idealisations as C132. Fails: values of bins can exceed the maximum (C134_value_bounds_violated) and the middle bin need not be zero (C134_middle_violated); C134_value_bounds_partial bounds the excess.
- **C136** Bicycle model in machine arithmetic (`C136_parked_violated`): Same idealisations as C132. exactLibm_accurate: a library that rounds correctly meets the hypothesis. Default time step only.
- **C139** Actions of another shape are rejected (`C139_violated`, `C139_longer_rows_violated`): The validity flags are assumed to have the documented shape (forward checks them). C139_violated and C139_longer_rows_violated show accepted wrong shapes; the _accepts theorems say exactly which, the _reads theorems what they do. An index beyond the end of a row is clamped, as JAX does.
- **C141** The order of the objects and padding objects have no influence in the planning environment (`C141_violated`): C141_violated: with one padding slot holding the placeholder -1 in every field, a car near (-1, -1) in the first frame is no longer moved by its sim agent. C141_step_partial and C141_episode_partial assume PaddingApart; a permutation satisfies it trivially. Reset, metrics and reward hold without it.
- **C142** The map frame has no influence on the simulation (`C142_violated`): C142_step_partial and C142_episode_partial assume that no controlled object enters after the warm-up (NoControlledEntry, which holds trivially when new objects are not allowed); C142_violated: the scenario is shifted by 10 and the entering object appears at (-1, -1) in both frames. C142_state_step and C142_state_episode need no such assumption.
- **C144** The map frame has no influence on the expert's actions (`C144_violated`): C144_violated: 8 m along an axis are cut to 6 m, but not cut in a frame turned by 45 degrees. C144_displacement_partial: displacements no longer than both limits, or parallel frames; C144_local_partial: displacements no longer than both limits.
- **C147** The map frame has no influence on the planning environment (`C147_violated`): C147_violated: a frozen agent, a scenario shifted by 10 m, and an absent object whose placeholder box covers a car in one frame only. C147_step_partial and C147_episode_partial assume AbsentApart and NoEntry (the latter is trivial when new objects are not allowed). C147_agents: the frozen agent and IDM with its default of not invalidating at the route's end; an agent that does invalidate writes the placeholder into the state (C75), which is not moved.
- **C150** Padding of the road map does not influence what an observer sees (`C150_violated`): C150_violated: two road points, two asked for. C150_all_points gives the exact behaviour for equal sizes. Asking for more points than stored raises (C53_sizes), so padding can turn a failure into a success.
- **C152** Numbers stored for absent objects have no influence (`C152_violated`): C152_violated: the example scenario with another length stored before the object arrives. Recordings loaded from the dataset have one size per object at all steps, so for them only the altitude leaks: C152_entering_episode_partial covers episodes in which uncontrolled objects enter, when altitude and size agree. C152_state_expert_leaks is the second failure. The wrong-way and progression metrics are covered while the SDC is present (C152_wrong_way_partial, C152_progression_partial); off-road for present objects. Time stamps are required to be equal: a controlled object whose recording has ended keeps taking its time stamps from the absent entries.
- **C153** Log divergence, wrong-way and off-route in machine arithmetic (`C153_zero_only_at_log_violated`, `C153_threshold_violated`): C153_zero_only_at_log_violated: a displacement of 2^-80 m. C153_threshold_violated: a distance just below 3.5 m that is computed as 3.5 m. C153_zero_only_at_log_partial has the bound that holds. Overflow is left out, as everywhere in the machine model.
- **C154** Rewards in machine arithmetic (`C154_order_violated`): C154_order_violated: weights 2^25, 1, -2^25 on metrics that are 1. C154_order_partial has the bound that holds. Overflow is left out.
- **C155** Pictures of one scenario of a batch (`C155_violated`): C155_violated: scenario number 7 of a batch of two JAX scenarios is drawn, as scenario 1; C155_beyond_jax and C155_beyond_numpy say what happens beyond the batch. The _partial theorems cover all indices that belong to a scenario.
- **C156** What an observer sees in machine arithmetic (`C156_observer_violated`, `C156_transform_trajectories_violated`): C156_observer_violated: with fused products a car at x = 2^24 - 1 with heading 1/2 does not see itself at the origin; C156_observer_rounded: without fusing every observer does. C156_transform_trajectories_violated: seen from 16 km east of the origin a car moving at 2^-12 m/s stands still. Everything about observations other than the exact origin is proved in full.
- **C157** Random keys: who gets which (`C157_agents_violated`): rollout calls env.reset(scenario) and env.step(state, action) without a key, so simulated agents of the planning environment are always started and stepped without a key, whatever key the rollout is given; a random simulated agent therefore cannot vary between rollouts. The rest of the property is proved.
- **C158** NaN and infinities of one object stay with it (`C158_route_violated`, `C158_planning_violated`): select_by_onehot multiplies all entries with the mask, and NaN or infinity times zero is NaN. One object with a broken position, even one marked as invalid, makes the wrong-way metric of the SDC invalid, turns its off-route metric into 0 and valid wherever the SDC is, and makes the planning environment's log divergence NaN; a valid one makes the planning environment's reward NaN. Trajectories, per-object log divergence and overlap are proved not to be affected.
- **C159** A broken position is not rated as good driving (`C159_violated`, `C159_overlap_violated`): An SDC at NaN gets off-route 0 and valid, because comparisons with NaN are false, and any object with a broken pose gets overlap 0 and valid. Log divergence shows the fault and wrong-way is marked invalid, which is proved.
- **C161** Expert rollouts in the planning environment follow the log (`C161_full_violated`): Violated part: the expert given the plain dynamics model instead of env.dynamics always raises. The bicycle model is excluded from tracking, see C30 and C31 for its inverse.
- **C162** An IDM agent brakes for what stands on its route (`C162_full_violated`, `C162_behind_violated`): Violated by the default setting in both directions, and near the end of the log in one. Proved for lookahead_from_current_position=False: the reaction in full, the other half away from the end of the log.
- **C163** A transition rated as feasible can be driven (`C163_full_violated`): The metric ignores positions, so jumps are feasible. Proved for the velocity; below 0.6 m/s for the speed only.
- **C164** A broken action does not break the vehicle (`C164_full_violated`): NaN is not clipped: it makes heading and velocity NaN for the rest of the episode, and the infeasibility metric says feasible. Proved for all actions without NaN.
- **C165** The off-road metric in machine arithmetic (`C165_full_violated`): Rounding can flip the verdict within a stated tolerance, or far from the origin of the map; proved outside the tolerance.
- **C166** Broken positions and the off-road metric (`C166_full_violated`): NaN poses are reported on the road and valid, and a single NaN road edge silences the metric for all objects. Proved: locality, exact behaviour, no overflow for moderate coordinates.
- **C167** Route progress in machine arithmetic (`C167_progress_violated`): Rounding can choose another path or point within a stated tolerance; far from the origin the progress can be off by 1. Proved up to that tolerance.
- **C168** Broken positions and route progress (`C168_sees_only_sdc_violated`): A NaN in the log of another object turns the progress of the car into 1, and a NaN position of another object makes it invalid. Proved: exact behaviour, locality while positions are finite, no overflow.
- **C169** Left and right are treated alike by the simulator (`C169_violated`): Fails for a controlled object that enters the scene after the warm-up. Proved for all other scenarios, and for all scenarios when states are set directly.
- **C171** Left and right are treated alike by the expert (`C171_violated`): An exact half turn is always taken to the right, in the mirror too. Proved for all other logs.
- **C174** Left and right are treated alike in the planning environment (`C174_violated`): A car that starts near the placeholder coordinates (-1, -1) is not controlled by its agent; in the mirror it is. Proved when absent objects' boxes keep away and no object enters.
- **C175** Observations are as the environment declares them (`C175_violated`): reset sets the clock to a number without batch axes, so with batched data the clock is declared and delivered without them. Proved exactly: conformance holds iff there are no batch axes; all other arrays conform always. Element types are not modelled.
- **C177** Making an object larger never makes it collide less (`C177_offroad_violated`): Overlap: proved in full. Off-road: false in general, since only the four corners are looked at; proved for convex road regions.
- **C178** Masked arrays hide exactly the entries that are not valid (`C178_violated`): masked_value lines up the flags with the last axes of the values, not with the first ones as create_and_validate and the documentation do. Proved: exactly which shapes work; metric results do.
- **C179** Cutting off the beginning and the end of the log has no influence (`C179_progression_violated`): Proved for reset, steps and all metrics other than the progress along the route, which depends on the first and the last logged position; proved there for cuts that keep these positions.
- **C180** Agents that keep their distance and broken objects (`C180_violated`): Broken poses and absent objects are ignored (C180_pose_partial). A NaN velocity is not ignored: it hides other objects (C180_hidden_exact, C180_violated). Missing from the full property: objects with a NaN velocity.
- **C182** Metrics judge what has been simulated so far (`C182_violated`): Proved for six metrics at all steps and for the kinematic metric from the second step on. Violated at the first step by the kinematic metric (C182_first_step_exact, C182_violated).
- **C183** The rollout, Brax and DeepMind interfaces show the same run (`C183_violated`): States, observations, rewards and step types proved for every environment. The expectation on Brax metrics is violated by the code (`C183_violated`); exact behaviour in `C183_brax` and `C183_step_metrics_exact`.
- **C184** The episodes of the DeepMind interface are the scenarios of the generator (`C184_violated`): Proved from the second scenario on (`C184_stream_partial`); the first scenario is taken by the constructor and never played (`C184_violated`).
- **C185** Ids, classes and marks of objects have no influence on the simulation (`C185_marks_violated`): Independence of all labels is proved in full; the documented meaning of the control mark fails (`C185_marks_violated`).
- **C187** More traffic changes nothing for the others but overlaps and what agents react to (`C187_violated`): Violated for the IDM agent: a fast car that cuts in before a stopped car makes the agent faster (C187_violated). Proved without restriction for the simulation, the expert and the metrics; the agent part holds when added objects met on the way are no faster than the old ones met on the way (C187_idm_partial).
- **C188** A longer warm-up is a replay of the log (`C188_violated`, `C188_presence_violated`): Violated: z and sizes are not replayed (C188_violated), and without injection entering objects are lost (C188_presence_violated). Proved: poses, velocities, stamps and everything else agree (C188_replay); full equality incl. the future when z, sizes and presence do not change (C188_warmup_partial, C188_future_partial).
- **C190** Actions labelled from the log, executed without feedback (`C190_violated`): Violated for discretised labels (C190_violated; the drift of C190_drift_attained). Proved: exact replay without discretisation (C190_labels_replay_log), drift of at most half a bin per label (C190_drift_partial).
- **C191** Sim agents and the future of the log (`C191_violated`): Violated by the default IDM agent (C191_violated; C191_parked_car gives the two velocities). Proved: equal steps for any way-point following agent when the routes are the same (C191_step_partial, C191_idm_step_partial), and when they are (C191_same_route).
