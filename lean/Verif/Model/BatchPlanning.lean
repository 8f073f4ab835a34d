import Verif.Model.BatchRollout
import Verif.Model.Planning
/-
The planning environment on whole batches (waymax/env/planning_agent_environment.py), with the axis arithmetic, broadcasting and shape
checks of the code, and the sim agents that it runs (waymax/agents/sim_agent.py). All sim agents of an environment have one type `X` of
internal states here; python lets them differ. Data types are not modelled.
-/

namespace Waymax

namespace Nd
variable {β : Type}

/-- `jnp.repeat(x[..., None, :], n, axis=-2)`. waymax/env/planning_agent_environment.py:56-57 -/
def repeatBeforeLast (x : Nd β) (n : Nat) : Except Err (Nd β) := do
  assertThat (x.shape ≠ []) .indexError
  return { shape := x.shape.dropLast ++ [n, x.shape.getLastD 0], get := fun idx => x.get (idx.dropLast.dropLast ++ [idx.getLastD 0]) }

/-- `jnp.any(x, axis=-1)` of an array with at least one axis. Called at waymax/env/planning_agent_environment.py:470 -/
def anyLast (x : Nd Bool) : Nd Bool :=
  { shape := x.shape.dropLast, get := fun idx => (List.range (x.shape.getLastD 0)).any fun k => x.get (idx ++ [k]) }

end Nd

/-- `select_by_onehot(..., keepdims=False)` on one boolean leaf: the sum of the products, as a boolean. A selection without axes is
rejected here; the code would sum the last axis. waymax/datatypes/operations.py:213-245 -/
def selectByOnehotBoolNd (x selection : Nd Bool) : Except Err (Nd Bool) :=
  let r := selection.shape.length
  if x.shape.take r = selection.shape then
    if r = 0 then .error .valueError
    else .ok
      { shape := x.shape.eraseIdx (r - 1)
        get := fun idx => (List.range (selection.shape.getD (r - 1) 0)).any fun k =>
          x.get (idx.take (r - 1) ++ k :: idx.drop (r - 1)) && selection.get (idx.take (r - 1) ++ [k]) }
  else .error .assertion

/-- `Action.validate` (shapes). waymax/datatypes/action.py:48-52 -/
def ActNd.validate {α : Type} (a : ActNd α) : Except Err Unit :=
  let r := a.valid.shape.length - 1
  assertThat (a.data.shape.take r = a.valid.shape.take r ∧ a.valid.shape.getLast? = some 1) .assertion

/-- `TrajectoryUpdate.as_action`. waymax/datatypes/action.py:103-113 -/
def UpdNd.asAction {α : Type} (u : UpdNd α) : Except Err (ActNd α) := do
  let a ← u.x.concatLast u.y
  let a ← a.concatLast u.yaw
  let a ← a.concatLast u.velX
  let data ← a.concatLast u.velY
  return { data, valid := u.valid }

/-! ### PlanningAgentDynamics -/

/-- `PlanningAgentDynamics.compute_update`. waymax/env/planning_agent_environment.py:47-60 -/
def planningUpdateNd (d : DynNd ℝ) (action : ActNd ℝ) (t : TrajNd ℝ) : Except Err (UpdNd ℝ) := do
  let n ← t.numObjects
  let data ← action.data.repeatBeforeLast n
  let valid ← action.valid.repeatBeforeLast n
  let tiled : ActNd ℝ := { data, valid }
  tiled.validate
  d.computeUpdate tiled t

/-- `PlanningAgentDynamics.inverse`. waymax/env/planning_agent_environment.py:115-145 -/
def planningInverseNd (inverse : InverseNd ℝ) : InverseNd ℝ := fun t m timestep => do
  let a ← inverse t m timestep
  let data ← selectByOnehotNd a.data m.isSdc false
  let valid ← selectByOnehotBoolNd a.valid m.isSdc
  return { data, valid }

/-! ### The environment -/

/-- `PlanningAgentSimulatorState`. waymax/env/planning_agent_environment.py:148-159 -/
structure PlanStateNd (X : Type) where
  sim : StateNd ℝ
  actorStates : List X

/-- A sim agent on batches. waymax/env/planning_agent_environment.py:188-190 -/
abbrev SimAgentNd (X K P : Type) := RaisingActor (PlanStateNd X) (ActNd ℝ) X (Option K) P (Nd Bool)

/-- What `PlanningAgentEnvironment.__init__` stores. waymax/env/planning_agent_environment.py:194-204 -/
structure PlanEnvNd (X K P : Type) where
  dynamics : DynNd ℝ
  cfg : EnvConfig
  rewards : Dict ℝ
  actors : List (SimAgentNd X K P)
  params : List P

section
variable {X K P : Type}

/-- `PlanningAgentEnvironment.reset`: the first lines are those of `BaseEnvironment.reset`.
waymax/env/planning_agent_environment.py:214-253 -/
noncomputable def planResetNd (E : PlanEnvNd X K P) (split : K → Nat → List K) (s : StateNd ℝ) (rng : Option K := none) :
    Except Err (PlanStateNd X) := do
  let sim ← resetNd E.cfg s
  let state : PlanStateNd X := { sim, actorStates := [] }
  let keys := planKeys split rng E.actors.length
  return { state with actorStates := (keys.zip E.actors).map fun (key, actor) => actor.init key state }

/-- `_initialized_overlap`. waymax/env/planning_agent_environment.py:449-470 -/
noncomputable def initializedOverlapNd (log : TrajNd ℝ) : Except Err (Nd Bool) := do
  let t ← log.mapLeaves fun _ x => x.dynIndexV 0 (-1)
  let boxes ← boxesNd t
  return (pairwiseOverlapsNd boxes).anyLast

/-- What the loop over the sim agents carries. waymax/env/planning_agent_environment.py:384-396 -/
structure MergedNd (X : Type) where
  action : ActNd ℝ
  controlled : Nd Bool
  actorStates : List X

/-- One pass of the loop. waymax/env/planning_agent_environment.py:407-420 -/
def mergeSimAgentNd (s : PlanStateNd X) (isControllable : Nd Bool) (acc : MergedNd X)
    (e : SimAgentNd X K P × X × P × Option K) : Except Err (MergedNd X) := do
  let out ← e.1.selectAction e.2.2.1 s e.2.1 e.2.2.2
  let controlledBySim ← Nd.zip (fun a b => a && b) out.isControlled isControllable
  let data ← Nd.where3 controlledBySim.expandLast out.action.data acc.action.data
  let valid ← Nd.where3 controlledBySim.expandLast out.action.valid acc.action.valid
  let controlled ← Nd.zip (fun a b => a || b) acc.controlled controlledBySim
  return { action := { data, valid }, controlled, actorStates := acc.actorStates ++ [out.actorState] }

/-- `PlanningAgentEnvironment.step`. waymax/env/planning_agent_environment.py:359-434 -/
noncomputable def planStepNd (E : PlanEnvNd X K P) (split : K → Nat → List K) (s : PlanStateNd X) (action : ActNd ℝ)
    (rng : Option K := none) : Except Err (PlanStateNd X) := do
  let current ← s.sim.simTrajectory.slice s.sim.timestep 1
  let update ← planningUpdateNd E.dynamics action current
  let planningAgentAction ← update.asAction
  let overlap ← initializedOverlapNd s.sim.logTrajectory
  let isControllable := overlap.map fun b => !b
  assertThat (E.actors.length = s.actorStates.length) .valueError
  let keys := planKeys split rng E.actors.length
  let merged ← (E.actors.zip (s.actorStates.zip (E.params.zip keys))).foldlM (mergeSimAgentNd s isControllable)
    { action := planningAgentAction, controlled := s.sim.objectMetadata.isSdc, actorStates := [] }
  let newTraj ← (stateNd ℝ).forward merged.action s.sim.simTrajectory s.sim.logTrajectory merged.controlled s.sim.timestep
    E.cfg.allowNewObjectsAfterWarmup
  return { sim := { s.sim with simTrajectory := newTraj, timestep := s.sim.timestep.map fun t => t + 1 }
           actorStates := merged.actorStates }

end

/-! ### Metrics -/

/-- `select_by_onehot` on a metric. waymax/datatypes/operations.py:213-245 -/
def selectMetricNd (m : MetricNd) (sel : Nd Bool) : Except Err MetricNd := do
  let value ← selectByOnehotNd m.value sel false
  let valid ← selectByOnehotBoolNd m.valid sel
  return { value, valid }

/-- One pass of the first loop of `PlanningAgentEnvironment.metrics`. waymax/env/planning_agent_environment.py:298-303 -/
def planSelectOneNd (sel : Nd Bool) (d : Dict MetricNd) (name : String) : Except Err (Dict MetricNd) :=
  match d.get? name with
  | some r => do return d.set name (← selectMetricNd r sel)
  | none => .ok d

/-- `PlanningAgentEnvironment.metrics`. waymax/env/planning_agent_environment.py:274-321 -/
noncomputable def planMetricsNd (registry : Dict (StateNd ℝ → Except Err MetricNd)) (cfg : EnvConfig) (metricsToRun : List String)
    (s : StateNd ℝ) : Except Err (Dict MetricNd) := do
  let sel := s.objectMetadata.isSdc
  let d ← runMetricsNd registry s metricsToRun
  let d ← ["log_divergence", "overlap", "offroad"].foldlM (init := d) (planSelectOneNd sel)
  if metricsToRun.contains "kinematic_infeasibility" then
    let ok := s.timestep.map fun t => decide (t > (cfg.initSteps : Int) - 1)
    match d.get? "kinematic_infeasibility" with
    | some kim => do
      let value ← Nd.zip (fun v (b : Bool) => v * if b then 1 else 0) kim.value ok
      let valid ← Nd.zip (fun a b => a && b) kim.valid ok
      return d.set "kinematic_infeasibility" (← selectMetricNd { value, valid } sel)
    | none => .error .keyError
  else return d

/-! ### Rollouts -/

/-- `PlanningAgentEnvironment` as a rollout uses it: `reset` and `step` are called without a random key, `observe` is the identity.
waymax/env/planning_agent_environment.py:162-441, waymax/env/rollout.py:132-199 -/
noncomputable def planEnvNd {X K P : Type} (E : PlanEnvNd X K P) (split : K → Nat → List K)
    (registry : Dict (StateNd ℝ → Except Err MetricNd)) (metricsToRun : List String) (computeReward : Bool) :
    RolloutEnv (PlanStateNd X) (ActNd ℝ) (PlanStateNd X) (Dict MetricNd) TypedNd where
  reset := fun s => planResetNd E split s.sim
  step := fun s a => planStepNd E split s a
  observe := id
  metrics := fun s => planMetricsNd registry E.cfg metricsToRun s.sim
  reward := fun s _ => planRewardNd registry E.cfg computeReward E.rewards s.sim

/-- The same for one scenario. waymax/env/planning_agent_environment.py:162-441 -/
noncomputable def planEnv {D X K P : Type} {n T : Nat} [NeZero T] (E : PlanEnv D X K P n T) (split : K → Nat → List K)
    (registry : Dict (Metric n T)) (metricsToRun : List String) (computeReward : Bool) :
    Env (PlanState X n T) (Act D) (PlanState X n T) (Dict (MetricArr n)) ℝ where
  reset := fun s => planReset E split s.sim
  step := fun s a => planStep E split s a
  observe := id
  metrics := fun s => planMetrics registry E.cfg metricsToRun s.sim
  reward := fun s a => planReward registry E computeReward s.sim a
  termination := fun s => [termination s.sim]
  truncation := fun s => [truncation s.sim]

/-- `rollout` in the planning environment. The internal states of the sim agents, which are part of the states of the output, are left out
of the output here. waymax/env/rollout.py:103-205 -/
noncomputable def planRolloutNd {X K P Y J Q C : Type} (E : PlanEnvNd X K P) (splitEnv : K → Nat → List K)
    (registry : Dict (StateNd ℝ → Except Err MetricNd)) (metricsToRun : List String) (computeReward : Bool)
    (actor : RaisingActor (PlanStateNd X) (ActNd ℝ) Y J Q C) (split : J → J × J) (params : Q) (scenario : StateNd ℝ) (rng : J)
    (numSteps : Nat) : Except Err RolloutNd := do
  let es ← rolloutEntries (planEnvNd E splitEnv registry metricsToRun computeReward) actor split params ActNd.zerosLike
    { sim := scenario, actorStates := [] } rng numSteps
  match es.map fun e => { action := e.action, state := e.state.sim, observation := e.observation.sim, metrics := e.metrics, reward := e.reward : RolloutNd } with
  | [] => .error .typeError
  | e :: rest => do
    let out := stackRollout (e :: rest) e
    RolloutNd.validate out
    return out

/-- The expert for the planning environment: `create_expert_actor` with the environment's dynamics.
waymax/agents/expert.py:29-107, waymax/env/rollout.py:208-222 -/
def planExpertNd {X J Q : Type} (inverse : InverseNd ℝ) : RaisingActor (PlanStateNd X) (ActNd ℝ) Unit J Q (Nd Bool) where
  init := fun _ _ => ()
  selectAction := fun _ s _ _ => do
    let action ← inferExpertActionNd (planningInverseNd inverse) s.sim
    return { actorState := (), action, isControlled := s.sim.objectMetadata.isSdc }

/-- The same for one scenario. waymax/agents/expert.py:29-107, waymax/env/rollout.py:208-222 -/
def planExpert {D X J Q : Type} {n T m : Nat} [NeZero T] (d : DynamicsModel ℝ D n) (toRow : D → Fin m → ℝ) (ofRow : (Fin m → ℝ) → D) :
    Actor (PlanState X n T) (Act D) Unit J Q (Fin n → Bool) where
  init := fun _ _ => ()
  selectAction := fun _ s _ _ =>
    let combined : Traj ℝ n 2 := fun i t =>
      if t.val = 0 then dynIndex (s.sim.simTrajectory i) s.sim.timestep else dynIndex (s.sim.logTrajectory i) (s.sim.timestep + 1)
    { actorState := (), action := planningInverse d toRow ofRow combined s.sim.objectMetadata 0
      isControlled := fun i => (s.sim.objectMetadata i).isSdc }

/-- `SimAgentActor.select_action` and `init`, for a subclass given by its `update_trajectory`. waymax/agents/sim_agent.py:28-95 -/
def simAgentNd {K P : Type} (isControlled : StateNd ℝ → Nd Bool) (updateTrajectory : StateNd ℝ → Except Err (UpdNd ℝ)) :
    SimAgentNd Unit K P where
  init := fun _ _ => ()
  selectAction := fun _ s _ _ => do
    let u ← updateTrajectory s.sim
    let action ← u.asAction
    return { actorState := (), action, isControlled := isControlled s.sim }

/-- `_DEFAULT_CONTROL_FUNC`. waymax/agents/sim_agent.py:23 -/
def defaultControlNd (s : StateNd ℝ) : Nd Bool := s.objectMetadata.isSdc.map fun b => !b

/-- `FrozenSimPolicy.update_trajectory`. waymax/agents/sim_agent.py:105-123 -/
def frozenUpdateNd (s : StateNd ℝ) : Except Err (UpdNd ℝ) := do
  let cur ← s.simTrajectory.slice s.timestep 1
  return { x := cur.x, y := cur.y, yaw := cur.yaw, velX := cur.velX, velY := cur.velY, valid := cur.valid }

end Waymax
