import Verif.Model.Reward
import Verif.Model.Rollout
/-
Model of waymax/agents/actor_core.py (`merge_actions`) and waymax/env/planning_agent_environment.py for one (unbatched)
scenario. All sim agents of an environment have one type `X` of internal states here; python lets them differ.
-/

namespace Waymax

/-- `jnp.where(mask[..., None], a, b)` on the data and the validity of an action.
waymax/agents/actor_core.py:193-198, waymax/env/planning_agent_environment.py:411-419 -/
def whereAct {D : Type} {n : Nat} (mask : Fin n → Bool) (a b : Fin n → Act D) : Fin n → Act D :=
  fun i => { data := if mask i then (a i).data else (b i).data, valid := if mask i then (a i).valid else (b i).valid }

/-- `merge_actions`. waymax/agents/actor_core.py:172-204 -/
def mergeActions {D X : Type} {n : Nat} (outputs : List (ActorOutput (Fin n → Act D) X (Fin n → Bool))) :
    Except Err (Fin n → Act D) :=
  match outputs with
  | [] => .error .notImplemented
  | first :: rest => .ok (rest.foldl (fun action output => whereAct output.isControlled output.action action) first.action)

section
variable {D X K P : Type} {n T : Nat}

/-- `PlanningAgentDynamics.compute_update`: the one action is repeated for all objects.
waymax/env/planning_agent_environment.py:47-60 -/
def planningComputeUpdate (d : DynamicsModel ℝ D n) (action : Act D) (cur : Fin n → Pt ℝ) : Fin n → Upd ℝ :=
  d.computeUpdate (fun _ => action) cur

/-- `Action.validate` on array shapes: the data has the shape of the validity array up to the last axis, which has length 1.
The dtype check is not modelled. waymax/datatypes/action.py:48-52 -/
def actionValidate (dataShape validShape : List Nat) : Bool :=
  decide (dataShape.take (validShape.length - 1) = validShape.take (validShape.length - 1)) &&
    decide (validShape.getLast? = some 1)

/-- Shape of `x[..., None, :]` repeated `n` times on axis -2. waymax/env/planning_agent_environment.py:57, 99-101 -/
def tileObjects (shape : List Nat) (n : Nat) : List Nat := shape.dropLast ++ [n] ++ shape.drop (shape.length - 1)

/-- Shape of `x[..., None]` repeated `n` times on axis -1. waymax/env/planning_agent_environment.py:102-104 -/
def tileLast (shape : List Nat) (n : Nat) : List Nat := shape ++ [n]

/-- `PlanningAgentDynamics.forward` for an action with batch shape `batch` and `dim` entries: the action is tiled with
`tileObjects` and its validity with `tileLast`, the result is validated, and the wrapped dynamics is called without
`allow_new_objects`, so its default False applies. waymax/env/planning_agent_environment.py:62-113 -/
noncomputable def planningForward [NeZero T] (d : DynamicsModel ℝ D n) (batch : List Nat) (dim : Nat) (action : Act D)
    (traj log : Traj ℝ n T) (isControlled : Fin n → Bool) (timestep : Int) (_allowNewObjects : Bool := true) :
    Except Err (Traj ℝ n T) :=
  if actionValidate (tileObjects (batch ++ [dim]) n) (tileLast (batch ++ [1]) n) then
    .ok (d.forward (fun _ => action) traj log isControlled timestep)
  else .error .assertion

/-- `select_by_onehot` on an action: `data` has shape (num_objects, dim). waymax/datatypes/operations.py:213-245 -/
def selectAction {m : Nat} (a : Fin n → Act (Fin m → ℝ)) (sel : Fin n → Bool) : Act (Fin m → ℝ) :=
  { data := fun k => selectByOnehot (fun i => (a i).data k) sel, valid := selectByOnehotBool (fun i => (a i).valid) sel }

/-- `PlanningAgentDynamics.inverse`; `toRow` and `ofRow` read and write the action array's last axis.
waymax/env/planning_agent_environment.py:115-145 -/
def planningInverse [NeZero T] {m : Nat} (d : DynamicsModel ℝ D n) (toRow : D → Fin m → ℝ) (ofRow : (Fin m → ℝ) → D)
    (traj : Traj ℝ n T) (md : Fin n → ObjMeta) (timestep : Int) : Act D :=
  let r := selectAction (fun i => { data := toRow (d.inverse traj md timestep i).data, valid := (d.inverse traj md timestep i).valid })
    fun i => (md i).isSdc
  { data := ofRow r.data, valid := r.valid }

/-- `PlanningAgentSimulatorState`. waymax/env/planning_agent_environment.py:148-159 -/
structure PlanState (X : Type) (n T : Nat) where
  sim : SimState ℝ n T
  actorStates : List X

/-- A sim agent: an actor whose actions are rows of `StateDynamics`. waymax/env/planning_agent_environment.py:188-190 -/
abbrev SimAgent (X K P : Type) (n T : Nat) :=
  Actor (PlanState X n T) (Fin n → Act (StateRow ℝ)) X (Option K) P (Fin n → Bool)

/-- What `PlanningAgentEnvironment.__init__` stores. waymax/env/planning_agent_environment.py:194-204 -/
structure PlanEnv (D X K P : Type) (n T : Nat) where
  dynamics : DynamicsModel ℝ D n
  cfg : EnvConfig
  rewards : Dict ℝ
  actors : List (SimAgent X K P n T)
  params : List P

/-- `PlanningAgentEnvironment.__init__`. waymax/env/planning_agent_environment.py:175-208 -/
def planInit (registry : Dict (Metric n T)) (dynamics : DynamicsModel ℝ D n) (cfg : EnvConfig) (rewards : Dict ℝ)
    (actors : List (SimAgent X K P n T) := []) (params : List P := []) : Except Err (PlanEnv D X K P n T) := do
  let rewards ← linearRewardInit registry rewards
  if cfg.controlledObject ≠ .SDC then throw .valueError
  if actors.length ≠ params.length then throw .valueError
  return { dynamics := dynamics, cfg := cfg, rewards := rewards, actors := actors, params := params }

/-- `jax.random.split(rng, n)` or `[None] * n`; `split` is the former. waymax/env/planning_agent_environment.py:244-247,
397-400 -/
def planKeys (split : K → Nat → List K) (rng : Option K) (n : Nat) : List (Option K) :=
  match rng with
  | some k => (split k n).map some
  | none => List.replicate n none

/-- `PlanningAgentEnvironment.reset`. waymax/env/planning_agent_environment.py:214-253. The first lines are those of
`BaseEnvironment.reset`. -/
noncomputable def planReset (E : PlanEnv D X K P n T) (split : K → Nat → List K) (s : SimState ℝ n T) (rng : Option K := none) :
    Except Err (PlanState X n T) := do
  let sim ← (if E.cfg.maxNumObjects = n then
      updateStateByLog
        { s with timestep := -1, simTrajectory := fillInvalidTrajectory s.logTrajectory } E.cfg.initSteps
    else .error .assertion : Except Err (SimState ℝ n T))
  let state : PlanState X n T := { sim := sim, actorStates := [] }
  let keys := planKeys split rng E.actors.length
  return { state with actorStates := (keys.zip E.actors).map fun (key, actor) => actor.init key state }

open Classical in
/-- `_initialized_overlap`: some other box overlaps at step 0 of the log; validity is not looked at.
waymax/env/planning_agent_environment.py:449-470 -/
noncomputable def initializedOverlap [NeZero T] (log : Traj ℝ n T) : Fin n → Bool :=
  let traj := fun i => dynIndex (log i) 0
  fun i => decide (∃ j, computePairwiseOverlaps (fun k => (traj k).box) i j)

/-- What the loop over the sim agents carries: merged action, merged mask, updated actor states.
waymax/env/planning_agent_environment.py:384-396 -/
structure Merged (X : Type) (n : Nat) where
  action : Fin n → Act (StateRow ℝ)
  controlled : Fin n → Bool
  actorStates : List X

/-- One pass of the loop. waymax/env/planning_agent_environment.py:407-420 -/
def mergeSimAgent (s : PlanState X n T) (isControllable : Fin n → Bool) (acc : Merged X n)
    (e : SimAgent X K P n T × X × P × Option K) : Merged X n :=
  let out := e.1.selectAction e.2.2.1 s e.2.1 e.2.2.2
  let controlledBySim := fun i => out.isControlled i && isControllable i
  { action := whereAct controlledBySim out.action acc.action
    controlled := fun i => acc.controlled i || controlledBySim i
    actorStates := acc.actorStates ++ [out.actorState] }

/-- `PlanningAgentEnvironment.step`. waymax/env/planning_agent_environment.py:359-434 -/
noncomputable def planStep [NeZero T] (E : PlanEnv D X K P n T) (split : K → Nat → List K) (s : PlanState X n T)
    (action : Act D) (rng : Option K := none) : Except Err (PlanState X n T) :=
  let planningAgentAction := fun i => (planningComputeUpdate E.dynamics action s.sim.currentSim i).asAction
  let isControllable := fun i => !(initializedOverlap s.sim.logTrajectory i)
  if E.actors.length ≠ s.actorStates.length then .error .valueError
  else
    let keys := planKeys split rng E.actors.length
    let merged := (E.actors.zip (s.actorStates.zip (E.params.zip keys))).foldl (mergeSimAgent s isControllable)
      { action := planningAgentAction, controlled := fun i => (s.sim.objectMetadata i).isSdc, actorStates := [] }
    let newTraj := stateDynamics.forward merged.action s.sim.simTrajectory s.sim.logTrajectory merged.controlled
      s.sim.timestep E.cfg.allowNewObjectsAfterWarmup
    .ok { sim := { s.sim with simTrajectory := newTraj, timestep := s.sim.timestep + 1 }, actorStates := merged.actorStates }

/-- `select_by_onehot` of a metric result with one entry per object. waymax/datatypes/operations.py:213-245 -/
def selectMetric (r : Fin n → MetricResult) (sel : Fin n → Bool) : MetricResult :=
  { value := selectByOnehot (fun i => (r i).value) sel, valid := selectByOnehotBool (fun i => (r i).valid) sel }

/-- `select_by_onehot` on what a metric returned: a single number does not have the mask's shape, which fails the assertion of
operations.py:232. -/
def selectMetricArr (r : MetricArr n) (sel : Fin n → Bool) : Except Err MetricResult :=
  match r with
  | .perObject r => .ok (selectMetric r sel)
  | .scalar _ => .error .assertion

/-- One pass of the first loop of `PlanningAgentEnvironment.metrics`. waymax/env/planning_agent_environment.py:298-303 -/
def planSelectOne (sel : Fin n → Bool) (d : Dict (MetricArr n)) (name : String) : Except Err (Dict (MetricArr n)) :=
  match d.get? name with
  | some r => do return d.set name (.scalar (← selectMetricArr r sel))
  | none => .ok d

/-- The first loop of `PlanningAgentEnvironment.metrics`. waymax/env/planning_agent_environment.py:296-303 -/
def planSelectLoop (sel : Fin n → Bool) (d : Dict (MetricArr n)) : Except Err (Dict (MetricArr n)) :=
  ["log_divergence", "overlap", "offroad"].foldlM (init := d) (planSelectOne sel)

/-- The masking of the kinematic metric in the first state; on a single number it works the same way.
waymax/env/planning_agent_environment.py:312-317 -/
noncomputable def maskKinematic (r : MetricArr n) (ok : Bool) : MetricArr n :=
  let f := fun m : MetricResult => { value := m.value * (if ok then 1 else 0), valid := m.valid && ok : MetricResult }
  match r with
  | .perObject r => .perObject fun i => f (r i)
  | .scalar r => .scalar (f r)

/-- `PlanningAgentEnvironment.metrics`. waymax/env/planning_agent_environment.py:274-321 -/
noncomputable def planMetrics (registry : Dict (Metric n T)) (cfg : EnvConfig) (metricsToRun : List String)
    (s : SimState ℝ n T) : Except Err (Dict (MetricArr n)) := do
  let sel := fun i => (s.objectMetadata i).isSdc
  let d ← runMetrics registry s metricsToRun
  let d ← planSelectLoop sel d
  if metricsToRun.contains "kinematic_infeasibility" then
    match d.get? "kinematic_infeasibility" with
    | some kim => do
      let kim := maskKinematic kim (decide (s.timestep > (cfg.initSteps : Int) - 1))
      return d.set "kinematic_infeasibility" (.scalar (← selectMetricArr kim sel))
    | none => .error .keyError
  else return d

/-- `PlanningAgentEnvironment.reward`. waymax/env/planning_agent_environment.py:323-352 -/
noncomputable def planReward (registry : Dict (Metric n T)) (E : PlanEnv D X K P n T) (computeReward : Bool)
    (s : SimState ℝ n T) (action : Act D) : Except Err ℝ :=
  if computeReward then do
    let agentMask ← getControlMask s.objectMetadata E.cfg.controlledObject
    let r ← linearReward registry E.rewards s (fun _ => action) agentMask
    return selectByOnehot r fun i => (s.objectMetadata i).isSdc
  else .ok 0

end

end Waymax
