import Verif.Model.DatasetConfig
import Verif.Model.Waypoint
import Verif.Model.Wrappers
/-
Model of the checks in waymax/config.py, of waymax/agents/agent_builder.py and of `make_sdc_dm_environment`.
Configuration fields that none of these functions reads are left out.
-/

namespace Waymax

/-- `SimAgentType`. waymax/config.py:153-156 -/
inductive SimAgentType where
  | IDM
  deriving DecidableEq, Repr

/-- `SimAgentConfig`. waymax/config.py:159-169 -/
structure SimAgentConfig where
  agentType : SimAgentType
  controlledObjects : ObjectType
  deriving DecidableEq, Repr

/-- `EnvironmentConfig`: the fields of `EnvConfig`, `observation.num_steps`, `metrics.metrics_to_run`, `rewards.rewards`,
`compute_reward` and `sim_agents`. waymax/config.py:172-217 -/
structure EnvironmentConfig where
  env : EnvConfig := {}
  computeReward : Bool := true
  obsNumSteps : Option Nat := none
  metricsToRun : List String := ["log_divergence", "overlap", "offroad"]
  rewards : Dict ℝ := [("overlap", -1), ("offroad", -1)]
  simAgents : Option (List SimAgentConfig) := none

/-- `EnvironmentConfig.__post_init__`. waymax/config.py:218-224 -/
def EnvironmentConfig.postInit (c : EnvironmentConfig) : Except Err Unit :=
  match c.obsNumSteps with
  | some k => if k > c.env.initSteps then .error .valueError else .ok ()
  | none => .ok ()

/-- `WaymaxConfig.__post_init__`. waymax/config.py:241-250 -/
def waymaxConfigPostInit (data : DatasetConfig) (env : EnvironmentConfig) : Except Err Unit :=
  if !data.includeSdcPaths && (env.metricsToRun.contains "sdc_wrongway" || env.metricsToRun.contains "sdc_progression" ||
      env.metricsToRun.contains "sdc_off_route") then .error .valueError
  else .ok ()

section
variable {D K P S : Type} {n T : Nat} [NeZero T]

/-- The `is_controlled_func` chosen from the config. waymax/agents/agent_builder.py:33-41 -/
def controlFuncOf : ObjectType → Except Err (SimState ℝ n T → Fin n → Bool)
  | .SDC => .ok fun s i => (s.objectMetadata i).isSdc
  | .NON_SDC => .ok fun s i => !(s.objectMetadata i).isSdc
  | _ => .error .notImplemented

/-- `create_sim_agents_from_config`; IDM is the only agent type. waymax/agents/agent_builder.py:21-46 -/
noncomputable def createSimAgent (c : SimAgentConfig) : Except Err (SimAgent Unit K P n T) := do
  let isControlledFunc ← controlFuncOf c.controlledObjects
  match c.agentType with
  | .IDM => return idmAgent {} isControlledFunc

/-- `make_sdc_dm_environment`: the environment and the wrapper around it. `data` are the scenarios of the data set. The call of
the environment's constructor passes no `sim_agent_params`. waymax/env/wrappers/dm_env_wrapper.py:190-222 -/
noncomputable def makeSdcDmEnvironment (registry : Dict (Metric n T)) (dynamics : DynamicsModel ℝ D n) (data : List S)
    (c : EnvironmentConfig) : Except Err (PlanEnv D Unit K P n T × DmEnv S) := do
  if c.env.controlledObject ≠ .SDC then throw .valueError
  let actors ← match c.simAgents with
    | some agents => agents.mapM createSimAgent
    | none => .ok []
  let env ← planInit registry dynamics c.env c.rewards (actors := actors)
  let w ← dmInit data
  return (env, w)

end

end Waymax
