import Verif.Model.BatchMetrics
import Verif.Model.Specs
import Verif.Model.Reward
import Verif.Model.Wrappers
/-
Rewards and step types of batches. Arrays carry their data type here; numbers are exact.
-/

namespace Waymax

/-- An array of numbers with its data type. Values and validity flags of waymax/metrics/abstract_metric.py:25-38 -/
structure TypedNd where
  data : Nd ℝ
  dtype : DType

/-- `_METRICS_REGISTRY` at import time, on batches. waymax/metrics/metric_factory.py:28-36 -/
noncomputable def builtinMetricsNd : Dict (StateNd ℝ → Except Err MetricNd) :=
  [("log_divergence", logDivergenceNd), ("overlap", overlapNd), ("offroad", offroadNd),
   ("kinematic_infeasibility", kinematicsNd {}), ("sdc_wrongway", wrongWayNd), ("sdc_progression", progressionNd),
   ("sdc_off_route", offRouteNd)]

/-- `run_metrics`. waymax/metrics/metric_factory.py:39-66 -/
def runMetricsNd (registry : Dict (StateNd ℝ → Except Err MetricNd)) (s : StateNd ℝ) (metricsToRun : List String) :
    Except Err (Dict MetricNd) :=
  metricsToRun.foldlM (init := []) fun results name =>
    match registry.get? name with
    | some m => do return results.set name (← m s)
    | none => .error .valueError

/-- `MaskedArray.masked_value` with the default fill value. waymax/datatypes/array.py:65-76 -/
noncomputable def MetricNd.maskedValue (m : MetricNd) : Except Err (Nd ℝ) := Nd.zip (fun v (ok : Bool) => if ok then v else 0) m.value m.valid

/-- One round of the loop in `LinearCombinationReward.compute`. waymax/rewards/linear_combination_reward.py:56-60 -/
noncomputable def rewardAddNd (allMetrics : Dict MetricNd) (agentMask : Nd Bool) (reward : Nd ℝ) (e : String × ℝ) : Except Err (Nd ℝ) :=
  match allMetrics.get? e.1 with
  | some r => do
    let v ← r.maskedValue
    let metric ← Nd.zip (fun v (m : Bool) => v * if m then 1 else 0) v agentMask
    Nd.zip (fun a b => a + b) reward (metric.map fun v => v * e.2)
  | none => .error .keyError

/-- `LinearCombinationReward.compute`. The sum starts from `zeros_like(agent_mask)`, an array of booleans, and has the type of the
metrics after the first addition. waymax/rewards/linear_combination_reward.py:33-60, 76-80 -/
noncomputable def linearRewardNd (registry : Dict (StateNd ℝ → Except Err MetricNd)) (rewards : Dict ℝ) (s : StateNd ℝ)
    (agentMask : Nd Bool) : Except Err TypedNd := do
  let allMetrics ← runMetricsNd registry s (rewards.map Prod.fst)
  let data ← rewards.foldlM (rewardAddNd allMetrics agentMask) { shape := agentMask.shape, get := fun _ => 0 }
  return { data, dtype := if rewards.isEmpty then .bool else .float32 }

/-- `BaseEnvironment.reward`. waymax/env/base_environment.py:144-166 -/
noncomputable def baseRewardNd (registry : Dict (StateNd ℝ → Except Err MetricNd)) (cfg : EnvConfig) (computeReward : Bool)
    (rewards : Dict ℝ) (s : StateNd ℝ) : Except Err TypedNd :=
  if computeReward then do
    let agentMask ← getControlMaskNd s.objectMetadata cfg.controlledObject
    linearRewardNd registry rewards s agentMask
  else
    let spec := baseRewardSpec cfg
    .ok { data := { shape := s.shape ++ spec.shape, get := fun _ => 0 }, dtype := spec.dtype }

/-- `PlanningAgentEnvironment.reward`. waymax/env/planning_agent_environment.py:323-352 -/
noncomputable def planRewardNd (registry : Dict (StateNd ℝ → Except Err MetricNd)) (cfg : EnvConfig) (computeReward : Bool)
    (rewards : Dict ℝ) (s : StateNd ℝ) : Except Err TypedNd :=
  if computeReward then do
    let agentMask ← getControlMaskNd s.objectMetadata cfg.controlledObject
    let r ← linearRewardNd registry rewards s agentMask
    let data ← selectByOnehotNd r.data s.objectMetadata.isSdc false
    return { data, dtype := r.dtype }
  else
    let spec := planningRewardSpec
    .ok { data := { shape := s.shape ++ spec.shape, get := fun _ => 0 }, dtype := spec.dtype }

open Classical in
/-- The step type and the discount that `DMEnvWrapper.step` returns for the new state: `dm_env.transition` uses the discount 1.0.
waymax/env/wrappers/dm_env_wrapper.py:124-146 -/
noncomputable def dmOutcome {α : Type} (s : StateNd α) : Except Err (StepType × TypedNd) := do
  let termination := terminationNd s
  let truncation ← truncationNd s
  let done ← Nd.zip (fun a b => a || b) termination truncation
  let discount : TypedNd := { data := termination.map fun b => if b then 0 else 1, dtype := .float32 }
  if ∀ idx, List.Forall₂ (fun d i => i < d) done.shape idx → done.get idx = true then return (.LAST, discount)
  else if ∃ idx, List.Forall₂ (fun d i => i < d) done.shape idx ∧ done.get idx = true then .error .notImplemented
  else return (.MID, { data := Nd.scalar 1, dtype := .float32 })

end Waymax
