import Verif.Model.Continuous
import Verif.Model.BaseEnv
/-
Model of waymax/metrics/metric_factory.py, waymax/rewards/linear_combination_reward.py and `BaseEnvironment.reward` for one
(unbatched) scenario. Array dtypes are not modelled.
-/

namespace Waymax

/-- A Python dictionary with string keys, in insertion order. waymax/metrics/metric_factory.py:39-66 -/
abbrev Dict (β : Type) := List (String × β)

/-- `d[key]`, `none` for a missing key. Used at waymax/rewards/linear_combination_reward.py:55-58 -/
def Dict.get? {β : Type} (d : Dict β) (key : String) : Option β := (d.find? fun e => e.1 == key).map Prod.snd

/-- `key in d`. Used at waymax/metrics/metric_factory.py:52-66 -/
def Dict.has {β : Type} (d : Dict β) (key : String) : Bool := d.any fun e => e.1 == key

/-- `d[key] = value`: an existing key keeps its place, a new one goes to the end. Used at waymax/metrics/metric_factory.py:52-66 -/
def Dict.set {β : Type} (d : Dict β) (key : String) (value : β) : Dict β :=
  if d.has key then d.map fun e => if e.1 == key then (key, value) else e else d ++ [(key, value)]

/-- What a metric returns for one scenario: one entry per object, or a single number (the `sdc_*` metrics).
waymax/metrics/abstract_metric.py:25-38 -/
inductive MetricArr (n : Nat) where
  | perObject (r : Fin n → MetricResult)
  | scalar (r : MetricResult)

/-- `masked_value()` as broadcast against an array over objects. waymax/datatypes/array.py:65-76 -/
noncomputable def MetricArr.masked {n : Nat} : MetricArr n → Fin n → ℝ
  | .perObject r, i => (r i).maskedValue
  | .scalar r, _ => r.maskedValue

/-- `AbstractMetric.compute`; metrics may raise. waymax/metrics/abstract_metric.py:41-54 -/
abbrev Metric (n T : Nat) := SimState ℝ n T → Except Err (MetricArr n)

section
variable {n T : Nat} [NeZero T]

/-- `_METRICS_REGISTRY` at import time. waymax/metrics/metric_factory.py:28-36 -/
noncomputable def builtinMetrics : Dict (Metric n T) :=
  [("log_divergence", fun s => .ok (.perObject (logDivergenceMetric s))),
   ("overlap", fun s => .ok (.perObject (overlapMetric s))),
   ("offroad", fun s => do return .perObject (← offroadMetric s)),
   ("kinematic_infeasibility", fun s => .ok (.perObject (kinematicsInfeasibilityMetric {} s))),
   ("sdc_wrongway", fun s => do return .scalar (← wrongWayMetric s)),
   ("sdc_progression", fun s => do return .scalar (← progressionMetric s)),
   ("sdc_off_route", fun s => do return .scalar (← offRouteMetric s))]

omit [NeZero T] in
/-- `run_metrics`: the loop over the configured names, filling the dictionary `results`.
waymax/metrics/metric_factory.py:39-66 -/
def runMetrics (registry : Dict (Metric n T)) (s : SimState ℝ n T) (metricsToRun : List String) :
    Except Err (Dict (MetricArr n)) :=
  metricsToRun.foldlM (init := []) fun results name =>
    match registry.get? name with
    | some m => do return results.set name (← m s)
    | none => .error .valueError

omit [NeZero T] in
/-- `register_metric`: the outcome of the call and the registry afterwards. waymax/metrics/metric_factory.py:69-81 -/
def registerMetric (registry : Dict (Metric n T)) (name : String) (m : Metric n T) : Except Err Unit × Dict (Metric n T) :=
  if registry.has name then (.error .valueError, registry) else (.ok (), registry.set name m)

omit [NeZero T] in
/-- `get_metric_names`. waymax/metrics/metric_factory.py:84-86 -/
def getMetricNames (registry : Dict (Metric n T)) : List String := registry.map Prod.fst

omit [NeZero T] in
/-- `LinearCombinationReward.__init__`: the configured weights if every name is registered.
waymax/rewards/linear_combination_reward.py:27-31, 63-73 -/
def linearRewardInit (registry : Dict (Metric n T)) (rewards : Dict ℝ) : Except Err (Dict ℝ) :=
  if rewards.all fun e => (getMetricNames registry).contains e.1 then .ok rewards else .error .valueError

omit [NeZero T] in
/-- `LinearCombinationReward.compute`. waymax/rewards/linear_combination_reward.py:33-60, 76-80 -/
noncomputable def linearReward {D : Type} (registry : Dict (Metric n T)) (rewards : Dict ℝ) (s : SimState ℝ n T)
    (_action : Fin n → Act D) (agentMask : Fin n → Bool) : Except Err (Fin n → ℝ) := do
  let allMetrics ← runMetrics registry s (rewards.map Prod.fst)
  rewards.foldlM (init := fun _ => 0) fun reward e =>
    match allMetrics.get? e.1 with
    | some r => .ok fun i => reward i + r.masked i * (if agentMask i then 1 else 0) * e.2
    | none => .error .keyError

omit [NeZero T] in
/-- `BaseEnvironment.reward`; `rewards` is what the constructor stored (base_environment.py:48-50).
waymax/env/base_environment.py:144-163 -/
noncomputable def envReward {D : Type} (registry : Dict (Metric n T)) (cfg : EnvConfig) (computeReward : Bool)
    (rewards : Dict ℝ) (s : SimState ℝ n T) (action : Fin n → Act D) : Except Err (Fin n → ℝ) :=
  if computeReward then do
    let agentMask ← getControlMask s.objectMetadata cfg.controlledObject
    linearReward registry rewards s action agentMask
  else .ok fun _ => 0

omit [NeZero T] in
/-- `BaseEnvironment.metrics`. waymax/env/base_environment.py:56-62 -/
def envMetrics (registry : Dict (Metric n T)) (metricsToRun : List String) (s : SimState ℝ n T) :
    Except Err (Dict (MetricArr n)) := runMetrics registry s metricsToRun

end

end Waymax
