import Verif.Model.MachineBicycle
import Verif.Model.Reward
/-
Model of the distance metrics (log divergence, wrong way, off route) and of the reward in machine arithmetic: the functions of
Model/Metrics.lean and Model/Reward.lean with every operation rounded.
-/

namespace Waymax

open Real

/-- `MetricResult` of machine numbers for one object. waymax/metrics/abstract_metric.py:25-38 -/
structure MetricResultFl (φ : Format) where
  value : Flt φ
  valid : Bool

/-- The machine number zero. waymax/metrics/roadgraph.py:67, waymax/metrics/route.py:251-255 -/
noncomputable def Flt.zero (φ : Format) : Flt φ := ⟨0, Format.Rep.zero⟩

/-- `masked_value()` with the default fill value. waymax/datatypes/array.py:65-76 -/
noncomputable def MetricResultFl.maskedValue {φ : Format} (r : MetricResultFl φ) : Flt φ :=
  if r.valid then r.value else Flt.zero φ

section
variable {φ : Format} (L : Libm φ) {n T : Nat}

/-- `jnp.linalg.norm(a - b, axis=-1)` of plane points: the coordinates are subtracted, then squared, added and rooted. The sum of two
squares is taken to be rounded after each operation. waymax/metrics/imitation.py:80, waymax/metrics/roadgraph.py:58-62, waymax/metrics/route.py:213-217 -/
noncomputable def distFl (a b : Flt φ × Flt φ) : Flt φ := speedFl L (a.1.sub b.1) (a.2.sub b.2)

/-- `LogDivergenceMetric.compute`. waymax/metrics/imitation.py:30-80 -/
noncomputable def logDivergenceMetricFl [NeZero T] (s : SimState (Flt φ) n T) (i : Fin n) : MetricResultFl φ :=
  let cur := dynIndex (s.simTrajectory i) s.timestep
  let log := dynIndex (s.logTrajectory i) s.timestep
  { value := distFl L (cur.x, cur.y) (log.x, log.y), valid := cur.valid && log.valid }

/-- `select_by_onehot` on machine numbers: the products with the mask, added up from the first object to the last (the compiler may
choose another order; with one selected object the order does not matter). waymax/datatypes/operations.py:214-245 -/
noncomputable def selectByOnehotFl (x : Fin n → Flt φ) (sel : Fin n → Bool) : Flt φ :=
  (List.ofFn fun i => (x i).mul (Flt.round φ (if sel i then 1 else 0))).foldl Flt.add (Flt.zero φ)

/-- The SDC position at the current step. waymax/metrics/roadgraph.py:42-53, waymax/metrics/route.py:189-200 -/
noncomputable def sdcXyCurrentFl [NeZero T] (s : SimState (Flt φ) n T) : Flt φ × Flt φ :=
  (selectByOnehotFl (fun i => (dynIndex (s.simTrajectory i) s.timestep).x) (fun i => (s.objectMetadata i).isSdc),
   selectByOnehotFl (fun i => (dynIndex (s.simTrajectory i) s.timestep).y) (fun i => (s.objectMetadata i).isSdc))

/-- The SDC validity at the current step. waymax/metrics/route.py:201-212 -/
def sdcValidCurrentFl [NeZero T] (s : SimState (Flt φ) n T) : Bool :=
  selectByOnehotBool (fun i => (dynIndex (s.simTrajectory i) s.timestep).valid) (fun i => (s.objectMetadata i).isSdc)

/-- `jnp.where(valid, d, inf)`. waymax/metrics/roadgraph.py:63, waymax/metrics/route.py:219-231 -/
def orInfFl (valid : Bool) (d : Flt φ) : WithTop (Flt φ) := if valid then d else ⊤

/-- `jnp.min(.., axis=(-1, -2))`: the minimum is exact. waymax/metrics/roadgraph.py:65, waymax/metrics/route.py:233-239 -/
noncomputable def minOverPathsFl (paths : List (SdcPath (Flt φ))) (d : SdcPath (Flt φ) → PathPoint (Flt φ) → WithTop (Flt φ)) :
    WithTop (Flt φ) :=
  listMin (paths.flatMap fun path => path.points.map fun p => d path p)

/-- `jnp.min` over no element raises a ValueError. waymax/metrics/roadgraph.py:65 -/
def noPathPointsFl (paths : List (SdcPath (Flt φ))) : Bool := paths.all fun path => path.points.isEmpty

/-- `WrongWayMetric.compute`. waymax/metrics/roadgraph.py:23-68 -/
noncomputable def wrongWayMetricFl [NeZero T] (s : SimState (Flt φ) n T) : Except Err (MetricResultFl φ) :=
  match s.sdcPaths with
  | none => .error .attributeError
  | some paths =>
    if noPathPointsFl paths then .error .valueError else
    match minOverPathsFl paths fun _ p => orInfFl p.valid (distFl L (sdcXyCurrentFl s) (p.x, p.y)) with
    | ⊤ => .ok { value := Flt.zero φ, valid := false }
    | (d : Flt φ) => .ok { value := if d.val < (Flt.round φ 3.5).val then Flt.zero φ else d, valid := true }

/-- `on - off > MAX_RELATIVE_DISTANCE_TO_OFF_ROUTE_PATH` for a finite `on`; the difference is rounded. waymax/metrics/route.py:243-247 -/
noncomputable def exceedsByTwoFl (on : Flt φ) : WithTop (Flt φ) → Bool
  | ⊤ => false
  | (off : Flt φ) => decide ((on.sub off).val > (Flt.round φ 2).val)

/-- `OffRouteMetric.compute`. waymax/metrics/route.py:150-256 -/
noncomputable def offRouteMetricFl [NeZero T] (s : SimState (Flt φ) n T) : Except Err (MetricResultFl φ) :=
  match s.sdcPaths with
  | none => .error .valueError
  | some paths =>
    if noPathPointsFl paths then .error .valueError else
    let xy := sdcXyCurrentFl s
    let valid := sdcValidCurrentFl s
    let minOn := minOverPathsFl paths fun path p => orInfFl (path.onRoute && (valid && p.valid)) (distFl L xy (p.x, p.y))
    let minOff := minOverPathsFl paths fun path p => orInfFl (!path.onRoute && (valid && p.valid)) (distFl L xy (p.x, p.y))
    match minOn with
    | ⊤ => .ok { value := Flt.zero φ, valid := false }
    | (on : Flt φ) =>
      .ok { value := if on.val > (Flt.round φ 5).val ∨ exceedsByTwoFl on minOff = true then on else Flt.zero φ, valid := true }

/-- What a metric returns for one scenario. waymax/metrics/abstract_metric.py:25-38 -/
inductive MetricArrFl (φ : Format) (n : Nat) where
  | perObject (r : Fin n → MetricResultFl φ)
  | scalar (r : MetricResultFl φ)

/-- `masked_value()` as broadcast against an array over objects. waymax/datatypes/array.py:65-76 -/
noncomputable def MetricArrFl.masked : MetricArrFl φ n → Fin n → Flt φ
  | .perObject r, i => (r i).maskedValue
  | .scalar r, _ => r.maskedValue

/-- `AbstractMetric.compute`. waymax/metrics/abstract_metric.py:41-54 -/
abbrev MetricFl (φ : Format) (n T : Nat) := SimState (Flt φ) n T → Except Err (MetricArrFl φ n)

/-- `run_metrics`. waymax/metrics/metric_factory.py:39-66 -/
def runMetricsFl (registry : Dict (MetricFl φ n T)) (s : SimState (Flt φ) n T) (metricsToRun : List String) :
    Except Err (Dict (MetricArrFl φ n)) :=
  metricsToRun.foldlM (init := []) fun results name =>
    match registry.get? name with
    | some m => do return results.set name (← m s)
    | none => .error .valueError

/-- `LinearCombinationReward.compute`: the weights are Python floats, converted to the type of the metric. The initial reward is an array
of False, which counts as zero. waymax/rewards/linear_combination_reward.py:33-60, 76-80 -/
noncomputable def linearRewardFl {D : Type} (registry : Dict (MetricFl φ n T)) (rewards : Dict (Flt float64)) (s : SimState (Flt φ) n T)
    (_action : Fin n → Act D) (agentMask : Fin n → Bool) : Except Err (Fin n → Flt φ) := do
  let allMetrics ← runMetricsFl registry s (rewards.map Prod.fst)
  rewards.foldlM (init := fun _ => Flt.zero φ) fun reward e =>
    match allMetrics.get? e.1 with
    | some r => .ok fun i => (reward i).add (((r.masked i).mul (Flt.round φ (if agentMask i then 1 else 0))).mul (pyFloat φ e.2))
    | none => .error .keyError

end

end Waymax
