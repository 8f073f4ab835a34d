import Verif.Model.Viz
import Verif.Spec.BatchObservation
/-
Pictures of one scenario of a batch: the `batch_idx` and `obj_idx` arguments of waymax/visualization/viz.py.

After the indexing the code works on arrays without batch axes; these are read as one scenario (`StateNd.scenario`) or one observer
(`ObsNd.observer`) and drawn by the functions of `Verif.Model.Viz`. Arrays whose axes are not the documented ones are outside the
model.
-/

namespace Waymax

/-- Which library the leaves belong to: JAX arrays, as everything an environment returns, or NumPy arrays, e.g. after
`jax.device_get`. Leaves indexed at waymax/visualization/viz.py:98-107, 340-343 -/
inductive ArrayKind where
  | jax | numpy
  deriving DecidableEq, Repr

/-- `x[idx]` on an axis of length `d`. Both libraries count negative numbers from the end. A position outside the axis is an
IndexError in NumPy; JAX reads the nearest one, and rejects only an axis without entries.
Used at waymax/visualization/viz.py:103, 340, 343 -/
def ArrayKind.position (kind : ArrayKind) (d : Nat) (idx : Int) : Except Err Nat :=
  match kind with
  | .numpy => (npIndex d idx).map Fin.val
  | .jax => if d = 0 then .error .indexError else .ok (startIdx d 1 idx)

namespace Nd
variable {β : Type}

/-- `x[idx]`: an array without axes cannot be indexed. waymax/visualization/viz.py:340, 343 -/
def item (kind : ArrayKind) (idx : Int) (x : Nd β) : Except Err (Nd β) :=
  match x.shape with
  | [] => .error .indexError
  | d :: rest => do
    let k ← kind.position d idx
    return { shape := rest, get := fun i => x.get (k :: i) }

/-- `local_index`. waymax/visualization/viz.py:101-105 -/
def localIndex (kind : ArrayKind) (idx : Int) (x : Nd β) : Except Err (Nd β) :=
  if x.shape.length > 0 then x.item kind idx else .ok x

end Nd

/-- A function on arrays, mapped over the leaves of an object by `jax.tree_util.tree_map`. waymax/visualization/viz.py:107, 340 -/
abbrev LeafFn := (β : Type) → Nd β → Except Err (Nd β)

/-- `tree_map` on metadata. waymax/visualization/viz.py:107, 340 -/
def MetaNd.mapLeaves (f : LeafFn) (m : MetaNd) : Except Err MetaNd := do
  let ids ← f Int m.ids
  let objectTypes ← f Int m.objectTypes
  let isSdc ← f Bool m.isSdc
  let isModeled ← f Bool m.isModeled
  let isValid ← f Bool m.isValid
  let objectsOfInterest ← f Bool m.objectsOfInterest
  let isControlled ← f Bool m.isControlled
  return { ids, objectTypes, isSdc, isModeled, isValid, objectsOfInterest, isControlled }

/-- `tree_map` on a road graph; `None` has no leaves. waymax/visualization/viz.py:107, 340 -/
def mapRoads (f : LeafFn) : Option (Nd (RgPoint ℝ)) → Except Err (Option (Nd (RgPoint ℝ)))
  | none => .ok none
  | some rg => do
    let rg ← f (RgPoint ℝ) rg
    return some rg

/-- `tree_map` on paths; `None` has no leaves. waymax/visualization/viz.py:107, 340 -/
def mapPaths (f : LeafFn) : Option (Nd (PathPoint ℝ) × Nd Bool) → Except Err (Option (Nd (PathPoint ℝ) × Nd Bool))
  | none => .ok none
  | some (pts, on) => do
    let pts ← f (PathPoint ℝ) pts
    let on ← f Bool on
    return some (pts, on)

/-- `tree_map` on a state. waymax/visualization/viz.py:107 -/
def StateNd.mapLeaves (f : LeafFn) (s : StateNd ℝ) : Except Err (StateNd ℝ) := do
  let simTrajectory ← s.simTrajectory.mapLeaves f
  let logTrajectory ← s.logTrajectory.mapLeaves f
  let logTrafficLight ← f (TlState ℝ) s.logTrafficLight
  let objectMetadata ← s.objectMetadata.mapLeaves f
  let timestep ← f Int s.timestep
  let sdcPaths ← mapPaths f s.sdcPaths
  let roadgraphPoints ← mapRoads f s.roadgraphPoints
  return { simTrajectory, logTrajectory, logTrafficLight, objectMetadata, timestep, sdcPaths, roadgraphPoints }

/-- `tree_map` on a pose. waymax/visualization/viz.py:340, 343 -/
def PoseNd.mapLeaves (f : LeafFn) (p : PoseNd) : Except Err PoseNd := do
  let originalXy ← f (ℝ × ℝ) p.originalXy
  let originalYaw ← f ℝ p.originalYaw
  let matrix ← f (Matrix (Fin 3) (Fin 3) ℝ) p.matrix
  let deltaYaw ← f ℝ p.deltaYaw
  let valid ← f Bool p.valid
  return { originalXy, originalYaw, matrix, deltaYaw, valid }

/-- `tree_map` on an observation. waymax/visualization/viz.py:340, 343 -/
def ObsNd.mapLeaves (f : LeafFn) (o : ObsNd) : Except Err ObsNd := do
  let trajectory ← o.trajectory.mapLeaves f
  let isEgo ← f Bool o.isEgo
  let pose2d ← o.pose2d.mapLeaves f
  let metadata ← o.metadata.mapLeaves f
  let roadgraph ← mapRoads f o.roadgraph
  let trafficLights ← f (TlState ℝ) o.trafficLights
  let sdcPaths ← mapPaths f o.sdcPaths
  return { trajectory, isEgo, pose2d, metadata, roadgraph, trafficLights, sdcPaths }

/-- `tree_map` on a dictionary of metrics: JAX rebuilds a dictionary with its keys in alphabetical order.
waymax/visualization/viz.py:107, 418 -/
def mapMetrics (f : LeafFn) (d : List (String × MetricNd)) : Except Err (List (String × MetricNd)) :=
  (d.mergeSort fun a b => decide (a.1 ≤ b.1)).mapM fun m => do
    let value ← f ℝ m.2.value
    let valid ← f Bool m.2.valid
    return (m.1, { value, valid })

/-- The selection of the scenario and the two checks on the batch axes. waymax/visualization/viz.py:265-273 -/
def stateToPlot (kind : ArrayKind) (s : StateNd ℝ) (batchIdx : Int) : Except Err (StateNd ℝ) := do
  let picked ← if batchIdx > -1 then (do
      assertThat (s.shape.length = 1) .valueError
      s.mapLeaves fun _ x => x.localIndex kind batchIdx)
    else .ok s
  assertThat (picked.shape = []) .valueError
  return picked

/-- A state without batch axes as one scenario: the sizes are those of the arrays. waymax/visualization/viz.py:280-286 -/
noncomputable def plotStateNd (s : StateNd ℝ) (useLogTraj : Bool) (cfg : VizConfig) (highlight : ObjectType) : Except Err Figure :=
  plotSimulatorState (s.scenario (s.objectMetadata.ids.shape.getLastD 0) s.logTrajectory.numTimesteps []) useLogTraj cfg highlight

/-- `plot_simulator_state` with a batch index. waymax/visualization/viz.py:245-311 -/
noncomputable def plotSimulatorStateAt (kind : ArrayKind) (s : StateNd ℝ) (batchIdx : Int := -1) (useLogTraj : Bool := true)
    (cfg : VizConfig := {}) (highlight : ObjectType := .SDC) : Except Err Figure := do
  let s ← stateToPlot kind s batchIdx
  plotStateNd s useLogTraj cfg highlight

/-- `plot_observation` with a batch index and an observer. waymax/visualization/viz.py:314-386 -/
noncomputable def plotObservationAt (kind : ArrayKind) (o : ObsNd) (objIdx : Int) (batchIdx : Int := -1) (cfg : VizConfig := {})
    (highlight : ObjectType := .SDC) : Except Err Figure := do
  let o ← if batchIdx > -1 then (do
      assertThat (o.shape.length = 2) .valueError
      o.mapLeaves fun _ x => x.item kind batchIdx)
    else .ok o
  let o ← o.mapLeaves fun _ x => x.item kind objIdx
  assertThat (o.shape = []) .valueError
  plotObservation (o.observer (o.metadata.ids.shape.getLastD 0) o.trajectory.numTimesteps []) cfg highlight

/-- `plot_single_agent_brax_timestep` with a batch index, for the metrics of a planning agent (no axes but the batch axes).
waymax/visualization/viz.py:389-473 -/
noncomputable def plotBraxTimestepAt (kind : ArrayKind) (s : StateNd ℝ) (metrics : List (String × MetricNd)) (batchIdx : Int := -1)
    (useLogTraj : Bool := false) (cfg : VizConfig := {}) : Except Err Figure := do
  let picked ← stateToPlot kind s batchIdx
  let ms ← if batchIdx > -1 then mapMetrics (fun _ x => x.localIndex kind batchIdx) metrics else .ok metrics
  plotBraxTimestep (picked.scenario (picked.objectMetadata.ids.shape.getLastD 0) picked.logTrajectory.numTimesteps [])
    (ms.map fun m => (m.1, { value := m.2.value.get [], valid := m.2.valid.get [] })) useLogTraj cfg

end Waymax
