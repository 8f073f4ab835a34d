import Verif.Model.Batch
import Verif.Model.Metrics
/-
The metrics on whole batches, with the axis arithmetic of the code. An array with a trailing axis of named entries (`xy`, the five
numbers of a box, the fields of a path or road-graph point) is kept as one array per entry or as an array of records. Expressions
that only combine arrays of one shape entry by entry are written entry by entry.
-/

namespace Waymax

namespace Nd
variable {β γ : Type}

/-- `jnp.linalg.norm(x, axis=-1)` of an array whose last axis has two entries.
Called at waymax/metrics/imitation.py:80, waymax/metrics/route.py:105 -/
noncomputable def normLast2 (x : Nd ℝ) : Nd ℝ :=
  { shape := x.shape.dropLast, get := fun idx => hypot (x.get (idx ++ [0])) (x.get (idx ++ [1])) }

/-- Reduction of the last axis; reducing an axis without entries raises a ValueError. Called at waymax/metrics/roadgraph.py:65 -/
def reduceLast (f : List β → γ) (x : Nd β) : Except Err (Nd γ) := do
  assertThat (0 < x.shape.getLastD 0) .valueError
  return { shape := x.shape.dropLast, get := fun idx => f ((List.range (x.shape.getLastD 0)).map fun k => x.get (idx ++ [k])) }

/-- `select_by_onehot(x, selection, keepdims=False)` of a boolean array of the shape of the selection: the sum of the products,
as a boolean. waymax/datatypes/operations.py:213-245 -/
def selectBool (x selection : Nd Bool) : Except Err (Nd Bool) := do
  assertThat (x.shape = selection.shape) .assertion
  return { shape := x.shape.dropLast
           get := fun idx => (List.range (x.shape.getLastD 0)).any fun k => x.get (idx ++ [k]) && selection.get (idx ++ [k]) }

end Nd

/-- `MetricResult` as it is stored. waymax/metrics/abstract_metric.py:25-38 -/
structure MetricNd where
  value : Nd ℝ
  valid : Nd Bool

/-- `MetricResult.create_and_validate` (shapes). waymax/metrics/abstract_metric.py:34-38 -/
def MetricNd.create (value : Nd ℝ) (valid : Nd Bool) : Except Err MetricNd := do
  assertThat (value.shape = valid.shape) .assertion
  return { value, valid }

/-- `LogDivergenceMetric.compute`. waymax/metrics/imitation.py:30-80 -/
noncomputable def logDivergenceNd (s : StateNd ℝ) : Except Err MetricNd := do
  let cur ← s.simTrajectory.slice s.timestep 1
  let log ← s.logTrajectory.slice s.timestep 1
  let objectXy ← Nd.stackLast2 cur.x cur.y
  let logXy ← Nd.stackLast2 log.x log.y
  let diff ← Nd.zip (fun a b => a - b) objectXy logXy
  let valid ← Nd.zip (fun a b => a && b) cur.valid log.valid
  let value0 ← diff.normLast2.indexLast 0
  let valid0 ← valid.indexLast 0
  MetricNd.create value0 valid0

/-- `stack_fields(['x', 'y', 'length', 'width', 'yaw'])`. waymax/datatypes/object_state.py:214-218 -/
def boxesNd (t : TrajNd ℝ) : Except Err (Nd Box) := do
  assertThat (t.y.shape = t.x.shape ∧ t.length.shape = t.x.shape ∧ t.width.shape = t.x.shape ∧ t.yaw.shape = t.x.shape) .valueError
  return { shape := t.x.shape, get := fun idx => (t.at_ idx).box }

open Classical in
/-- `compute_pairwise_overlaps`: mapped over all leading axes, entry `[..., i, j]` tests box `i` against box `j`.
waymax/utils/geometry.py:303-333 -/
noncomputable def pairwiseOverlapsNd (boxes : Nd Box) : Nd Bool :=
  let n := boxes.shape.getLastD 0
  { shape := boxes.shape ++ [n]
    get := fun idx =>
      let j := idx.getLastD 0
      let i := idx.dropLast.getLastD 0
      let p := idx.dropLast.dropLast
      if i = j then false else decide (hasOverlap (boxes.get (p ++ [i])) (boxes.get (p ++ [j]))) }

/-- `OverlapMetric.compute`. waymax/metrics/overlap.py:31-69 -/
noncomputable def overlapNd (s : StateNd ℝ) : Except Err MetricNd := do
  let cur ← s.simTrajectory.slice s.timestep 1
  let traj5dof ← boxesNd cur
  let boxes ← traj5dof.indexLast 0
  let valid := cur.valid.sliceLast 0 1
  let masked ← Nd.zip (fun a b => a && b) (pairwiseOverlapsNd boxes) valid
  let numOverlap ← (masked.map fun b => if b then (1 : ℕ) else 0).sumAxis (-2)
  let valid0 ← valid.indexLast 0
  MetricNd.create (numOverlap.map fun k => if k > 0 then 1 else 0) valid0

/-- `compute_inverse`. The start index has to be a scalar, because `jax.lax.dynamic_slice_in_dim` is called directly. Slicing the
stacked array along axis -2 is slicing each field along its last axis; the arithmetic on the two steps is entry by entry.
waymax/dynamics/bicycle_model.py:47-112 -/
noncomputable def computeInverseNd (t : TrajNd ℝ) (timestep : Nd Int) (dt : ℝ) : Except Err (Nd AccelSteer × Nd Bool) := do
  assertThat (timestep.shape = []) .typeError
  assertThat (t.y.shape = t.x.shape ∧ t.yaw.shape = t.x.shape ∧ t.velX.shape = t.x.shape ∧ t.velY.shape = t.x.shape) .valueError
  let w ← t.mapLeaves fun _ x => x.sliceInDim (timestep.get []) 2 (-1)
  let valid ← Nd.zip (fun a b => a && b) (w.valid.sliceLast 0 1) (w.valid.sliceLast 1 2)
  let raw : Nd AccelSteer :=
    { shape := w.x.shape.dropLast, get := fun idx => bicycleInversePair dt true (w.at_ (idx ++ [0])) (w.at_ (idx ++ [1])) }
  let arr ← Nd.zip (fun (v : Bool) a => if v then a else { accel := 0, steering := 0 }) valid raw.expandLast
  return (arr, valid)

/-- `KinematicsInfeasibilityMetric.compute`. waymax/metrics/comfort.py:55-112 -/
noncomputable def kinematicsNd (K : KimParams) (s : StateNd ℝ) : Except Err MetricNd := do
  let a ← computeInverseNd s.simTrajectory (s.timestep.map fun t => t - 1) K.dt
  let data0 ← a.1.indexLast 0
  let valid0 ← a.2.indexLast 0
  MetricNd.create (data0.map fun a => if |a.accel| > K.maxAcc + 1e-3 ∨ |a.steering| > K.maxSteering + 1e-3 then 1 else 0) valid0

open Classical in
/-- `OffroadMetric.compute` and `is_offroad`, which maps the distance computation over the batch axes of the boxes and of the road
graph; a road graph with other batch axes, or without points, is rejected. waymax/metrics/roadgraph.py:71-155 -/
noncomputable def offroadNd (s : StateNd ℝ) : Except Err MetricNd := do
  let cur ← s.simTrajectory.slice s.timestep 1
  match s.roadgraphPoints with
  | none => .error .attributeError
  | some rg =>
    let prefixShape := cur.x.shape.dropLast.dropLast
    assertThat (rg.shape.dropLast = prefixShape ∧ rg.shape ≠ [] ∧ 0 < rg.shape.getLastD 0) .valueError
    let value : Nd ℝ :=
      { shape := cur.x.shape.dropLast
        get := fun idx => if isOffroad (rg.rows idx.dropLast) (cur.at_ (idx ++ [0])) then 1 else 0 }
    MetricNd.create value { shape := value.shape, get := fun _ => true }

/-! ### Metrics of the SDC -/

/-- `select_by_onehot(obj_xy[..., 0, :], is_sdc, keepdims=False)` with the two coordinates apart.
waymax/metrics/roadgraph.py:41-54, waymax/metrics/route.py:66-91 -/
def sdcXyNd (x y : Nd ℝ) (isSdc : Nd Bool) : Except Err (Nd ℝ × Nd ℝ) := do
  let x0 ← x.indexLast 0
  let y0 ← y.indexLast 0
  let sx ← selectByOnehotNd x0 isSdc false
  let sy ← selectByOnehotNd y0 isSdc false
  return (sx, sy)

/-- The same at the last step of the log, `log_trajectory.xy[..., -1, :]`. waymax/metrics/route.py:87-91 -/
def sdcXyLastNd (x y : Nd ℝ) (isSdc : Nd Bool) : Except Err (Nd ℝ × Nd ℝ) := do
  let x0 ← x.indexLast (x.shape.getLastD 0 - 1)
  let y0 ← y.indexLast (y.shape.getLastD 0 - 1)
  let sx ← selectByOnehotNd x0 isSdc false
  let sy ← selectByOnehotNd y0 isSdc false
  return (sx, sy)

/-- `jnp.linalg.norm(sdc_xy[..., None, None, :] - sdc_paths.xy, axis=-1)`. waymax/metrics/roadgraph.py:58-63 -/
noncomputable def pathDistNd (xy : Nd ℝ × Nd ℝ) (pts : Nd (PathPoint ℝ)) : Except Err (Nd ℝ) := do
  let dx ← Nd.zip (fun a (p : PathPoint ℝ) => a - p.x) xy.1.expandLast.expandLast pts
  let dy ← Nd.zip (fun a (p : PathPoint ℝ) => a - p.y) xy.2.expandLast.expandLast pts
  Nd.zip hypot dx dy

/-- `jnp.min(dist, axis=(-1, -2))`. Called at waymax/metrics/route.py:118 -/
noncomputable def minPathsNd (dist : Nd (WithTop ℝ)) : Except Err (Nd (WithTop ℝ)) := do
  let d ← dist.reduceLast listMin
  d.reduceLast listMin

/-- The value and validity computed from the smallest distance. waymax/metrics/roadgraph.py:66-68 -/
noncomputable def wrongWayOf : WithTop ℝ → ℝ × Bool
  | ⊤ => (0, false)
  | (d : ℝ) => (if d < 3.5 then 0 else d, true)

/-- `WrongWayMetric.compute`. waymax/metrics/roadgraph.py:36-68 -/
noncomputable def wrongWayNd (s : StateNd ℝ) : Except Err MetricNd := do
  let x ← s.simTrajectory.x.dynSliceV s.timestep 1 (-1)
  let y ← s.simTrajectory.y.dynSliceV s.timestep 1 (-1)
  let xy ← sdcXyNd x y s.objectMetadata.isSdc
  match s.sdcPaths with
  | none => .error .attributeError
  | some paths =>
    let raw ← pathDistNd xy paths.1
    let dist ← Nd.zip (fun (p : PathPoint ℝ) d => orInf p.valid d) paths.1 raw
    let m ← minPathsNd dist
    MetricNd.create (m.map fun d => (wrongWayOf d).1) (m.map fun d => (wrongWayOf d).2)

/-- The value and validity computed from the smallest distances to on-route and off-route paths.
waymax/metrics/route.py:240-258 -/
noncomputable def offRouteOf : WithTop ℝ → WithTop ℝ → ℝ × Bool
  | ⊤, _ => (0, false)
  | (on : ℝ), off => (if on > 5 ∨ exceedsByTwo on off = true then on else 0, true)

/-- `OffRouteMetric.compute`. waymax/metrics/route.py:171-258 -/
noncomputable def offRouteNd (s : StateNd ℝ) : Except Err MetricNd := do
  match s.sdcPaths with
  | none => .error .valueError
  | some paths =>
    let x ← s.simTrajectory.x.dynSliceV s.timestep 1 (-1)
    let y ← s.simTrajectory.y.dynSliceV s.timestep 1 (-1)
    let xy ← sdcXyNd x y s.objectMetadata.isSdc
    let v ← s.simTrajectory.valid.dynSliceV s.timestep 1 (-1)
    let v0 ← v.indexLast 0
    let sdcValid ← v0.selectBool s.objectMetadata.isSdc
    let raw ← pathDistNd xy paths.1
    let valid1 ← Nd.zip (fun (p : PathPoint ℝ) d => orInf p.valid d) paths.1 raw
    let valid2 ← Nd.zip (fun (v : Bool) (d : WithTop ℝ) => if v then d else ⊤) sdcValid.expandLast.expandLast valid1
    let on ← Nd.zip (fun (r : Bool) (d : WithTop ℝ) => if r then d else ⊤) paths.2 valid2
    let off ← Nd.zip (fun (r : Bool) (d : WithTop ℝ) => if !r then d else ⊤) paths.2 valid2
    let minOn ← minPathsNd on
    let minOff ← minPathsNd off
    let value ← Nd.zip (fun a b => (offRouteOf a b).1) minOn minOff
    let valid ← Nd.zip (fun a b => (offRouteOf a b).2) minOn minOff
    MetricNd.create value valid

/-- `jnp.isfinite`. Called at waymax/metrics/route.py:145, 256, waymax/metrics/roadgraph.py:66 -/
def isFinite : WithTop ℝ → Bool
  | ⊤ => false
  | (_ : ℝ) => true

/-- `get_arclength_for_pts`: one reference path per scenario. waymax/metrics/route.py:130-139 -/
noncomputable def arclengthNd (xy : Nd ℝ × Nd ℝ) (ref : Nd (PathPoint ℝ)) : Except Err (Nd ℝ) := do
  let dx ← Nd.zip (fun a (p : PathPoint ℝ) => a - p.x) xy.1.expandLast ref
  let dy ← Nd.zip (fun a (p : PathPoint ℝ) => a - p.y) xy.2.expandLast ref
  let raw ← Nd.zip hypot dx dy
  let dist ← Nd.zip (fun (p : PathPoint ℝ) d => orInf p.valid d) ref raw
  let idx ← dist.reduceLast argmin
  return { shape := ref.shape.dropLast, get := fun p => (ref.get (p ++ [idx.get p])).arcLength }

/-- `ProgressionMetric.compute`. The axes of length one that `keepdims` leaves for `take_along_axis` are dropped.
waymax/metrics/route.py:47-147 -/
noncomputable def progressionNd (s : StateNd ℝ) : Except Err MetricNd := do
  match s.sdcPaths with
  | none => .error .valueError
  | some paths =>
    let x ← s.simTrajectory.x.dynSliceV s.timestep 1 (-1)
    let y ← s.simTrajectory.y.dynSliceV s.timestep 1 (-1)
    let xy ← sdcXyNd x y s.objectMetadata.isSdc
    let xyStart ← sdcXyNd s.logTrajectory.x s.logTrajectory.y s.objectMetadata.isSdc
    let xyEnd ← sdcXyLastNd s.logTrajectory.x s.logTrajectory.y s.objectMetadata.isSdc
    let v ← s.simTrajectory.valid.dynSliceV s.timestep 1 (-1)
    let v0 ← v.indexLast 0
    let sdcValid ← v0.selectBool s.objectMetadata.isSdc
    let raw ← pathDistNd xy paths.1
    let mask ← Nd.zip (fun (p : PathPoint ℝ) (r : Bool) => p.valid && r) paths.1 paths.2
    let dist1 ← Nd.zip orInf mask raw
    let dist ← Nd.zip (fun (v : Bool) (d : WithTop ℝ) => if v then d else ⊤) sdcValid.expandLast.expandLast dist1
    let distPath ← dist.reduceLast listMin
    let idx ← distPath.reduceLast argmin
    let minDist ← minPathsNd dist
    let ref : Nd (PathPoint ℝ) :=
      { shape := paths.1.shape.dropLast.dropLast ++ [paths.1.shape.getLastD 0]
        get := fun q => paths.1.get (q.dropLast ++ [idx.get q.dropLast] ++ [q.getLastD 0]) }
    let startDist ← arclengthNd xyStart ref
    let endDist ← arclengthNd xyEnd ref
    let currDist ← arclengthNd xy ref
    let span ← Nd.zip (fun a b : ℝ => (a, b)) startDist endDist
    let progress ← Nd.zip (fun (se : ℝ × ℝ) c => if se.2 = se.1 then 1 else (c - se.1) / (se.2 - se.1)) span currDist
    let valid := minDist.map isFinite
    let value ← Nd.zip (fun (v : Bool) (p : ℝ) => if v then p else 0) valid progress
    MetricNd.create value valid

end Waymax
