import Verif.Model.Observation
import Verif.Model.BatchMetrics
/-
Observations of whole batches: waymax/datatypes/observation.py and `filter_topk_roadgraph_points` of
waymax/datatypes/roadgraph.py, with the axis arithmetic, tiling, broadcasting, `vmap` and shape checks of the code.

The trailing coordinate axes, of length 2 for points and of lengths 3, 3 for matrices, are grouped into the entries of an array:
an array of points of shape `(..., 2)` is an `Nd (ℝ × ℝ)` of shape `(...)`.
-/

namespace Waymax

namespace Nd
variable {β γ : Type}

/-- `_expand_and_repeat` on one leaf: `jnp.repeat(jnp.expand_dims(x, axis), repeats, axis)`.
waymax/datatypes/observation.py:534-538 -/
def expandRepeat (x : Nd β) (repeats axis : Nat) : Except Err (Nd β) := do
  assertThat (axis ≤ x.shape.length) .valueError
  return { shape := x.shape.insertIdx axis repeats, get := fun idx => x.get (idx.eraseIdx axis) }

/-- `jnp.stack([x, y], axis=-1)`, the new axis grouped. waymax/datatypes/object_state.py:182-195,
waymax/datatypes/roadgraph.py:109-122, waymax/datatypes/traffic_lights.py:81-84 -/
def pairs (x y : Nd β) : Except Err (Nd (β × β)) := do
  assertThat (x.shape = y.shape) .valueError
  return { shape := x.shape, get := fun idx => (x.get idx, y.get idx) }

/-- `jax.lax.top_k(x, k=1)[1]` for Booleans: along the last axis the first index of a largest entry.
Called at waymax/datatypes/observation.py:590, 636 -/
def topOne (x : Nd Bool) : Except Err (Nd Nat) := do
  let d := x.shape.getLastD 0
  assertThat (1 ≤ d) .valueError
  return { shape := x.shape.dropLast ++ [1]
           get := fun idx => ((List.range d).find? fun k => x.get (idx.dropLast ++ [k])).getD 0 }

/-- `jnp.take_along_axis(x, indices, axis)` along the last (ungrouped) axis. Leading axes that differ are rejected here; JAX
broadcasts axes of length 1. Called at waymax/datatypes/observation.py:591-593, 637-639 -/
def takeAlongLast (x : Nd β) (indices : Nd Nat) : Except Err (Nd β) := do
  assertThat (x.shape.dropLast = indices.shape.dropLast) .valueError
  return { shape := indices.shape, get := fun idx => x.get (idx.dropLast ++ [indices.get idx]) }

/-- `jnp.repeat(x, repeats, axis)` along the last (ungrouped) axis: every entry is repeated.
Called at waymax/datatypes/observation.py:596-598 -/
def repeatLast (x : Nd β) (repeats : Nat) : Nd β :=
  { shape := x.shape.dropLast ++ [x.shape.getLastD 0 * repeats]
    get := fun idx => x.get (idx.dropLast ++ [idx.getLastD 0 / repeats]) }

/-- `x[..., jnp.newaxis, :]`. Called at waymax/datatypes/observation.py:647 -/
def newBeforeLast (x : Nd β) : Nd β :=
  { shape := x.shape.insertIdx (x.shape.length - 1) 1, get := fun idx => x.get (idx.eraseIdx (x.shape.length - 1)) }

/-- `jnp.expand_dims` with as many new trailing axes as are missing up to `rank`.
waymax/datatypes/observation.py:315-320 -/
def expandTo (x : Nd β) (rank : Nat) : Nd β :=
  { shape := x.shape ++ List.replicate (rank - x.shape.length) 1, get := fun idx => x.get (idx.take x.shape.length) }

end Nd

/-! ### Geometry -/

/-- `transform_points`: one `vmap` per axis of the matrices. waymax/utils/geometry.py:117-148 -/
def transformPointsNd (m : Nd (Matrix (Fin 3) (Fin 3) ℝ)) (pts : Nd (ℝ × ℝ)) : Except Err (Nd (ℝ × ℝ)) := do
  let r := m.shape.length
  assertThat (pts.shape.take r = m.shape) .assertion
  return { shape := pts.shape, get := fun idx => transformPoints (m.get (idx.take r)) (pts.get idx) }

/-- `transform_direction`, with the flattening of `rotate_points`: the axes of the matrices become one, and the length of the
other is left to `reshape`, which cannot find it when there are no matrices. waymax/utils/geometry.py:203-218, 47-65 -/
def transformDirectionNd (m : Nd (Matrix (Fin 3) (Fin 3) ℝ)) (dirs : Nd (ℝ × ℝ)) : Except Err (Nd (ℝ × ℝ)) := do
  let r := m.shape.length
  assertThat (dirs.shape.take r = m.shape) .assertion
  assertThat (m.shape.prod ≠ 0) .typeError
  return { shape := dirs.shape, get := fun idx => transformDirection (m.get (idx.take r)) (dirs.get idx) }

/-! ### Poses -/

/-- `ObjectPose2D` as it is stored. waymax/datatypes/observation.py:34-72 -/
structure PoseNd where
  originalXy : Nd (ℝ × ℝ)
  originalYaw : Nd ℝ
  matrix : Nd (Matrix (Fin 3) (Fin 3) ℝ)
  deltaYaw : Nd ℝ
  valid : Nd Bool

namespace PoseNd

/-- `ObjectPose2D.shape`. waymax/datatypes/observation.py:75-78 -/
def shape (p : PoseNd) : List Nat := p.deltaYaw.shape

/-- `ObjectPose2D.validate` (shapes). waymax/datatypes/observation.py:161-178 -/
def validate (p : PoseNd) : Except Err Unit :=
  let r := p.shape.length
  assertThat (∀ sh ∈ [p.originalXy.shape, p.originalYaw.shape, p.matrix.shape, p.valid.shape], sh.take r = p.shape) .assertion

/-- `ObjectPose2D.from_center_and_yaw` with `pose_from_xy_yaw`, one `vmap` per axis of `xy`. A yaw with more axes than `xy` also
fails, with another exception. waymax/datatypes/observation.py:98-124, waymax/utils/geometry.py:69-114 -/
noncomputable def fromCenterAndYaw (xy : Nd (ℝ × ℝ)) (yaw : Nd ℝ) (valid : Nd Bool) : Except Err PoseNd := do
  assertThat (yaw.shape = xy.shape) .assertion
  let out : PoseNd :=
    { originalXy := xy, originalYaw := yaw
      matrix := { shape := xy.shape, get := fun idx => poseMatrix (xy.get idx) (yaw.get idx) }
      deltaYaw := yaw.map poseYaw
      valid := valid }
  out.validate
  return out

/-- `ObjectPose2D.from_transformation`. waymax/datatypes/observation.py:126-159 -/
noncomputable def fromTransformation (matrix : Nd (Matrix (Fin 3) (Fin 3) ℝ)) (deltaYaw : Nd ℝ) (valid : Nd Bool) :
    Except Err PoseNd := do
  let xy ← transformPointsNd (matrix.map fun m => m⁻¹) { shape := matrix.shape, get := fun _ => (0, 0) }
  let out : PoseNd := { originalXy := xy, originalYaw := deltaYaw.map fun y => -y, matrix, deltaYaw, valid }
  out.validate
  return out

/-- `combine_two_object_pose_2d`. waymax/datatypes/observation.py:430-454 -/
noncomputable def combine (src dst : PoseNd) : Except Err PoseNd := do
  let matrix ← Nd.zip (fun d s => d * s⁻¹) dst.matrix src.matrix
  let deltaYaw ← Nd.zip (fun d s : ℝ => d - s) dst.deltaYaw src.deltaYaw
  let valid ← Nd.zip (fun d s : Bool => d && s) dst.valid src.valid
  fromTransformation matrix deltaYaw valid

end PoseNd

/-! ### Transformations -/

/-- `transform_trajectory`. waymax/datatypes/observation.py:289-329 -/
def transformTrajectoryNd (t : TrajNd ℝ) (pose : PoseNd) : Except Err (TrajNd ℝ) := do
  assertThat (t.shape.take pose.shape.length = pose.shape) .assertion
  let xy ← Nd.pairs t.x t.y
  let localXy ← transformPointsNd pose.matrix xy
  let vel ← Nd.pairs t.velX t.velY
  let localVel ← transformDirectionNd pose.matrix vel
  let localYaw ← Nd.zip (· + ·) t.yaw (pose.deltaYaw.expandTo t.shape.length)
  let localValid ← Nd.zip (· && ·) t.valid (pose.valid.expandTo t.shape.length)
  return { t with x := localXy.map Prod.fst, y := localXy.map Prod.snd, velX := localVel.map Prod.fst
                  velY := localVel.map Prod.snd, yaw := localYaw, valid := localValid }

/-- `transform_roadgraph_points`. waymax/datatypes/observation.py:332-363 -/
def transformRoadgraphNd (rg : Nd (RgPoint ℝ)) (pose : PoseNd) : Except Err (Nd (RgPoint ℝ)) := do
  assertThat (rg.shape = pose.shape ++ [rg.shape.getLastD 0]) .assertion
  let dstXy ← transformPointsNd pose.matrix (rg.map fun p => (p.x, p.y))
  let dstDir ← transformDirectionNd pose.matrix (rg.map fun p => (p.dirX, p.dirY))
  let valid ← Nd.zip (· && ·) (rg.map fun p => p.valid) pose.valid.expandLast
  return { shape := rg.shape
           get := fun idx =>
             { rg.get idx with
               x := (dstXy.get idx).1, y := (dstXy.get idx).2, dirX := (dstDir.get idx).1, dirY := (dstDir.get idx).2
               valid := valid.get idx } }

/-- `transform_traffic_lights`. waymax/datatypes/observation.py:366-391 -/
def transformTrafficLightsNd (tls : Nd (TlState ℝ)) (pose : PoseNd) : Except Err (Nd (TlState ℝ)) := do
  assertThat (2 ≤ tls.shape.length) .assertion
  assertThat (tls.shape = pose.shape ++ tls.shape.drop (tls.shape.length - 2)) .assertion
  let dstXy ← transformPointsNd pose.matrix (tls.map fun p => (p.x, p.y))
  let valid ← Nd.zip (· && ·) (tls.map fun p => p.valid) pose.valid.expandLast.expandLast
  return { shape := tls.shape
           get := fun idx => { tls.get idx with x := (dstXy.get idx).1, y := (dstXy.get idx).2, valid := valid.get idx } }

/-! ### Observations -/

/-- `Observation` as it is stored. waymax/datatypes/observation.py:185-226 -/
structure ObsNd where
  trajectory : TrajNd ℝ
  isEgo : Nd Bool
  pose2d : PoseNd
  metadata : MetaNd
  roadgraph : Option (Nd (RgPoint ℝ))
  trafficLights : Nd (TlState ℝ)
  /-- points and `on_route` -/
  sdcPaths : Option (Nd (PathPoint ℝ) × Nd Bool)

namespace ObsNd

/-- `Observation.shape`. waymax/datatypes/observation.py:228-231 -/
def shape (o : ObsNd) : List Nat := o.pose2d.shape

/-- The road graph, when there is one. `None` has no attributes. waymax/datatypes/observation.py:577-579 -/
def roads (o : ObsNd) : Except Err (Nd (RgPoint ℝ)) :=
  match o.roadgraph with
  | none => .error .attributeError
  | some rg => .ok rg

/-- `Observation.validate` (shapes). waymax/datatypes/observation.py:262-286 -/
def validate (o : ObsNd) : Except Err Unit := do
  let rank := o.shape.length
  let rg ← o.roads
  assertThat (∀ sh ∈ [o.metadata.ids.shape, rg.shape, o.trafficLights.shape, o.pose2d.shape],
    sh.take rank = o.trajectory.shape.take rank) .assertion
  assertThat (o.metadata.ids.shape = o.isEgo.shape) .assertion
  assertThat (o.trajectory.shape.length = rank + 2) .assertion
  assertThat (o.metadata.ids.shape.length = rank + 1) .assertion
  assertThat (rg.shape.length = rank + 1) .assertion
  assertThat (o.trafficLights.shape.length = rank + 2) .assertion
  match o.sdcPaths with
  | none => return ()
  | some paths =>
    assertThat (paths.1.shape.take rank = o.trajectory.shape.take rank ∧ paths.1.shape.length = rank + 2) .assertion

end ObsNd

/-- `transform_observation`. waymax/datatypes/observation.py:394-427 -/
noncomputable def transformObservationNd (o : ObsNd) (pose2d : PoseNd) : Except Err ObsNd := do
  assertThat (o.shape = pose2d.shape) .assertion
  let pose ← PoseNd.combine o.pose2d pose2d
  let traj ← transformTrajectoryNd o.trajectory pose
  let rg ← o.roads
  let rg ← transformRoadgraphNd rg pose
  let tls ← transformTrafficLightsNd o.trafficLights pose
  let obs := { o with trajectory := traj, roadgraph := some rg, trafficLights := tls, pose2d := pose2d }
  obs.validate
  return obs

/-- `_tree_expand_and_repeat` on the metadata. waymax/datatypes/observation.py:533-539 -/
def MetaNd.expandRepeat (m : MetaNd) (repeats axis : Nat) : Except Err MetaNd := do
  return { ids := ← m.ids.expandRepeat repeats axis, objectTypes := ← m.objectTypes.expandRepeat repeats axis
           isSdc := ← m.isSdc.expandRepeat repeats axis, isModeled := ← m.isModeled.expandRepeat repeats axis
           isValid := ← m.isValid.expandRepeat repeats axis
           objectsOfInterest := ← m.objectsOfInterest.expandRepeat repeats axis
           isControlled := ← m.isControlled.expandRepeat repeats axis }

/-- `_tree_expand_and_repeat` on a pose. waymax/datatypes/observation.py:533-539 -/
def PoseNd.expandRepeat (p : PoseNd) (repeats axis : Nat) : Except Err PoseNd := do
  return { originalXy := ← p.originalXy.expandRepeat repeats axis, originalYaw := ← p.originalYaw.expandRepeat repeats axis
           matrix := ← p.matrix.expandRepeat repeats axis, deltaYaw := ← p.deltaYaw.expandRepeat repeats axis
           valid := ← p.valid.expandRepeat repeats axis }

/-- `_tree_expand_and_repeat` on paths, when there are any. waymax/datatypes/observation.py:533-539 -/
def expandPaths (repeats axis : Nat) :
    Option (Nd (PathPoint ℝ) × Nd Bool) → Except Err (Option (Nd (PathPoint ℝ) × Nd Bool))
  | none => .ok none
  | some (pts, on) => do
    let pts ← pts.expandRepeat repeats axis
    let on ← on.expandRepeat repeats axis
    return some (pts, on)

/-- `_tree_expand_and_repeat` on a road graph, when there is one. waymax/datatypes/observation.py:533-539 -/
def expandRoads (repeats axis : Nat) : Option (Nd (RgPoint ℝ)) → Except Err (Option (Nd (RgPoint ℝ)))
  | none => .ok none
  | some rg => do
    let rg ← rg.expandRepeat repeats axis
    return some rg

/-- `_tree_expand_and_repeat` on an observation. waymax/datatypes/observation.py:533-539 -/
def ObsNd.expandRepeat (o : ObsNd) (repeats axis : Nat) : Except Err ObsNd := do
  let trajectory ← o.trajectory.mapLeaves fun _ x => x.expandRepeat repeats axis
  let isEgo ← o.isEgo.expandRepeat repeats axis
  let pose2d ← o.pose2d.expandRepeat repeats axis
  let metadata ← o.metadata.expandRepeat repeats axis
  let roadgraph ← expandRoads repeats axis o.roadgraph
  let trafficLights ← o.trafficLights.expandRepeat repeats axis
  let sdcPaths ← expandPaths repeats axis o.sdcPaths
  return { trajectory, isEgo, pose2d, metadata, roadgraph, trafficLights, sdcPaths }

/-- The path of a global observation: one point, all fields zero or false. waymax/datatypes/observation.py:498-507 -/
def placeholderPathsNd (sh : List Nat) : Nd (PathPoint ℝ) × Nd Bool :=
  ({ shape := sh ++ [1, 1], get := fun _ => { x := 0, y := 0, z := 0, id := 0, valid := false, arcLength := 0 } },
   { shape := sh ++ [1, 1], get := fun _ => false })

/-- `global_observation_from_state`. waymax/datatypes/observation.py:457-530 -/
noncomputable def globalObservationNd (s : StateNd ℝ) (obsNumSteps numObj : Nat) : Except Err ObsNd := do
  let start := s.timestep.map fun t : Int => t - (obsNumSteps : Int) + 1
  let traj ← s.simTrajectory.slice start obsNumSteps
  let tls ← s.logTrafficLight.dynSliceV start obsNumSteps (-1)
  let pose2d ← PoseNd.fromCenterAndYaw { shape := s.shape, get := fun _ => (0, 0) } { shape := s.shape, get := fun _ => 0 }
    { shape := s.shape, get := fun _ => true }
  let globalObs : ObsNd :=
    { trajectory := traj, pose2d := pose2d, metadata := s.objectMetadata, roadgraph := s.roadgraphPoints, trafficLights := tls
      sdcPaths := some (placeholderPathsNd s.shape)
      isEgo := { shape := s.objectMetadata.ids.shape, get := fun _ => false } }
  let expanded ← globalObs.expandRepeat numObj s.shape.length
  expanded.validate
  assertThat (expanded.shape = s.shape ++ [numObj]) .assertion
  return expanded

/-- The points of one row nearest to a reference point, by `jax.lax.top_k` of the negative distances; all fields travel through one
float32 array. waymax/datatypes/roadgraph.py:197-228 -/
noncomputable def nearestRow (row : List (RgPoint ℝ)) (ref : ℝ × ℝ) (topk : Nat) : List (RgPoint ℝ) :=
  let key := fun i : Fin row.length => orInf row[i].valid (hypot (ref.1 - row[i].x) (ref.2 - row[i].y))
  (topKIdx key topk).map fun i => { row[i] with type := f32OfInt row[i].type, id := f32OfInt row[i].id }

/-- `filter_topk_roadgraph_points`. waymax/datatypes/roadgraph.py:171-233 -/
noncomputable def filterTopkNd (rg : Nd (RgPoint ℝ)) (ref : Nd (ℝ × ℝ)) (topk : Nat) : Except Err (Nd (RgPoint ℝ)) := do
  assertThat (rg.shape.take ref.shape.length = ref.shape) .assertion
  assertThat (rg.shape.length = ref.shape.length + 1) .assertion
  if topk > rg.shape.getLastD 0 then .error .notImplemented
  else if topk < rg.shape.getLastD 0 then
    return { shape := rg.shape.dropLast ++ [topk]
             get := fun idx => (nearestRow (rg.rows idx.dropLast) (ref.get idx.dropLast) topk).getD (idx.getLastD 0) (rg.get idx) }
  else return rg

/-- Position, yaw and validity of all objects at the current step: `current_sim_trajectory` without its time axis.
waymax/datatypes/observation.py:560-562, 632-634, waymax/datatypes/simulator_state.py:101-106 -/
def currentPoses (s : StateNd ℝ) : Except Err (Nd (ℝ × ℝ) × Nd ℝ × Nd Bool) := do
  let cur ← s.simTrajectory.slice s.timestep 1
  let xy ← Nd.pairs cur.x cur.y
  let xy ← xy.indexLast 0
  let yaw ← cur.yaw.indexLast 0
  let valid ← cur.valid.indexLast 0
  return (xy, yaw, valid)

/-- `global_obs.replace(is_ego=..., roadgraph_static_points=...)`. waymax/datatypes/observation.py:575-580, 648-653 -/
noncomputable def ObsNd.withTopk (o : ObsNd) (isEgo : Nd Bool) (ref : Nd (ℝ × ℝ)) (topk : Nat) : Except Err ObsNd := do
  let rg ← o.roads
  let rg ← filterTopkNd rg ref topk
  return { o with isEgo := isEgo, roadgraph := some rg }

/-- The poses of the SDCs, one per scenario. waymax/datatypes/observation.py:590-593, 636-639 -/
noncomputable def sdcPoses (s : StateNd ℝ) (cur : Nd (ℝ × ℝ) × Nd ℝ × Nd Bool) : Except Err (Nd (ℝ × ℝ) × Nd ℝ × Nd Bool) := do
  let sdcIdx ← s.objectMetadata.isSdc.topOne
  let xy ← cur.1.takeAlongLast sdcIdx
  let yaw ← cur.2.1.takeAlongLast sdcIdx
  let valid ← cur.2.2.takeAlongLast sdcIdx
  return (xy, yaw, valid)

/-- `is_ego` for all objects: the diagonal matrix of `arange` compared with 1, for every scenario.
waymax/datatypes/observation.py:566-574 -/
def egoNd (sh : List Nat) (numObj : Nat) : Nd Bool :=
  { shape := sh ++ [numObj, numObj]
    get := fun idx =>
      let i := idx.getD sh.length 0
      let j := idx.getD (sh.length + 1) 0
      decide ((if i = j then i else 0) = 1) }

/-- `observation_from_state`: an observation for every object. waymax/datatypes/observation.py:540-605 -/
noncomputable def observationFromStateNd (s : StateNd ℝ) (obsNumSteps topk : Nat) (frame : Frame) : Except Err ObsNd := do
  let cur ← currentPoses s
  let numObj ← s.simTrajectory.numObjects
  let g ← globalObservationNd s obsNumSteps numObj
  let o ← g.withTopk (egoNd s.shape numObj) cur.1 topk
  match frame with
  | .OBJECT => do
    let pose2d ← PoseNd.fromCenterAndYaw cur.1 cur.2.1 cur.2.2
    transformObservationNd o pose2d
  | .GLOBAL => return o
  | .SDC => do
    let sdc ← sdcPoses s cur
    let pose2d ← PoseNd.fromCenterAndYaw (sdc.1.repeatLast numObj) (sdc.2.1.repeatLast numObj) (sdc.2.2.repeatLast numObj)
    transformObservationNd o pose2d

/-- The recorded paths of the SDCs in place of the placeholder. waymax/datatypes/observation.py:655-660 -/
def ObsNd.withPaths (o : ObsNd) (s : StateNd ℝ) : Except Err ObsNd :=
  match s.sdcPaths with
  | none => .ok o
  | some paths => do
    let expanded ← expandPaths 1 s.shape.length (some paths)
    let o' := { o with sdcPaths := expanded }
    o'.validate
    return o'

/-- `sdc_observation_from_state`. waymax/datatypes/observation.py:608-676 -/
noncomputable def sdcObservationFromStateNd (s : StateNd ℝ) (obsNumSteps topk : Nat) (frame : Frame) : Except Err ObsNd := do
  let cur ← currentPoses s
  let sdc ← sdcPoses s cur
  let g ← globalObservationNd s obsNumSteps 1
  let o ← g.withTopk s.objectMetadata.isSdc.newBeforeLast sdc.1 topk
  let o ← o.withPaths s
  match frame with
  | .OBJECT | .SDC => do
    let pose2d ← PoseNd.fromCenterAndYaw sdc.1 sdc.2.1 sdc.2.2
    assertThat (pose2d.shape = s.shape ++ [1]) .assertion
    transformObservationNd o pose2d
  | .GLOBAL => return o

end Waymax
