import Verif.Model.TimeTensors
import Verif.Model.Validate
import Verif.Model.Womd
import Verif.Model.Dataset
/-
Model of waymax/dataloader/womd_factories.py on dictionaries of arrays with any number of batch axes, and of the generator that
puts reading, preprocessing, batching and conversion together (waymax/dataloader/womd_dataloader.py and `get_data_generator` in
waymax/dataloader/dataloader_utils.py). All features are arrays of real numbers here; integer features hold whole numbers.
-/

namespace Waymax

/-- `jnp.asarray(x, dtype=jnp.int32)`: the fraction is cut off. Called at waymax/dataloader/womd_factories.py:46-47 -/
noncomputable def intOfReal (x : ℝ) : Int := if 0 ≤ x then ⌊x⌋ else ⌈x⌉

open Classical in
/-- `jnp.asarray(x, jnp.bool_)`. Called at waymax/dataloader/womd_factories.py:84 -/
noncomputable def boolOfReal (x : ℝ) : Bool := decide (x ≠ 0)

open Classical in
/-- `x == v`. Called at waymax/dataloader/womd_factories.py:42-45 -/
noncomputable def eqReal (v x : ℝ) : Bool := decide (x = v)

/-- `jnp.swapaxes(x, -1, -2)`. Called at waymax/dataloader/womd_factories.py:292 -/
def Nd.swapLast {β : Type} (x : Nd β) : Except Err (Nd β) :=
  match x.shape.reverse with
  | b :: a :: rest => .ok { shape := rest.reverse ++ [b, a], get := fun idx => match idx.reverse with
      | j :: i :: r => x.get (r.reverse ++ [j, i])
      | _ => x.get idx }
  | _ => .error .valueError

/-- `object_metadata_from_womd_dict`. waymax/dataloader/womd_factories.py:28-60 -/
noncomputable def metadataFromDict (d : Feats) : Except Err MetaNd := do
  let tracks ← d.fetch "state/tracks_to_predict".toList
  let sdc ← d.fetch "state/is_sdc".toList
  let interest ← d.fetch "state/objects_of_interest".toList
  let ids ← d.fetch "state/id".toList
  let types ← d.fetch "state/type".toList
  let out : MetaNd :=
    { ids := ids.map intOfReal, objectTypes := types.map intOfReal, isSdc := sdc.map (eqReal 1)
      isModeled := tracks.map (eqReal 1), isValid := tracks.map fun x => !eqReal (-1) x
      objectsOfInterest := interest.map (eqReal 1), isControlled := sdc.map fun _ => false }
  out.validate
  return out

/-- `roadgraph_from_womd_dict` with its default key. waymax/dataloader/womd_factories.py:63-97 -/
noncomputable def roadgraphFromDict (d : Feats) : Except Err (Nd (RgPoint ℝ)) := do
  let xyz ← d.fetch "roadgraph_samples/xyz".toList
  let dir ← d.fetch "roadgraph_samples/dir".toList
  let types ← (← d.fetch "roadgraph_samples/type".toList).indexLast 0
  let ids ← (← d.fetch "roadgraph_samples/id".toList).indexLast 0
  let valid ← (← d.fetch "roadgraph_samples/valid".toList).indexLast 0
  let x ← xyz.indexLast 0
  let y ← xyz.indexLast 1
  let z ← xyz.indexLast 2
  let dirX ← dir.indexLast 0
  let dirY ← dir.indexLast 1
  let dirZ ← dir.indexLast 2
  assertThat (∀ s ∈ [y.shape, z.shape, dirX.shape, dirY.shape, dirZ.shape, types.shape, ids.shape, valid.shape], s = x.shape) .assertion
  return { shape := x.shape
           get := fun i => { x := x.get i, y := y.get i, z := z.get i, dirX := dirX.get i, dirY := dirY.get i, dirZ := dirZ.get i
                             type := intOfReal (types.get i), id := intOfReal (ids.get i), valid := boolOfReal (valid.get i) } }

/-- `paths_from_womd_dict` with its default key: points and `on_route`. waymax/dataloader/womd_factories.py:100-132 -/
noncomputable def pathsFromDict (d : Feats) : Except Err (Nd (PathPoint ℝ) × Nd Bool) := do
  let xyz ← d.fetch "path_samples/xyz".toList
  let ids ← d.fetch "path_samples/id".toList
  let valid ← d.fetch "path_samples/valid".toList
  let arc ← d.fetch "path_samples/arc_length".toList
  let onRoute ← d.fetch "path_samples/on_route".toList
  let x ← xyz.indexLast 0
  let y ← xyz.indexLast 1
  let z ← xyz.indexLast 2
  pathsValidate ⟨x.shape, .float32⟩ ⟨y.shape, .float32⟩ ⟨z.shape, .float32⟩ ⟨ids.shape, .int32⟩ ⟨valid.shape, .bool⟩
    ⟨arc.shape, .float32⟩ ⟨onRoute.shape, .bool⟩
  return ({ shape := x.shape
            get := fun i => { x := x.get i, y := y.get i, z := z.get i, id := intOfReal (ids.get i), valid := boolOfReal (valid.get i)
                              arcLength := arc.get i } }, onRoute.map boolOfReal)

/-- `trajectory_from_womd_dict`. waymax/dataloader/womd_factories.py:208-250 -/
noncomputable def trajectoryFromDict (d : Feats) (time : String) : Except Err (TrajNd ℝ) := do
  let valid := (← d.fetch (statePrefix time ++ "valid".toList)).map boolOfReal
  let length ← maskedMeanNd (← d.fetch (statePrefix time ++ "length".toList)) valid (-1)
  let width ← maskedMeanNd (← d.fetch (statePrefix time ++ "width".toList)) valid (-1)
  let height ← maskedMeanNd (← d.fetch (statePrefix time ++ "height".toList)) valid (-1)
  let x ← d.fetch (statePrefix time ++ "x".toList)
  let y ← d.fetch (statePrefix time ++ "y".toList)
  let z ← d.fetch (statePrefix time ++ "z".toList)
  let velX ← d.fetch (statePrefix time ++ "velocity_x".toList)
  let velY ← d.fetch (statePrefix time ++ "velocity_y".toList)
  let yaw ← d.fetch (statePrefix time ++ "bbox_yaw".toList)
  let micros ← d.fetch (statePrefix time ++ "timestamp_micros".toList)
  let out : TrajNd ℝ := { x, y, z, velX, velY, yaw, valid, timestampMicros := micros.map intOfReal, length, width, height }
  out.validate
  return out

/-- The accepted time keys. waymax/dataloader/womd_factories.py:165, 279 -/
def timeKeys : List String := ["past", "current", "future", "all"]

/-- `traffic_lights_from_womd_dict`. waymax/dataloader/womd_factories.py:253-303 -/
noncomputable def lightsFromDict (d : Feats) (time : String) : Except Err (Nd (TlState ℝ)) := do
  assertThat (time ∈ timeKeys) .valueError
  let x ← (← d.fetch (lightPrefix time ++ "x".toList)).swapLast
  let y ← (← d.fetch (lightPrefix time ++ "y".toList)).swapLast
  let z ← (← d.fetch (lightPrefix time ++ "z".toList)).swapLast
  let state ← (← d.fetch (lightPrefix time ++ "state".toList)).swapLast
  let ids ← (← d.fetch (lightPrefix time ++ "id".toList)).swapLast
  let valid ← (← d.fetch (lightPrefix time ++ "valid".toList)).swapLast
  assertThat (∀ s ∈ [y.shape, z.shape, state.shape, ids.shape, valid.shape], s = x.shape) .assertion
  return { shape := x.shape
           get := fun i => { x := x.get i, y := y.get i, z := z.get i, state := intOfReal (state.get i), laneId := intOfReal (ids.get i)
                             valid := boolOfReal (valid.get i) } }

/-- The paths, if asked for. waymax/dataloader/womd_factories.py:171-175 -/
noncomputable def sdcPathsFromDict (d : Feats) (include_ : Bool) : Except Err (Option (Nd (PathPoint ℝ) × Nd Bool)) :=
  if include_ then do return some (← pathsFromDict d) else .ok none

/-- `simulator_state_from_womd_dict`. waymax/dataloader/womd_factories.py:135-205 -/
noncomputable def stateFromDict (d : Feats) (includeSdcPaths : Bool := false) (time : String := "all") : Except Err (StateNd ℝ) := do
  assertThat (time ∈ timeKeys) .valueError
  let rg ← roadgraphFromDict d
  let paths ← sdcPathsFromDict d includeSdcPaths
  let lights ← lightsFromDict d time
  let metadata ← metadataFromDict d
  let log ← trajectoryFromDict d time
  let zeros : TrajNd ℝ :=
    { x := log.x.map fun _ => 0, y := log.y.map fun _ => 0, z := log.z.map fun _ => 0, velX := log.velX.map fun _ => 0
      velY := log.velY.map fun _ => 0, yaw := log.yaw.map fun _ => 0, valid := log.valid.map fun _ => false
      timestampMicros := log.timestampMicros.map fun _ => 0, length := log.length.map fun _ => 0, width := log.width.map fun _ => 0
      height := log.height.map fun _ => 0 }
  let sim ← zeros.updSlice log (Nd.scalar 0) none (some 1)
  let out : StateNd ℝ :=
    { simTrajectory := sim, logTrajectory := log, logTrafficLight := lights, objectMetadata := metadata
      timestep := { shape := sim.shape.dropLast.dropLast, get := fun _ => 0 }, sdcPaths := paths, roadgraphPoints := some rg }
  out.validate
  return out

end Waymax
