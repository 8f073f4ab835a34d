import Verif.Model.Observation
import Verif.Model.Waypoint
import Mathlib.Data.Fin.Tuple.Basic
/-
Model of the conversion between WOMD dictionaries and simulator states: waymax/dataloader/womd_utils.py,
waymax/dataloader/womd_factories.py and `preprocess_womd_example` in waymax/dataloader/womd_dataloader.py, for one scenario, over
real numbers.

A dictionary is a record of arrays here; every array of the dictionary is one field below (`state/past/x` is the field `x` of
`past`). Integer features are integers, except that integers stored in a float32 feature go through `f32OfInt`. int64 features are
not narrowed. The dictionary functions that depend on key names are modelled in Verif/Model/TimeTensors.lean.
-/

namespace Waymax

open Real

/-- The `state/<time>/...` features of one object at one step. waymax/dataloader/womd_utils.py:207-263 -/
structure WomdPt where
  x : ℝ
  y : ℝ
  z : ℝ
  velocityX : ℝ
  velocityY : ℝ
  bboxYaw : ℝ
  length : ℝ
  width : ℝ
  height : ℝ
  speed : ℝ
  velYaw : ℝ
  timestampMicros : Int
  valid : Int

/-- The `traffic_light_state/<time>/...` features of one light at one step. waymax/dataloader/womd_utils.py:267-340 -/
structure WomdTl where
  x : ℝ
  y : ℝ
  z : ℝ
  state : Int
  id : Int
  valid : Int

/-- The features of one object without a time. waymax/dataloader/womd_utils.py:190-206 -/
structure WomdMeta where
  id : Int
  type : Int
  isSdc : Int
  tracksToPredict : Int
  objectsOfInterest : Int

/-- The `roadgraph_samples/...` features of one point. waymax/dataloader/womd_utils.py:169-187 -/
structure WomdRg where
  x : ℝ
  y : ℝ
  z : ℝ
  dirX : ℝ
  dirY : ℝ
  dirZ : ℝ
  type : Int
  id : Int
  valid : Int

/-- A WOMD example with `n` objects, `L` traffic lights, `H` past and `F` future steps. Traffic light features have the step axis
first. waymax/dataloader/womd_utils.py:137-365 -/
structure WomdExample (n L H F : Nat) where
  past : Fin n → Fin H → WomdPt
  current : Fin n → Fin 1 → WomdPt
  future : Fin n → Fin F → WomdPt
  tlPast : Fin H → Fin L → WomdTl
  tlCurrent : Fin 1 → Fin L → WomdTl
  tlFuture : Fin F → Fin L → WomdTl
  tlPastMicros : Fin H → Int
  tlCurrentMicros : Fin 1 → Int
  tlFutureMicros : Fin F → Int
  metadata : Fin n → WomdMeta
  roadgraph : List WomdRg

/-! ### Writing -/

/-- `valid` stored in an integer feature. Used at waymax/dataloader/womd_utils.py:478-513 -/
def intOfBool (b : Bool) : Int := if b then 1 else 0

/-- `_trajectory_to_dict` for one point; `speed` and `vel_yaw` are properties of the trajectory.
waymax/dataloader/womd_utils.py:478-497, waymax/datatypes/object_state.py:196-209 -/
noncomputable def womdOfPt (p : Pt ℝ) : WomdPt :=
  { x := p.x, y := p.y, z := p.z, velocityX := p.velX, velocityY := p.velY, bboxYaw := p.yaw, length := p.length, width := p.width
    height := p.height, speed := p.speed, velYaw := if p.valid then ScalarOps.arctan2 p.velY p.velX else -1
    timestampMicros := p.timestampMicros, valid := intOfBool p.valid }

/-- `_traffic_light_to_dict` for one light at one step. waymax/dataloader/womd_utils.py:500-513 -/
def womdOfTl (l : TlState ℝ) : WomdTl := { x := l.x, y := l.y, z := l.z, state := l.state, id := l.laneId, valid := intOfBool l.valid }

/-- `_object_metadata_to_dict` for one object, then the conversion to the feature types: ids and types are float32 features.
waymax/dataloader/womd_utils.py:516-532, 190-206, 455-461 -/
def womdOfMeta (m : ObjMeta) : WomdMeta :=
  let set := fun x : Int => if m.isValid then x else -1
  { id := f32OfInt (set m.id), type := f32OfInt (set m.objectType), isSdc := set (intOfBool m.isSdc)
    tracksToPredict := set (intOfBool m.isModeled), objectsOfInterest := set (intOfBool m.objectsOfInterest) }

/-- `_roadgraph_to_dict` for one point. waymax/dataloader/womd_utils.py:465-475 -/
def womdOfRg (p : RgPoint ℝ) : WomdRg :=
  { x := p.x, y := p.y, z := p.z, dirX := p.dirX, dirY := p.dirY, dirZ := p.dirZ, type := p.type, id := p.id, valid := intOfBool p.valid }

/-- `_get_invalid_future_trajectory`, one point. waymax/dataloader/womd_utils.py:535-550 -/
def womdUnknownPt : WomdPt := ⟨-1, -1, -1, -1, -1, -1, -1, -1, -1, -1, -1, -1, -1⟩

/-- `_get_invalid_future_traffic_light`, one light at one step. waymax/dataloader/womd_utils.py:553-572 -/
def womdUnknownTl : WomdTl := ⟨-1, -1, -1, -1, -1, -1⟩

/-- The sizes in a feature description, and whether it asks for SDC paths. waymax/dataloader/womd_utils.py:137-365 -/
structure WomdSpec where
  objects : Nat
  lights : Nat
  points : Nat
  history : Nat
  future : Nat
  paths : Bool

/-- `simulator_state_to_womd_dict`. An array that does not fit the feature description cannot be reshaped; SDC paths are not among
the values written. waymax/dataloader/womd_utils.py:378-462 -/
noncomputable def toWomd {n T : Nat} [NeZero T] (spec : WomdSpec) (validate : Bool) (s : SimState ℝ n T) :
    Except Err (WomdExample n s.logTrafficLight.length spec.history spec.future) :=
  if validate && !decide (s.timestep + 1 = (spec.history : Int) + 1) then .error .valueError
  else if h : spec.history ≤ T ∧ 1 ≤ T then
    match s.roadgraphPoints with
    | none => .error .attributeError
    | some rg =>
      if hn : 0 < n then
        if spec.paths then .error .keyError
        else if n = spec.objects ∧ s.logTrafficLight.length = spec.lights ∧ rg.length = spec.points then
          let past := fun i => dynSlice (s.simTrajectory i) (s.timestep - spec.history) spec.history h.1
          let current := fun i => dynSlice (s.simTrajectory i) s.timestep 1 h.2
          .ok { past := fun i t => womdOfPt (past i t)
                current := fun i t => womdOfPt (current i t)
                future := fun _ _ => womdUnknownPt
                tlPast := fun t l => womdOfTl (dynSlice (s.logTrafficLight.get l) (s.timestep - spec.history) spec.history h.1 t)
                tlCurrent := fun t l => womdOfTl (dynSlice (s.logTrafficLight.get l) s.timestep 1 h.2 t)
                tlFuture := fun _ _ => womdUnknownTl
                tlPastMicros := fun t => (past ⟨0, hn⟩ t).timestampMicros
                tlCurrentMicros := fun t => (current ⟨0, hn⟩ t).timestampMicros
                tlFutureMicros := fun _ => -1
                metadata := fun i => womdOfMeta (s.objectMetadata i)
                roadgraph := rg.map womdOfRg }
        else .error .typeError
      else .error .indexError
  else .error .typeError

/-! ### Reading -/

/-- `aggregate_time_tensors` for the features of one object or light: past, then current, then future.
waymax/dataloader/womd_utils.py:85-123 -/
def aggregate {β : Type} {H F : Nat} (past : Fin H → β) (current : Fin 1 → β) (future : Fin F → β) : Fin (H + 1 + F) → β :=
  Fin.append (Fin.append past current) future

/-- The aggregated features of the objects with the headings wrapped.
waymax/dataloader/womd_dataloader.py:65-68, waymax/dataloader/womd_utils.py:85-95 -/
noncomputable def WomdExample.objects {n L H F : Nat} (e : WomdExample n L H F) : Fin n → Fin (H + 1 + F) → WomdPt :=
  fun i t =>
    let p := aggregate (e.past i) (e.current i) (e.future i) t
    { p with bboxYaw := wrapYaws p.bboxYaw }

/-- The aggregated traffic light features. waymax/dataloader/womd_utils.py:99-120 -/
def WomdExample.lights {n L H F : Nat} (e : WomdExample n L H F) : Fin (H + 1 + F) → Fin L → WomdTl :=
  aggregate e.tlPast e.tlCurrent e.tlFuture

/-- `jnp.asarray(x, jnp.bool_)`. Called at waymax/dataloader/womd_factories.py:84 -/
def boolOfInt (x : Int) : Bool := decide (x ≠ 0)

/-- `trajectory_from_womd_dict` for one object. waymax/dataloader/womd_factories.py:208-250 -/
noncomputable def trajectoryFromWomd {T : Nat} (row : Fin T → WomdPt) : Fin T → Pt ℝ :=
  let valid := fun t => boolOfInt (row t).valid
  fun t =>
    { x := (row t).x, y := (row t).y, z := (row t).z, velX := (row t).velocityX, velY := (row t).velocityY, yaw := (row t).bboxYaw
      valid := valid t, timestampMicros := (row t).timestampMicros
      length := maskedMean (fun t => (row t).length) valid (-1) t
      width := maskedMean (fun t => (row t).width) valid (-1) t
      height := maskedMean (fun t => (row t).height) valid (-1) t }

/-- `traffic_lights_from_womd_dict` for one light at one step. waymax/dataloader/womd_factories.py:253-294 -/
def tlFromWomd (l : WomdTl) : TlState ℝ := { x := l.x, y := l.y, z := l.z, state := l.state, laneId := l.id, valid := boolOfInt l.valid }

/-- `object_metadata_from_womd_dict` for one object. waymax/dataloader/womd_factories.py:28-60 -/
def metaFromWomd (m : WomdMeta) : ObjMeta :=
  { id := m.id, objectType := m.type, isSdc := decide (m.isSdc = 1), isModeled := decide (m.tracksToPredict = 1)
    isValid := decide (m.tracksToPredict ≠ -1), objectsOfInterest := decide (m.objectsOfInterest = 1), isControlled := false }

/-- `roadgraph_from_womd_dict` for one point. waymax/dataloader/womd_factories.py:63-97 -/
def rgFromWomd (p : WomdRg) : RgPoint ℝ :=
  { x := p.x, y := p.y, z := p.z, dirX := p.dirX, dirY := p.dirY, dirZ := p.dirZ, type := p.type, id := p.id, valid := boolOfInt p.valid }

/-- A point of an array of zeros. waymax/dataloader/womd_factories.py:177-179 -/
def zeroPt : Pt ℝ := ⟨0, 0, 0, 0, 0, 0, false, 0, 0, 0, 0⟩

/-- `simulator_state_from_womd_dict` with `time_key='all'` and without SDC paths, on the aggregated features.
waymax/dataloader/womd_factories.py:135-205 -/
noncomputable def fromWomd {n L T : Nat} (objects : Fin n → Fin T → WomdPt) (lights : Fin T → Fin L → WomdTl)
    (metadata : Fin n → WomdMeta) (roadgraph : List WomdRg) : Except Err (SimState ℝ n T) := do
  let log : Traj ℝ n T := fun i => trajectoryFromWomd (objects i)
  let sim ← updateTrajBySlice (fun _ _ => zeroPt) log 0 none (some 1)
  return { simTrajectory := sim, logTrajectory := log, logTrafficLight := List.ofFn fun l t => tlFromWomd (lights t l)
           objectMetadata := fun i => metaFromWomd (metadata i), timestep := 0, sdcPaths := none
           roadgraphPoints := some (roadgraph.map rgFromWomd) }

/-- Reading back an example: preprocessing without `max_num_objects`, then `simulator_state_from_womd_dict`.
waymax/dataloader/womd_dataloader.py:58-79, waymax/dataloader/womd_factories.py:135-205 -/
noncomputable def loadWomd {n L H F : Nat} (e : WomdExample n L H F) : Except Err (SimState ℝ n (H + 1 + F)) :=
  fromWomd e.objects e.lights e.metadata e.roadgraph

end Waymax
