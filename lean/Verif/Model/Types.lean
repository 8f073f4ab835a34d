import Verif.Model.Array
/-
Model of the data classes in waymax/datatypes (object_state.py, roadgraph.py, traffic_lights.py, route.py,
simulator_state.py, action.py).

Python stores a struct of arrays whose leaves all have the same shape (checked by `validate`); the model stores an array of
records, which is the same data. Scalars are an arbitrary type `α`, so float32 is one instance; no law is assumed.
-/

namespace Waymax

/-- The scalar operations used by the book-keeping code. No law is required of them, so float32 is an instance.
Used at waymax/datatypes/object_state.py:294-316, waymax/datatypes/operations.py:55-57 -/
class ScalarOps (α : Type) where
  /-- 0.0 -/
  zero : α
  /-- -1.0, the placeholder for invalid numbers (object_state.py:27) -/
  invalid : α
  /-- addition -/
  add : α → α → α
  /-- multiplication -/
  mul : α → α → α
  /-- jnp.arctan2 -/
  arctan2 : α → α → α
  /-- TIME_INTERVAL = 0.1 (datatypes/constant.py) -/
  dt : α

/-- One object at one time step. waymax/datatypes/object_state.py:127-166 (`Trajectory` leaves). -/
structure Pt (α : Type) where
  x : α
  y : α
  z : α
  velX : α
  velY : α
  yaw : α
  valid : Bool
  timestampMicros : Int
  length : α
  width : α
  height : α
  deriving DecidableEq, Repr

/-- `Trajectory` of shape (num_objects, num_timesteps). waymax/datatypes/object_state.py:127-166 -/
abbrev Traj (α : Type) (n T : Nat) := Fin n → Fin T → Pt α

/-- One object's metadata. waymax/datatypes/object_state.py:46-79 -/
structure ObjMeta where
  id : Int
  objectType : Int
  isSdc : Bool
  isModeled : Bool
  isValid : Bool
  objectsOfInterest : Bool
  isControlled : Bool
  deriving DecidableEq, Repr

/-- One road-graph point. waymax/datatypes/roadgraph.py (`RoadgraphPoints` leaves). -/
structure RgPoint (α : Type) where
  x : α
  y : α
  z : α
  dirX : α
  dirY : α
  dirZ : α
  type : Int
  id : Int
  valid : Bool
  deriving DecidableEq, Repr

/-- One traffic light at one time step. waymax/datatypes/traffic_lights.py (`TrafficLights` leaves). -/
structure TlState (α : Type) where
  x : α
  y : α
  z : α
  state : Int
  laneId : Int
  valid : Bool
  deriving DecidableEq, Repr

/-- One point of an SDC path. waymax/datatypes/route.py (`Paths` leaves of shape (num_paths, num_points)). -/
structure PathPoint (α : Type) where
  x : α
  y : α
  z : α
  id : Int
  valid : Bool
  arcLength : α
  deriving DecidableEq, Repr

/-- One SDC path: its points and the per-path flag `on_route` (shape (num_paths, 1)). waymax/datatypes/route.py -/
structure SdcPath (α : Type) where
  points : List (PathPoint α)
  onRoute : Bool
  deriving DecidableEq, Repr

/-- `SimulatorState` of one scenario. waymax/datatypes/simulator_state.py:42-73. `num_traffic_lights`, `num_points` and
`num_paths` are list lengths. -/
structure SimState (α : Type) (n T : Nat) where
  simTrajectory : Traj α n T
  logTrajectory : Traj α n T
  logTrafficLight : List (Fin T → TlState α)
  objectMetadata : Fin n → ObjMeta
  timestep : Int
  sdcPaths : Option (List (SdcPath α))
  roadgraphPoints : Option (List (RgPoint α))

/-- One object's action: data of type `D` (a row of the action array) and the validity bit.
waymax/datatypes/action.py (`Action`). -/
structure Act (D : Type) where
  data : D
  valid : Bool
  deriving DecidableEq, Repr

/-- One object's `TrajectoryUpdate`. waymax/datatypes/action.py (`TrajectoryUpdate`). -/
structure Upd (α : Type) where
  x : α
  y : α
  yaw : α
  velX : α
  velY : α
  valid : Bool
  deriving DecidableEq, Repr

/-- Action row of the state dynamics: the concatenation x, y, yaw, vel_x, vel_y of CONTROLLABLE_FIELDS.
waymax/dynamics/abstract_dynamics.py:25, waymax/datatypes/action.py:103-113 -/
structure StateRow (α : Type) where
  x : α
  y : α
  yaw : α
  velX : α
  velY : α
  deriving DecidableEq, Repr

/-- `TrajectoryUpdate.as_action`. waymax/datatypes/action.py:103-113 -/
def Upd.asAction {α : Type} (u : Upd α) : Act (StateRow α) :=
  { data := { x := u.x, y := u.y, yaw := u.yaw, velX := u.velX, velY := u.velY }, valid := u.valid }

/-- `config.ObjectType`. waymax/config.py -/
inductive ObjectType where
  | SDC | MODELED | VALID | NON_SDC
  deriving DecidableEq, Repr

/-- `fill_invalid_trajectory`: numbers -1, booleans False. waymax/datatypes/object_state.py:294-316 -/
def invalidPt {α : Type} [ScalarOps α] : Pt α :=
  { x := ScalarOps.invalid, y := ScalarOps.invalid, z := ScalarOps.invalid,
    velX := ScalarOps.invalid, velY := ScalarOps.invalid, yaw := ScalarOps.invalid,
    valid := false, timestampMicros := -1,
    length := ScalarOps.invalid, width := ScalarOps.invalid, height := ScalarOps.invalid }

/-- `fill_invalid_trajectory`. waymax/datatypes/object_state.py:294-316 -/
def fillInvalidTrajectory {α : Type} [ScalarOps α] {n T : Nat} (_traj : Traj α n T) : Traj α n T :=
  fun _ _ => invalidPt

namespace SimState
variable {α : Type} {n T : Nat}

/-- `SimulatorState.is_done`. waymax/datatypes/simulator_state.py:89-94 -/
def isDone (s : SimState α n T) : Bool := decide (s.timestep + 1 ≥ (T : Int))

/-- `SimulatorState.remaining_timesteps`. waymax/datatypes/simulator_state.py:96-99 -/
def remainingTimesteps (s : SimState α n T) : Int := (T : Int) - s.timestep - 1

/-- `SimulatorState.current_sim_trajectory`. waymax/datatypes/simulator_state.py:101-106 -/
def currentSim [NeZero T] (s : SimState α n T) : Fin n → Pt α := fun i => dynIndex (s.simTrajectory i) s.timestep

/-- `SimulatorState.current_log_trajectory`. waymax/datatypes/simulator_state.py:111-116 -/
def currentLog [NeZero T] (s : SimState α n T) : Fin n → Pt α := fun i => dynIndex (s.logTrajectory i) s.timestep

end SimState

/-- `update_by_slice_in_dim(..., axis=-1)` on a trajectory: the same window of every object's time axis.
waymax/datatypes/operations.py:124-177 -/
def updateTrajBySlice {α : Type} {n T U : Nat} (inputs : Traj α n T) (updates : Traj α n U)
    (inputsStart : Int) (updatesStart : Option Int := none) (sliceSize : Option Nat := none) :
    Except Err (Traj α n T) :=
  match sliceSize with
  | some k =>
    if h : k ≤ U then
      if k ≤ T then
        .ok fun i => dynUpdateSlice (inputs i) (dynSlice (updates i) (updatesStart.getD inputsStart) k h) inputsStart
      else .error .typeError
    else .error .typeError
  | none => if U ≤ T then .ok fun i => dynUpdateSlice (inputs i) (updates i) inputsStart else .error .typeError

/-- `update_state_by_log`. waymax/datatypes/simulator_state.py:132-146 -/
def updateStateByLog {α : Type} {n T : Nat} (s : SimState α n T) (numSteps : Nat) : Except Err (SimState α n T) := do
  let traj ← updateTrajBySlice s.simTrajectory s.logTrajectory (s.timestep + 1) none (some numSteps)
  return { s with timestep := s.timestep + numSteps, simTrajectory := traj }

/-- `get_control_mask`. waymax/datatypes/simulator_state.py:149-170 (NON_SDC raises ValueError). -/
def getControlMask {n : Nat} (m : Fin n → ObjMeta) (ty : ObjectType) : Except Err (Fin n → Bool) :=
  match ty with
  | .SDC => .ok fun i => (m i).isSdc
  | .MODELED => .ok fun i => (m i).isModeled
  | .VALID => .ok fun i => (m i).isValid
  | .NON_SDC => .error .valueError

end Waymax
