import Verif.Model.Batch
import Verif.Model.Specs
/-
The `validate` methods. In the model of batches every leaf has its data type by construction, so what is left of `validate` there is
the comparison of shapes; the data types are modelled for the flat classes, whose leaves are given by shape and data type.
-/

namespace Waymax

/-- `Trajectory.validate` (shapes). waymax/datatypes/object_state.py:250-293 -/
def TrajNd.validate {α : Type} (t : TrajNd α) : Except Err Unit :=
  assertThat (t.y.shape = t.x.shape ∧ t.z.shape = t.x.shape ∧ t.velX.shape = t.x.shape ∧ t.velY.shape = t.x.shape ∧
    t.yaw.shape = t.x.shape ∧ t.valid.shape = t.x.shape ∧ t.timestampMicros.shape = t.x.shape ∧ t.length.shape = t.x.shape ∧
    t.width.shape = t.x.shape ∧ t.height.shape = t.x.shape) .assertion

/-- `ObjectMetadata.validate` (shapes). waymax/datatypes/object_state.py:93-124 -/
def MetaNd.validate (m : MetaNd) : Except Err Unit :=
  assertThat (m.objectTypes.shape = m.ids.shape ∧ m.isSdc.shape = m.ids.shape ∧ m.isModeled.shape = m.ids.shape ∧
    m.isValid.shape = m.ids.shape ∧ m.objectsOfInterest.shape = m.ids.shape ∧ m.isControlled.shape = m.ids.shape) .assertion

/-- `Trajectory.zeros`. waymax/datatypes/object_state.py:234-248 -/
def TrajNd.zeros {α : Type} (zero : α) (shape : List Nat) : TrajNd α :=
  let z : Nd α := { shape, get := fun _ => zero }
  { x := z, y := z, z := z, velX := z, velY := z, yaw := z, valid := { shape, get := fun _ => false },
    timestampMicros := { shape, get := fun _ => 0 }, length := z, width := z, height := z }

/-- All the checks a scenario can be given by hand: its own, and those of both trajectories and of the metadata.
waymax/datatypes/simulator_state.py:118-130, waymax/datatypes/object_state.py:93-124, 250-293 -/
def StateNd.validateAll {α : Type} (s : StateNd α) : Except Err Unit := do
  s.simTrajectory.validate
  s.logTrajectory.validate
  s.objectMetadata.validate
  s.validate

/-! ### Data types -/

/-- `chex.assert_equal_shape`. Called e.g. at waymax/datatypes/object_state.py:251 -/
def assertEqualShape (l : List ArrSpec) : Except Err Unit := assertThat (∀ a ∈ l, ∀ b ∈ l, a.shape = b.shape) .assertion

/-- `chex.assert_type` of a list of arrays and a list of types of the same length. Called e.g. at waymax/datatypes/object_state.py:264 -/
def assertType (l : List ArrSpec) (types : List DType) : Except Err Unit := assertThat (l.map ArrSpec.dtype = types) .assertion

/-- The data classes of arrays of one shape. waymax/datatypes/roadgraph.py:59-96, waymax/datatypes/traffic_lights.py:38-70 -/
inductive FlatCls where
  | roadgraphPoints | objectMetadata | trajectory | trafficLights | trajectoryUpdate
  deriving DecidableEq, Repr

/-- The declared types of the leaves, in order. waymax/datatypes/roadgraph.py:156-166, object_state.py:114-123, object_state.py:279-292,
traffic_lights.py:96-103, action.py:94-101 -/
def FlatCls.types : FlatCls → List DType
  | .roadgraphPoints => [.float32, .float32, .float32, .float32, .float32, .float32, .int32, .int32, .bool]
  | .objectMetadata => [.int32, .int32, .bool, .bool, .bool, .bool, .bool]
  | .trajectory => [.float32, .float32, .float32, .float32, .float32, .float32, .bool, .int32, .float32, .float32, .float32]
  | .trafficLights => [.float32, .float32, .float32, .int32, .int32, .bool]
  | .trajectoryUpdate => [.float32, .float32, .float32, .float32, .float32, .bool]

/-- `validate` of these classes. waymax/datatypes/roadgraph.py:132-167, object_state.py:93-124, object_state.py:250-293,
traffic_lights.py:89-104, action.py:85-102 -/
def FlatCls.validate (c : FlatCls) (leaves : List ArrSpec) : Except Err Unit := do
  assertEqualShape leaves
  assertType leaves c.types

/-- `Paths.validate` of the leaves x, y, z, ids, valid, arc_length and on_route. waymax/datatypes/route.py:87-118 -/
def pathsValidate (x y z ids valid arcLength onRoute : ArrSpec) : Except Err Unit := do
  assertThat (x.shape ≠ []) .indexError
  assertThat (x.shape.dropLast ++ [min 1 (x.shape.getLastD 0)] = onRoute.shape) .assertion
  assertEqualShape [x, y, z, ids, valid, arcLength]
  assertType [x, y, z, ids, valid, arcLength, onRoute] [.float32, .float32, .float32, .int32, .bool, .float32, .bool]

/-- `ObjectPose2D.validate` of the leaves original_xy, original_yaw, matrix, delta_yaw and valid.
waymax/datatypes/observation.py:161-182 -/
def poseValidate (xy yaw matrix deltaYaw valid : ArrSpec) : Except Err Unit := do
  let r := deltaYaw.shape.length
  assertThat (∀ a ∈ [xy, yaw, matrix, deltaYaw, valid], a.shape.take r = xy.shape.take r) .assertion
  assertType [xy, yaw, matrix, deltaYaw, valid] [.float32, .float32, .float32, .float32, .bool]

end Waymax
