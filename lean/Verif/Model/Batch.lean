import Verif.Model.Nd
import Verif.Model.BaseEnv
import Verif.Model.Continuous
/-
The environment on whole batches: every leaf of the state is an array with any number of leading batch axes, as in the code.
`reset`, `step` and the built-in dynamics are written again at this level, with the axis arithmetic, broadcasting, `vmap` and
shape checks of the code. The rest of the model works on one scenario; the theorems of `Verif.Props.Batch` relate the two.

Data types (dtypes) are not modelled. A constant index outside an axis is an IndexError here, though JAX clamps it; the numbers of
a bicycle action, where this can be observed, are read with the clamp.
-/

namespace Waymax

/-- `chex.assert_*` and the shape checks of JAX.
Called e.g. at waymax/datatypes/operations.py:231, waymax/datatypes/object_state.py:251-263 -/
def assertThat (p : Prop) [Decidable p] (e : Err) : Except Err Unit := if p then .ok () else .error e

namespace Nd
variable {β γ δ : Type}

/-- An array without axes: a Python number or `jnp.array(v)`.
Used e.g. at waymax/env/base_environment.py:88, waymax/dynamics/delta.py:152 -/
def scalar (v : β) : Nd β := { shape := [], get := fun _ => v }

/-- `dynamic_slice` on one leaf. The start index may have batch axes: `_vmap_over_batch_dims` maps over them, so they have to be
the leading axes of the leaf, and `axis` counts among the others. waymax/datatypes/operations.py:60-95 -/
def dynSliceV (x : Nd β) (start : Nd Int) (size : Nat) (axis : Int) : Except Err (Nd β) := do
  let r := start.shape.length
  assertThat (x.shape.take r = start.shape) .valueError
  let a ← normAxis (x.shape.length - r) axis
  let dim := x.shape.getD (r + a) 0
  assertThat (size ≤ dim) .typeError
  return { shape := x.shape.set (r + a) size
           get := fun idx => x.get (idx.modify (r + a) fun i => i + startIdx dim size (start.get (idx.take r))) }

/-- `dynamic_index(..., keepdims=False)` on one leaf, for an index without batch axes. waymax/datatypes/operations.py:98-121 -/
def dynIndexV (x : Nd β) (index : Int) (axis : Int) : Except Err (Nd β) := do
  let a ← normAxis x.shape.length axis
  let dim := x.shape.getD a 0
  assertThat (1 ≤ dim) .typeError
  return { shape := x.shape.eraseIdx a, get := fun idx => x.get (idx.insertIdx a (startIdx dim 1 index)) }

/-- `jax.lax.dynamic_update_slice_in_dim` below `r` mapped batch axes: the update is written at the start index along axis
`a`, and at 0 along the others. JAX primitive called at waymax/datatypes/operations.py:166-168 -/
def writeSlice (source update : Nd β) (r a : Nat) (start : Nd Int) : Except Err (Nd β) := do
  assertThat (List.Forall₂ (· ≤ ·) update.shape source.shape) .typeError
  let k := update.shape.getD a 0
  let from_ := fun idx : List Nat => startIdx (source.shape.getD a 0) k (start.get (idx.take r))
  let local_ := fun idx : List Nat => idx.modify a fun i => i - from_ idx
  return { shape := source.shape
           get := fun idx =>
             if from_ idx ≤ idx.getD a 0 ∧ List.Forall₂ (· < ·) (local_ idx) update.shape then update.get (local_ idx)
             else source.get idx }

/-- The part of the update that is written: the whole update, or `slice_size` entries of it.
waymax/datatypes/operations.py:160-165 -/
def cutUpdate (update : Nd β) (updatesStart : Nd Int) (axis : Int) : Option Nat → Except Err (Nd β)
  | none => .ok update
  | some k => update.dynSliceV updatesStart k axis

/-- `update_by_slice_in_dim` on one leaf. `vmap` also maps over the keyword argument `updates_start_idx`, which therefore needs
the same batch axes as `inputs_start_idx`. waymax/datatypes/operations.py:124-177 -/
def updSliceV (inputs updates : Nd β) (inputsStart : Nd Int) (updatesStart : Option (Nd Int)) (sliceSize : Option Nat)
    (axis : Int) : Except Err (Nd β) := do
  let us := updatesStart.getD inputsStart
  let r := inputsStart.shape.length
  assertThat (us.shape = inputsStart.shape) .valueError
  assertThat (inputs.shape.take r = inputsStart.shape ∧ updates.shape.take r = inputsStart.shape) .valueError
  let a ← normAxis (inputs.shape.length - r) axis
  let upd ← cutUpdate updates us axis sliceSize
  writeSlice inputs upd r (r + a) inputsStart

/-- `jnp.where(c, a, b)` with broadcasting. Called at waymax/datatypes/operations.py:55-57 -/
def where3 (c : Nd Bool) (a b : Nd β) : Except Err (Nd β) := do
  let ab ← zip (fun u v => (u, v)) a b
  zip (fun (b : Bool) uv => if b then uv.1 else uv.2) c ab

/-- `x[..., k]` for a constant `k`. Called e.g. at waymax/datatypes/observation.py:561-562 -/
def indexLast (x : Nd β) (k : Nat) : Except Err (Nd β) := do
  assertThat (k < x.shape.getLastD 0) .indexError
  return { shape := x.shape.dropLast, get := fun idx => x.get (idx ++ [k]) }

/-- `x[..., k]` as JAX reads it: an index beyond the end reads the last entry. Called at waymax/dynamics/bicycle_model.py:164-173 -/
def indexLastClamp (x : Nd β) (k : Nat) : Except Err (Nd β) := do
  assertThat (1 ≤ x.shape.getLastD 0) .typeError
  return { shape := x.shape.dropLast, get := fun idx => x.get (idx ++ [min k (x.shape.getLastD 0 - 1)]) }

/-- `x[..., a:b]` for constants `a ≤ b`: positions beyond the end are left out. Called e.g. at waymax/dynamics/delta.py:191 -/
def sliceLast (x : Nd β) (a b : Nat) : Nd β :=
  { shape := x.shape.dropLast ++ [min b (x.shape.getLastD 0) - a]
    get := fun idx => x.get (idx.dropLast ++ [idx.getLastD 0 + a]) }

/-- `jnp.concatenate([x, y], axis=-1)`. Called e.g. at waymax/agents/expert.py:54, waymax/dynamics/delta.py:191 -/
def concatLast (x y : Nd β) : Except Err (Nd β) := do
  assertThat (x.shape.dropLast = y.shape.dropLast) .typeError
  let d := x.shape.getLastD 0
  return { shape := x.shape.dropLast ++ [d + y.shape.getLastD 0]
           get := fun idx =>
             if idx.getLastD 0 < d then x.get idx else y.get (idx.dropLast ++ [idx.getLastD 0 - d]) }

/-- `jnp.stack([x, y], axis=-1)`. Called e.g. at waymax/datatypes/object_state.py:185 -/
def stackLast2 (x y : Nd β) : Except Err (Nd β) := do
  assertThat (x.shape = y.shape) .valueError
  return { shape := x.shape ++ [2]
           get := fun idx => if idx.getLastD 0 = 0 then x.get idx.dropLast else y.get idx.dropLast }

/-- The records of axis `r` of an array, below the leading index `p`. Rows of waymax/datatypes/roadgraph.py:196-219 -/
def rows (x : Nd β) (p : List Nat) : List β :=
  (List.range (x.shape.getD p.length 0)).map fun k => x.get (p ++ [k])

end Nd

/-! ### Data classes -/

/-- `Trajectory` as it is stored: one array per field. waymax/datatypes/object_state.py:127-166 -/
structure TrajNd (α : Type) where
  x : Nd α
  y : Nd α
  z : Nd α
  velX : Nd α
  velY : Nd α
  yaw : Nd α
  valid : Nd Bool
  timestampMicros : Nd Int
  length : Nd α
  width : Nd α
  height : Nd α

namespace TrajNd
variable {α : Type}

/-- `Trajectory.shape`. waymax/datatypes/object_state.py:168-171 -/
def shape (t : TrajNd α) : List Nat := t.x.shape

/-- `Trajectory.num_objects`: `shape[-2]`. waymax/datatypes/object_state.py:173-176 -/
def numObjects (t : TrajNd α) : Except Err Nat :=
  match t.shape.reverse with
  | _ :: n :: _ => .ok n
  | _ => .error .indexError

/-- `Trajectory.num_timesteps`: `shape[-1]`. waymax/datatypes/object_state.py:178-181 -/
def numTimesteps (t : TrajNd α) : Nat := t.shape.getLastD 0

/-- `jax.tree_util.tree_map` of a function on arrays. Called at waymax/datatypes/operations.py:95, 121, 245 -/
def mapLeaves (f : (β : Type) → Nd β → Except Err (Nd β)) (t : TrajNd α) : Except Err (TrajNd α) := do
  let x ← f α t.x
  let y ← f α t.y
  let z ← f α t.z
  let velX ← f α t.velX
  let velY ← f α t.velY
  let yaw ← f α t.yaw
  let valid ← f Bool t.valid
  let timestampMicros ← f Int t.timestampMicros
  let length ← f α t.length
  let width ← f α t.width
  let height ← f α t.height
  return { x, y, z, velX, velY, yaw, valid, timestampMicros, length, width, height }

/-- `jax.tree_util.tree_map` of a function on two arrays. Called at waymax/datatypes/operations.py:55-57, 177 -/
def zipLeaves (f : (β : Type) → Nd β → Nd β → Except Err (Nd β)) (t u : TrajNd α) : Except Err (TrajNd α) := do
  let x ← f α t.x u.x
  let y ← f α t.y u.y
  let z ← f α t.z u.z
  let velX ← f α t.velX u.velX
  let velY ← f α t.velY u.velY
  let yaw ← f α t.yaw u.yaw
  let valid ← f Bool t.valid u.valid
  let timestampMicros ← f Int t.timestampMicros u.timestampMicros
  let length ← f α t.length u.length
  let width ← f α t.width u.width
  let height ← f α t.height u.height
  return { x, y, z, velX, velY, yaw, valid, timestampMicros, length, width, height }

/-- `dynamic_slice` of a trajectory along its time axis. waymax/datatypes/operations.py:72-95 -/
def slice (t : TrajNd α) (start : Nd Int) (size : Nat) : Except Err (TrajNd α) :=
  t.mapLeaves fun _ x => x.dynSliceV start size (-1)

/-- `update_by_slice_in_dim(..., axis=-1)` of a trajectory. waymax/datatypes/operations.py:124-177 -/
def updSlice (t u : TrajNd α) (inputsStart : Nd Int) (updatesStart : Option (Nd Int)) (sliceSize : Option Nat) :
    Except Err (TrajNd α) :=
  t.zipLeaves (fun _ x y => x.updSliceV y inputsStart updatesStart sliceSize (-1)) u

/-- `fill_invalid_trajectory`. waymax/datatypes/object_state.py:294-316 -/
def fillInvalid [ScalarOps α] (t : TrajNd α) : TrajNd α :=
  { x := t.x.map fun _ => ScalarOps.invalid
    y := t.y.map fun _ => ScalarOps.invalid
    z := t.z.map fun _ => ScalarOps.invalid
    velX := t.velX.map fun _ => ScalarOps.invalid
    velY := t.velY.map fun _ => ScalarOps.invalid
    yaw := t.yaw.map fun _ => ScalarOps.invalid
    valid := t.valid.map fun _ => false
    timestampMicros := t.timestampMicros.map fun _ => -1
    length := t.length.map fun _ => ScalarOps.invalid
    width := t.width.map fun _ => ScalarOps.invalid
    height := t.height.map fun _ => ScalarOps.invalid }

/-- The entries of all leaves at one index. waymax/datatypes/operations.py:95 -/
def at_ (t : TrajNd α) (idx : List Nat) : Pt α :=
  { x := t.x.get idx, y := t.y.get idx, z := t.z.get idx, velX := t.velX.get idx, velY := t.velY.get idx,
    yaw := t.yaw.get idx, valid := t.valid.get idx, timestampMicros := t.timestampMicros.get idx, length := t.length.get idx,
    width := t.width.get idx, height := t.height.get idx }

end TrajNd

/-- `ObjectMetadata` as it is stored. waymax/datatypes/object_state.py:46-79 -/
structure MetaNd where
  ids : Nd Int
  objectTypes : Nd Int
  isSdc : Nd Bool
  isModeled : Nd Bool
  isValid : Nd Bool
  objectsOfInterest : Nd Bool
  isControlled : Nd Bool

/-- `Action` as it is stored. waymax/datatypes/action.py:25-53 -/
structure ActNd (α : Type) where
  data : Nd α
  valid : Nd Bool

/-- `Action.shape`. waymax/datatypes/action.py:40-43 -/
def ActNd.shape {α : Type} (a : ActNd α) : List Nat := a.valid.shape.dropLast

/-- `TrajectoryUpdate` as it is stored. waymax/datatypes/action.py:56-113 -/
structure UpdNd (α : Type) where
  x : Nd α
  y : Nd α
  yaw : Nd α
  velX : Nd α
  velY : Nd α
  valid : Nd Bool

/-- `TrajectoryUpdate.validate` (shapes). waymax/datatypes/action.py:86-101 -/
def UpdNd.validate {α : Type} (u : UpdNd α) : Except Err Unit :=
  assertThat (u.y.shape = u.x.shape ∧ u.yaw.shape = u.x.shape ∧ u.velX.shape = u.x.shape ∧ u.velY.shape = u.x.shape ∧
    u.valid.shape = u.x.shape) .assertion

/-- `SimulatorState` as it is stored. The leaves of the traffic lights, the paths and the road graph, which no transition touches,
are grouped into one array of records each. waymax/datatypes/simulator_state.py:42-73 -/
structure StateNd (α : Type) where
  simTrajectory : TrajNd α
  logTrajectory : TrajNd α
  logTrafficLight : Nd (TlState α)
  objectMetadata : MetaNd
  timestep : Nd Int
  /-- points and `on_route` -/
  sdcPaths : Option (Nd (PathPoint α) × Nd Bool)
  roadgraphPoints : Option (Nd (RgPoint α))

namespace StateNd
variable {α : Type}

/-- `SimulatorState.shape`, the batch axes. waymax/datatypes/simulator_state.py:75-79 -/
def shape (s : StateNd α) : List Nat := s.objectMetadata.ids.shape.dropLast

/-- `SimulatorState.remaining_timesteps`. waymax/datatypes/simulator_state.py:96-99 -/
def remainingTimesteps (s : StateNd α) : Nd Int :=
  s.timestep.map fun t => (s.logTrajectory.numTimesteps : Int) - t - 1

/-- `SimulatorState.is_done`. waymax/datatypes/simulator_state.py:89-94 -/
def isDone (s : StateNd α) : Nd Bool := s.timestep.map fun t => decide (t + 1 ≥ (s.logTrajectory.numTimesteps : Int))

/-- `SimulatorState.validate`: all members have the batch axes as leading axes. waymax/datatypes/simulator_state.py:118-129 -/
def validate (s : StateNd α) : Except Err Unit :=
  let r := s.shape.length
  assertThat (∀ sh ∈ [s.simTrajectory.shape, s.logTrajectory.shape, s.logTrafficLight.shape, s.objectMetadata.ids.shape,
      s.timestep.shape] ++ s.roadgraphPoints.toList.map Nd.shape, sh.take r = s.simTrajectory.shape.take r) .assertion

end StateNd

/-! ### Dynamics -/

/-- The `compute_update` interface on whole batches. waymax/dynamics/abstract_dynamics.py:87-109 -/
structure DynNd (α : Type) where
  computeUpdate : ActNd α → TrajNd α → Except Err (UpdNd α)

section
variable {α : Type} [ScalarOps α]

/-- One controllable field. waymax/dynamics/abstract_dynamics.py:209-226 -/
def newFieldNd (useFallback : Bool) (isControlled updValid : Nd Bool) (upd fallback default : Nd α) : Except Err (Nd α) :=
  if useFallback then (do
    let v ← Nd.where3 updValid upd fallback
    Nd.where3 isControlled v default)
  else Nd.where3 isControlled upd default

/-- The second `jnp.where` of `next_valid`. waymax/dynamics/abstract_dynamics.py:237-241 -/
def injectNd (allowInjection : Bool) (existAndControlled nextValid refValid : Nd Bool) : Except Err (Nd Bool) :=
  if allowInjection then Nd.where3 existAndControlled nextValid refValid else .ok nextValid

/-- `next_valid`. waymax/dynamics/abstract_dynamics.py:228-241 -/
def nextValidNd (allowInjection : Bool) (isControlled curValid refValid : Nd Bool) : Except Err (Nd Bool) := do
  let existAndControlled ← Nd.zip (fun a b => a && b) isControlled curValid
  let both ← Nd.zip (fun a b => a && b) curValid refValid
  let nv ← Nd.where3 existAndControlled curValid both
  injectNd allowInjection existAndControlled nv refValid

/-- `fallback_trajectory` (the three replaced fields). waymax/dynamics/abstract_dynamics.py:187-191 -/
def fallbackNd (cur : TrajNd α) : Except Err (TrajNd α) := do
  let x ← Nd.zip ScalarOps.add cur.x (cur.velX.map fun v => ScalarOps.mul v ScalarOps.dt)
  let y ← Nd.zip ScalarOps.add cur.y (cur.velY.map fun v => ScalarOps.mul v ScalarOps.dt)
  let yaw ← Nd.zip ScalarOps.arctan2 cur.velY cur.velX
  return { cur with x, y, yaw }

/-- `apply_trajectory_update_to_state`. waymax/dynamics/abstract_dynamics.py:136-256 -/
def applyUpdateNd (upd : UpdNd α) (sim ref : TrajNd α) (isControlled : Nd Bool) (timestep : Nd Int)
    (allowInjection : Bool := false) (useFallback : Bool := false) : Except Err (TrajNd α) := do
  let cur ← sim.slice timestep 1
  let fb ← fallbackNd cur
  let dflt ← ref.slice (timestep.map fun t => t + 1) 1
  let isC := isControlled.expandLast
  assertThat (isC.shape = upd.x.shape ∧ upd.x.shape = dflt.x.shape) .assertion
  let x ← newFieldNd useFallback isC upd.valid upd.x fb.x dflt.x
  let y ← newFieldNd useFallback isC upd.valid upd.y fb.y dflt.y
  let yaw ← newFieldNd useFallback isC upd.valid upd.yaw fb.yaw dflt.yaw
  let velX ← newFieldNd useFallback isC upd.valid upd.velX fb.velX dflt.velX
  let velY ← newFieldNd useFallback isC upd.valid upd.velY fb.velY dflt.velY
  let valid ← nextValidNd allowInjection isC cur.valid dflt.valid
  let updated : TrajNd α := { cur with x, y, yaw, velX, velY, valid, timestampMicros := dflt.timestampMicros }
  sim.updSlice updated (timestep.map fun t => t + 1) (some (Nd.scalar 0)) (some 1)

/-- `DynamicsModel.forward`. waymax/dynamics/abstract_dynamics.py:36-85 -/
def DynNd.forward (d : DynNd α) (action : ActNd α) (traj ref : TrajNd α) (isControlled : Nd Bool) (timestep : Nd Int)
    (allowInjection : Bool := false) : Except Err (TrajNd α) := do
  assertThat (traj.shape.dropLast = action.shape) .assertion
  let r := isControlled.shape.length
  assertThat (ref.shape.take r = traj.shape.take r ∧ isControlled.shape = traj.shape.take r ∧
    action.shape.take r = traj.shape.take r) .assertion
  let current ← traj.slice timestep 1
  let updates ← d.computeUpdate action current
  updates.validate
  applyUpdateNd updates traj ref isControlled timestep allowInjection

end

/-- `StateDynamics.compute_update`. waymax/dynamics/state_dynamics.py:39-65 -/
def stateNd (α : Type) : DynNd α where
  computeUpdate := fun a _ => .ok
    { x := a.data.sliceLast 0 1, y := a.data.sliceLast 1 2, yaw := a.data.sliceLast 2 3, velX := a.data.sliceLast 3 4,
      velY := a.data.sliceLast 4 5, valid := a.valid }

/-- `DeltaGlobal.compute_update`. `jnp.split(.., 3, axis=-1)` needs a last axis divisible by 3.
waymax/dynamics/delta.py:69-95 -/
noncomputable def deltaGlobalUpdateNd (P : DeltaParams) (a : ActNd ℝ) (t : TrajNd ℝ) : Except Err (UpdNd ℝ) := do
  let m := a.data.shape.getLastD 0
  assertThat (m % 3 = 0) .valueError
  let dx := a.data.sliceLast 0 (m / 3)
  let dy := a.data.sliceLast (m / 3) (2 * (m / 3))
  let dyaw := a.data.sliceLast (2 * (m / 3)) m
  let x ← Nd.zip (fun u v => u + v) t.x dx
  let y ← Nd.zip (fun u v => u + v) t.y dy
  let yaw ← Nd.zip (fun u v => u + v) t.yaw dyaw
  let valid ← Nd.zip (fun u v => u && v) t.valid a.valid
  return { x, y, yaw, velX := dx.map fun v => v / P.dt, velY := dy.map fun v => v / P.dt, valid }

/-- `DeltaGlobal`. waymax/dynamics/delta.py:30-155 -/
noncomputable def deltaGlobalNd (P : DeltaParams) : DynNd ℝ := { computeUpdate := deltaGlobalUpdateNd P }

/-- `matmul(rotation_matrix_2d(yaw), data[..., :2, None])[..., 0]`: one rotation per entry of `yaw`; the leading axes are broadcast, and
the rows of `data` need at least two numbers. waymax/dynamics/delta.py:182-187, waymax/utils/geometry.py:26-44 -/
noncomputable def rotateNd (yaw data : Nd ℝ) : Except Err (Nd ℝ) := do
  let xy := data.sliceLast 0 2
  assertThat (xy.shape.getLastD 0 = 2) .typeError
  let dx ← xy.indexLast 0
  let dy ← xy.indexLast 1
  let d ← Nd.zip (fun u v => (u, v)) dx dy
  let r ← Nd.zip (fun a v => rotatePoints (rotationMatrix2d a) v) yaw d
  return { shape := r.shape ++ [2]
           get := fun idx => if idx.getLastD 0 = 0 then (r.get idx.dropLast).1 else (r.get idx.dropLast).2 }

/-- `DeltaLocal.compute_update`. waymax/dynamics/delta.py:164-195 -/
noncomputable def deltaLocalUpdateNd (P : DeltaParams) (a : ActNd ℝ) (t : TrajNd ℝ) : Except Err (UpdNd ℝ) := do
  let transfYaw ← t.yaw.indexLast 0
  let transfValid := t.valid.sliceLast 0 1
  let rotatedXy ← rotateNd transfYaw a.data
  let actionArray ← Nd.concatLast rotatedXy (a.data.sliceLast 2 3)
  let valid ← Nd.zip (fun u v => u && v) transfValid a.valid
  deltaGlobalUpdateNd P { data := actionArray, valid } t

/-- `DeltaLocal`. waymax/dynamics/delta.py:158-241 -/
noncomputable def deltaLocalNd (P : DeltaParams) : DynNd ℝ := { computeUpdate := deltaLocalUpdateNd P }

/-- `InvertibleBicycleModel._clip_values`. waymax/dynamics/bicycle_model.py:162-174 -/
noncomputable def bicycleClipNd (P : BicycleParams) (data : Nd ℝ) : Except Err (Nd ℝ) := do
  let acc ← data.indexLastClamp 0
  let steering ← data.indexLastClamp 1
  Nd.stackLast2 (acc.map fun v => clip v (-P.accelBound) P.accelBound)
    (steering.map fun v => clip v (-P.steeringBound) P.steeringBound)

/-- `InvertibleBicycleModel.compute_update`. waymax/dynamics/bicycle_model.py:176-229 -/
noncomputable def bicycleUpdateNd (P : BicycleParams) (a : ActNd ℝ) (t : TrajNd ℝ) : Except Err (UpdNd ℝ) := do
  let speed ← Nd.zip (fun u v => √(u ^ 2 + v ^ 2)) t.velX t.velY
  let arr ← bicycleClipNd P a.data
  let accel := (arr.sliceLast 0 1).map fun v => if P.normalizeActions then v * P.maxAccel else v
  let steering := (arr.sliceLast 1 2).map fun v => if P.normalizeActions then v * P.maxSteering else v
  let dt := P.dt
  let x0 ← Nd.zip (fun u v => u + v) t.x (t.velX.map fun v => v * dt)
  let ax ← Nd.zip (fun a c => a * c) (accel.map fun v => 0.5 * v) (t.yaw.map Real.cos)
  let x ← Nd.zip (fun u v => u + v) x0 (ax.map fun v => v * dt ^ 2)
  let y0 ← Nd.zip (fun u v => u + v) t.y (t.velY.map fun v => v * dt)
  let ay ← Nd.zip (fun a c => a * c) (accel.map fun v => 0.5 * v) (t.yaw.map Real.sin)
  let y ← Nd.zip (fun u v => u + v) y0 (ay.map fun v => v * dt ^ 2)
  let dist ← Nd.zip (fun u v => u + v) (speed.map fun v => v * dt) (accel.map fun v => 0.5 * v * dt ^ 2)
  let deltaYaw ← Nd.zip (fun u v => u * v) steering dist
  let yawSum ← Nd.zip (fun u v => u + v) t.yaw deltaYaw
  let yaw := yawSum.map wrapYaws
  let vel ← Nd.zip (fun u v => u + v) speed (accel.map fun v => v * dt)
  let velX ← Nd.zip (fun u v => u * v) vel (yaw.map Real.cos)
  let velY ← Nd.zip (fun u v => u * v) vel (yaw.map Real.sin)
  let valid ← Nd.zip (fun u v => u && v) t.valid a.valid
  return { x, y, yaw, velX, velY, valid }

/-- `InvertibleBicycleModel`. waymax/dynamics/bicycle_model.py:115-264 -/
noncomputable def bicycleNd (P : BicycleParams) : DynNd ℝ := { computeUpdate := bicycleUpdateNd P }

/-! ### Environment -/

section
variable {α : Type} [ScalarOps α]

/-- `update_state_by_log`. waymax/datatypes/simulator_state.py:132-146 -/
def updateStateByLogNd (s : StateNd α) (numSteps : Nat) : Except Err (StateNd α) := do
  let traj ← s.simTrajectory.updSlice s.logTrajectory (s.timestep.map fun t => t + 1) none (some numSteps)
  return { s with timestep := s.timestep.map fun t => t + numSteps, simTrajectory := traj }

/-- `BaseEnvironment.reset`. waymax/env/base_environment.py:64-92 -/
def resetNd (cfg : EnvConfig) (s : StateNd α) : Except Err (StateNd α) := do
  let n ← s.logTrajectory.numObjects
  assertThat (cfg.maxNumObjects = n) .assertion
  updateStateByLogNd { s with timestep := Nd.scalar (-1), simTrajectory := s.logTrajectory.fillInvalid } cfg.initSteps

/-- `get_control_mask`. waymax/datatypes/simulator_state.py:149-170 -/
def getControlMaskNd (m : MetaNd) : ObjectType → Except Err (Nd Bool)
  | .SDC => .ok m.isSdc
  | .MODELED => .ok m.isModeled
  | .VALID => .ok m.isValid
  | .NON_SDC => .error .valueError

/-- `_get_control_mask`. waymax/env/base_environment.py:200-217 -/
def envControlMaskNd (cfg : EnvConfig) (s : StateNd α) : Except Err (Nd Bool) :=
  if cfg.controlledObject = .VALID ∧ cfg.allowNewObjectsAfterWarmup = false then
    s.simTrajectory.valid.dynIndexV ((cfg.initSteps : Int) - 1) (-1)
  else getControlMaskNd s.objectMetadata cfg.controlledObject

/-- `BaseEnvironment.step`. waymax/env/base_environment.py:114-142 -/
def stepNd (d : DynNd α) (cfg : EnvConfig) (s : StateNd α) (a : ActNd α) : Except Err (StateNd α) := do
  let isControlled ← envControlMaskNd cfg s
  let traj ← d.forward a s.simTrajectory s.logTrajectory isControlled s.timestep cfg.allowNewObjectsAfterWarmup
  return { s with simTrajectory := traj, timestep := s.timestep.map fun t => t + 1 }

/-- Repeated `env.step`. waymax/env/base_environment.py:114-142, called as at waymax/env/rollout.py:137-163 -/
def stepManyNd (d : DynNd α) (cfg : EnvConfig) (s : StateNd α) : List (ActNd α) → Except Err (StateNd α)
  | [] => .ok s
  | a :: as => do
    let s' ← stepNd d cfg s a
    stepManyNd d cfg s' as

/-- `AbstractEnvironment.termination`. waymax/env/abstract_environment.py:128-143 -/
def terminationNd (s : StateNd α) : Nd Bool := { shape := s.shape, get := fun _ => false }

/-- `AbstractEnvironment.truncation`: `ones(state.shape) * (remaining_timesteps < 1)`.
waymax/env/abstract_environment.py:145-163 -/
def truncationNd (s : StateNd α) : Except Err (Nd Bool) :=
  Nd.zip (fun (_ : Unit) (b : Bool) => b) { shape := s.shape, get := fun _ => () }
    (s.remainingTimesteps.map fun r => decide (r < 1))

end

end Waymax
