import Verif.Model.Dynamics
import Verif.Model.Metrics
/-
Model of waymax/dynamics/delta.py and bicycle_model.py and of waymax/metrics/comfort.py over real numbers.
-/

namespace Waymax

open Real

/-- `jnp.clip(x, lo, hi)`. Called at waymax/dynamics/delta.py:107-116, waymax/dynamics/bicycle_model.py:164-173 -/
def clip (x lo hi : ℝ) : ℝ := min (max x lo) hi

/-- `jax.lax.dynamic_slice_in_dim(x, start, slice_size=2)`. With a single step JAX raises a TypeError; the model then returns
that step twice, and the theorems speak about existing pairs of steps only.
Called at waymax/dynamics/delta.py:141-148, waymax/dynamics/bicycle_model.py:77-84 -/
def window2 {β : Type} {T : Nat} [NeZero T] (x : Fin T → β) (start : Int) : β × β :=
  if h : 2 ≤ T then (dynSlice x start 2 h 0, dynSlice x start 2 h 1) else (dynIndex x start, dynIndex x start)

/-- Per-object dynamics as a `DynamicsModel`: every built-in model treats objects separately.
waymax/dynamics/abstract_dynamics.py:36-110 -/
def DynamicsModel.ofSingle {α D : Type} {n : Nat} (update : Act D → Pt α → Upd α)
    (inverse : {T : Nat} → [NeZero T] → (Fin T → Pt α) → Int → Act D) : DynamicsModel α D n where
  computeUpdate := fun a cur i => update (a i) (cur i)
  inverse := fun traj _ t i => inverse (traj i) t

/-! ### Delta dynamics -/

/-- Constructor arguments of `DeltaGlobal`. waymax/dynamics/delta.py:37-57 -/
structure DeltaParams where
  dt : ℝ := 0.1
  maxDx : ℝ := 6
  maxDy : ℝ := 6
  maxDyaw : ℝ := π

/-- Action row `(dx, dy, dyaw)`. waymax/dynamics/delta.py:59-67 -/
structure Delta3 where
  dx : ℝ
  dy : ℝ
  dyaw : ℝ

/-- Membership in `DeltaGlobal.action_spec`. waymax/dynamics/delta.py:59-67 -/
def DeltaParams.inSpec (P : DeltaParams) (a : Delta3) : Prop :=
  (-P.maxDx ≤ a.dx ∧ a.dx ≤ P.maxDx) ∧ (-P.maxDy ≤ a.dy ∧ a.dy ≤ P.maxDy) ∧ (-P.maxDyaw ≤ a.dyaw ∧ a.dyaw ≤ P.maxDyaw)

/-- `DeltaGlobal.compute_update`, one object. waymax/dynamics/delta.py:69-95 -/
noncomputable def deltaGlobalUpdate (P : DeltaParams) (a : Act Delta3) (p : Pt ℝ) : Upd ℝ :=
  { x := p.x + a.data.dx, y := p.y + a.data.dy, yaw := p.yaw + a.data.dyaw,
    velX := a.data.dx / P.dt, velY := a.data.dy / P.dt, valid := p.valid && a.valid }

/-- `DeltaGlobal._clip_values`: x and y are clipped, the heading is only wrapped. waymax/dynamics/delta.py:97-118 -/
noncomputable def deltaClip (P : DeltaParams) (a : Delta3) : Delta3 :=
  { dx := clip a.dx (-P.maxDx) P.maxDx, dy := clip a.dy (-P.maxDy) P.maxDy, dyaw := wrapYaws a.dyaw }

/-- `DeltaGlobal.inverse`, one object. waymax/dynamics/delta.py:120-155 -/
noncomputable def deltaGlobalInverse (P : DeltaParams) {T : Nat} [NeZero T] (traj : Fin T → Pt ℝ) (timestep : Int) : Act Delta3 :=
  let w := window2 traj timestep
  let raw : Delta3 := { dx := w.2.x - w.1.x, dy := w.2.y - w.1.y, dyaw := w.2.yaw - w.1.yaw }
  let valid := w.1.valid && w.2.valid
  let arr : Delta3 := if valid then raw else { dx := 0, dy := 0, dyaw := 0 }
  { data := deltaClip P arr, valid := valid }

/-- `DeltaGlobal`. waymax/dynamics/delta.py:30-155 -/
noncomputable def deltaGlobal (P : DeltaParams) {n : Nat} : DynamicsModel ℝ Delta3 n :=
  .ofSingle (deltaGlobalUpdate P) (fun traj t => deltaGlobalInverse P traj t)

/-- `DeltaLocal.compute_update`, one object. waymax/dynamics/delta.py:164-195 -/
noncomputable def deltaLocalUpdate (P : DeltaParams) (a : Act Delta3) (p : Pt ℝ) : Upd ℝ :=
  let r := rotatePoints (rotationMatrix2d p.yaw) (a.data.dx, a.data.dy)
  deltaGlobalUpdate P { data := { dx := r.1, dy := r.2, dyaw := a.data.dyaw }, valid := p.valid && a.valid } p

/-- `DeltaLocal.inverse`, one object: the clipped global action is rotated and clipped again.
waymax/dynamics/delta.py:197-241 -/
noncomputable def deltaLocalInverse (P : DeltaParams) {T : Nat} [NeZero T] (traj : Fin T → Pt ℝ) (timestep : Int) : Act Delta3 :=
  let g := deltaGlobalInverse P traj timestep
  let cur := dynIndex traj timestep
  let l := rotatePoints (rotationMatrix2d (-cur.yaw)) (g.data.dx, g.data.dy)
  { data := deltaClip P { dx := l.1, dy := l.2, dyaw := g.data.dyaw }, valid := cur.valid && g.valid }

/-- `DeltaLocal`. waymax/dynamics/delta.py:158-241 -/
noncomputable def deltaLocal (P : DeltaParams) {n : Nat} : DynamicsModel ℝ Delta3 n :=
  .ofSingle (deltaLocalUpdate P) (fun traj t => deltaLocalInverse P traj t)

/-! ### Bicycle model -/

/-- Action row `(acceleration, steering)`. waymax/dynamics/bicycle_model.py:143-175 -/
structure AccelSteer where
  accel : ℝ
  steering : ℝ

/-- Constructor arguments of `InvertibleBicycleModel`. waymax/dynamics/bicycle_model.py:118-141 -/
structure BicycleParams where
  dt : ℝ := 0.1
  maxAccel : ℝ := 6
  maxSteering : ℝ := 0.3
  normalizeActions : Bool := false

/-- Bounds of the acceleration entry of `action_spec`. waymax/dynamics/bicycle_model.py:143-160 -/
noncomputable def BicycleParams.accelBound (P : BicycleParams) : ℝ := if P.normalizeActions then 1 else P.maxAccel

/-- Bounds of the steering entry of `action_spec`. waymax/dynamics/bicycle_model.py:143-160 -/
noncomputable def BicycleParams.steeringBound (P : BicycleParams) : ℝ := if P.normalizeActions then 1 else P.maxSteering

/-- Membership in `action_spec`. waymax/dynamics/bicycle_model.py:143-160 -/
def BicycleParams.inSpec (P : BicycleParams) (a : AccelSteer) : Prop :=
  (-P.accelBound ≤ a.accel ∧ a.accel ≤ P.accelBound) ∧ (-P.steeringBound ≤ a.steering ∧ a.steering ≤ P.steeringBound)

/-- `_clip_values`. waymax/dynamics/bicycle_model.py:162-174 -/
noncomputable def bicycleClip (P : BicycleParams) (a : AccelSteer) : AccelSteer :=
  { accel := clip a.accel (-P.accelBound) P.accelBound, steering := clip a.steering (-P.steeringBound) P.steeringBound }

/-- The acceleration and steering in physical units: clip, then scale. waymax/dynamics/bicycle_model.py:208-212 -/
noncomputable def bicyclePhysical (P : BicycleParams) (a : AccelSteer) : AccelSteer :=
  let c := bicycleClip P a
  if P.normalizeActions then { accel := c.accel * P.maxAccel, steering := c.steering * P.maxSteering } else c

/-- `InvertibleBicycleModel.compute_update`, one object. waymax/dynamics/bicycle_model.py:176-229 -/
noncomputable def bicycleUpdate (P : BicycleParams) (act : Act AccelSteer) (p : Pt ℝ) : Upd ℝ :=
  let speed := √(p.velX ^ 2 + p.velY ^ 2)
  let a := bicyclePhysical P act.data
  let t := P.dt
  let newX := p.x + p.velX * t + 0.5 * a.accel * cos p.yaw * t ^ 2
  let newY := p.y + p.velY * t + 0.5 * a.accel * sin p.yaw * t ^ 2
  let deltaYaw := a.steering * (speed * t + 0.5 * a.accel * t ^ 2)
  let newYaw := wrapYaws (p.yaw + deltaYaw)
  let newVel := speed + a.accel * t
  { x := newX, y := newY, yaw := newYaw, velX := newVel * cos newYaw, velY := newVel * sin newYaw,
    valid := p.valid && act.valid }

/-- The numbers computed by `compute_inverse` for one pair of steps. Real division by 0 gives 0 here and inf/nan in the code;
this only happens when both speeds are 0, where the steering is overwritten by 0.
waymax/dynamics/bicycle_model.py:85-110 -/
noncomputable def bicycleInversePair (dt : ℝ) (estimateYawWithVelocity : Bool) (p q : Pt ℝ) : AccelSteer :=
  let speed := √(p.velX ^ 2 + p.velY ^ 2)
  let newSpeed := √(q.velX ^ 2 + q.velY ^ 2)
  let accel := (newSpeed - speed) / dt
  let newYaw := wrapYaws q.yaw
  let yaw := wrapYaws p.yaw
  let realNewYaw := if estimateYawWithVelocity then arctan2 q.velY q.velX else newYaw
  let realNewYaw := if |newSpeed| ≤ 0.6 then newYaw else realNewYaw
  let deltaYaw := wrapYaws (realNewYaw - yaw)
  let steering := deltaYaw / (speed * dt + 0.5 * accel * dt ^ 2)
  let steering := if |speed| < 0.6 then 0 else steering
  let steering := if |newSpeed| < 0.6 then 0 else steering
  { accel := accel, steering := steering }

/-- `compute_inverse`, one object. waymax/dynamics/bicycle_model.py:46-112 -/
noncomputable def bicycleComputeInverse {T : Nat} [NeZero T] (traj : Fin T → Pt ℝ) (timestep : Int) (dt : ℝ := 0.1)
    (estimateYawWithVelocity : Bool := true) : Act AccelSteer :=
  let w := window2 traj timestep
  let valid := w.1.valid && w.2.valid
  { data := if valid then bicycleInversePair dt estimateYawWithVelocity w.1 w.2 else { accel := 0, steering := 0 },
    valid := valid }

/-- `InvertibleBicycleModel.inverse`, one object. waymax/dynamics/bicycle_model.py:231-264 -/
noncomputable def bicycleInverse (P : BicycleParams) {T : Nat} [NeZero T] (traj : Fin T → Pt ℝ) (timestep : Int) : Act AccelSteer :=
  let a := bicycleComputeInverse traj timestep P.dt
  let arr : AccelSteer :=
    if P.normalizeActions then { accel := a.data.accel / P.maxAccel, steering := a.data.steering / P.maxSteering } else a.data
  { data := bicycleClip P arr, valid := a.valid }

/-- `InvertibleBicycleModel`. waymax/dynamics/bicycle_model.py:115-264 -/
noncomputable def bicycle (P : BicycleParams) {n : Nat} : DynamicsModel ℝ AccelSteer n :=
  .ofSingle (bicycleUpdate P) (fun traj t => bicycleInverse P traj t)

/-! ### Kinematic infeasibility -/

/-- Constructor arguments of `KinematicsInfeasibilityMetric`. waymax/metrics/comfort.py:36-53 -/
structure KimParams where
  dt : ℝ := 0.1
  maxAcc : ℝ := 10.4
  maxSteering : ℝ := 0.3

/-- `KinematicsInfeasibilityMetric.compute`; `_KIM_EPSILON = 1e-3`. waymax/metrics/comfort.py:55-112 -/
noncomputable def kinematicsInfeasibilityMetric (K : KimParams) {n T : Nat} [NeZero T] (s : SimState ℝ n T) (i : Fin n) :
    MetricResult :=
  let a := bicycleComputeInverse (s.simTrajectory i) (s.timestep - 1) K.dt
  { value := if |a.data.accel| > K.maxAcc + 1e-3 ∨ |a.data.steering| > K.maxSteering + 1e-3 then 1 else 0, valid := a.valid }

end Waymax
