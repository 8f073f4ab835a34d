import Verif.Model.Machine
import Verif.Model.Metrics
/-
Model of InvertibleBicycleModel and of the kinematic infeasibility metric in machine arithmetic: the functions of Model/Continuous.lean
with every operation rounded.
-/

namespace Waymax

open Real

/-- The functions that IEEE 754 or the compiler do not fix: sine, cosine, arctan2, square root, and division, which a compiler may turn
into a multiplication by the inverse. waymax/dynamics/bicycle_model.py:87, 89, 95, 102, 205, 215-221 -/
structure Libm (φ : Format) where
  sin : Flt φ → Flt φ
  cos : Flt φ → Flt φ
  arctan2 : Flt φ → Flt φ → Flt φ
  sqrt : Flt φ → Flt φ
  div : Flt φ → Flt φ → Flt φ

/-- Absolute value is exact. waymax/dynamics/bicycle_model.py:99, 108, 109, waymax/metrics/comfort.py:106-107 -/
noncomputable def Flt.abs {φ : Format} (a : Flt φ) : Flt φ := ⟨|a.val|, by
  rcases abs_choice a.val with h | h <;> rw [h]
  · exact a.property
  · exact a.property.neg⟩

/-- Constructor arguments of `InvertibleBicycleModel`: Python floats. waymax/dynamics/bicycle_model.py:118-141 -/
structure BicycleParamsFl where
  dt : Flt float64
  maxAccel : Flt float64
  maxSteering : Flt float64
  normalizeActions : Bool

/-- The default arguments. waymax/dynamics/bicycle_model.py:118-124 -/
noncomputable def BicycleParamsFl.default (normalizeActions : Bool := false) : BicycleParamsFl :=
  { dt := Flt.round _ 0.1, maxAccel := Flt.round _ 6, maxSteering := Flt.round _ 0.3, normalizeActions := normalizeActions }

/-- Action row `(acceleration, steering)`. waymax/dynamics/bicycle_model.py:143-175 -/
structure AccelSteerFl (φ : Format) where
  accel : Flt φ
  steering : Flt φ

section
variable {φ : Format} (L : Libm φ)

/-- `self._dt` or `dt` next to an array: converted to the type of the array. waymax/dynamics/bicycle_model.py:89, 102, 213-219 -/
noncomputable def pyFloat (φ : Format) (x : Flt float64) : Flt φ := Flt.round φ x.val

/-- `t**2` or `dt**2`: squared in Python, then converted. waymax/dynamics/bicycle_model.py:102, 215-217 -/
noncomputable def pySquare (φ : Format) (x : Flt float64) : Flt φ := pyFloat φ (x.mul x)

/-- Bounds of the acceleration entry of `action_spec`, in the type of the array. waymax/dynamics/bicycle_model.py:143-160 -/
noncomputable def BicycleParamsFl.accelBound (φ : Format) (P : BicycleParamsFl) : Flt φ :=
  if P.normalizeActions then Flt.round φ 1 else pyFloat φ P.maxAccel

/-- Bounds of the steering entry of `action_spec`, in the type of the array. waymax/dynamics/bicycle_model.py:143-160 -/
noncomputable def BicycleParamsFl.steeringBound (φ : Format) (P : BicycleParamsFl) : Flt φ :=
  if P.normalizeActions then Flt.round φ 1 else pyFloat φ P.maxSteering

/-- `_clip_values`. waymax/dynamics/bicycle_model.py:162-174 -/
noncomputable def bicycleClipFl (P : BicycleParamsFl) (a : AccelSteerFl φ) : AccelSteerFl φ :=
  { accel := a.accel.clip (P.accelBound φ).neg (P.accelBound φ), steering := a.steering.clip (P.steeringBound φ).neg (P.steeringBound φ) }

/-- The acceleration and steering in physical units: clip, then scale. waymax/dynamics/bicycle_model.py:208-212 -/
noncomputable def bicyclePhysicalFl (P : BicycleParamsFl) (a : AccelSteerFl φ) : AccelSteerFl φ :=
  let c := bicycleClipFl P a
  if P.normalizeActions then
    { accel := c.accel.mul (pyFloat φ P.maxAccel), steering := c.steering.mul (pyFloat φ P.maxSteering) }
  else c

/-- `sqrt(vel_x**2 + vel_y**2)`. waymax/dynamics/bicycle_model.py:87, 205 -/
noncomputable def speedFl (velX velY : Flt φ) : Flt φ := L.sqrt ((velX.mul velX).add (velY.mul velY))

/-- `speed * t + 0.5 * accel * t**2`. waymax/dynamics/bicycle_model.py:102, 217 -/
noncomputable def travelFl (dt : Flt float64) (speed accel : Flt φ) : Flt φ :=
  (speed.mul (pyFloat φ dt)).add (((Flt.round φ 0.5).mul accel).mul (pySquare φ dt))

/-- `InvertibleBicycleModel.compute_update`, one object. waymax/dynamics/bicycle_model.py:176-229 -/
noncomputable def bicycleUpdateFl (P : BicycleParamsFl) (act : Act (AccelSteerFl φ)) (p : Pt (Flt φ)) : Upd (Flt φ) :=
  let speed := speedFl L p.velX p.velY
  let a := bicyclePhysicalFl P act.data
  let t := pyFloat φ P.dt
  let half := Flt.round φ 0.5
  let newX := (p.x.add (p.velX.mul t)).add (((half.mul a.accel).mul (L.cos p.yaw)).mul (pySquare φ P.dt))
  let newY := (p.y.add (p.velY.mul t)).add (((half.mul a.accel).mul (L.sin p.yaw)).mul (pySquare φ P.dt))
  let deltaYaw := a.steering.mul (travelFl P.dt speed a.accel)
  let newYaw := (p.yaw.add deltaYaw).wrapYaws
  let newVel := speed.add (a.accel.mul t)
  { x := newX, y := newY, yaw := newYaw, velX := newVel.mul (L.cos newYaw), velY := newVel.mul (L.sin newYaw),
    valid := p.valid && act.valid }

/-- The speed below which the steering is not computed. waymax/dynamics/bicycle_model.py:43, 99, 108, 109 -/
noncomputable def speedLimitFl (φ : Format) : Flt φ := pyFloat φ (Flt.round _ 0.6)

open Classical in
/-- The numbers computed by `compute_inverse` for one pair of steps, with the default yaw estimate. Where the steering is overwritten by
zero, the quotient before is inf or nan in the code and some number here. waymax/dynamics/bicycle_model.py:85-110 -/
noncomputable def bicycleInversePairFl (dt : Flt float64) (p q : Pt (Flt φ)) : AccelSteerFl φ :=
  let speed := speedFl L p.velX p.velY
  let newSpeed := speedFl L q.velX q.velY
  let accel := L.div (newSpeed.sub speed) (pyFloat φ dt)
  let newYaw := q.yaw.wrapYaws
  let yaw := p.yaw.wrapYaws
  let realNewYaw := if newSpeed.abs ≤ speedLimitFl φ then newYaw else L.arctan2 q.velY q.velX
  let deltaYaw := (realNewYaw.sub yaw).wrapYaws
  let steering := L.div deltaYaw (travelFl dt speed accel)
  let zero : Flt φ := ⟨0, Format.Rep.zero⟩
  let steering := if speed.abs < speedLimitFl φ then zero else steering
  let steering := if newSpeed.abs < speedLimitFl φ then zero else steering
  { accel := accel, steering := steering }

/-- `compute_inverse`, one object. waymax/dynamics/bicycle_model.py:46-112 -/
noncomputable def bicycleComputeInverseFl {T : Nat} [NeZero T] (traj : Fin T → Pt (Flt φ)) (timestep : Int) (dt : Flt float64) :
    Act (AccelSteerFl φ) :=
  let w := window2 traj timestep
  let valid := w.1.valid && w.2.valid
  let zero : Flt φ := ⟨0, Format.Rep.zero⟩
  { data := if valid then bicycleInversePairFl L dt w.1 w.2 else { accel := zero, steering := zero }, valid := valid }

/-- `InvertibleBicycleModel.inverse`, one object. waymax/dynamics/bicycle_model.py:231-264 -/
noncomputable def bicycleInverseFl (P : BicycleParamsFl) {T : Nat} [NeZero T] (traj : Fin T → Pt (Flt φ)) (timestep : Int) :
    Act (AccelSteerFl φ) :=
  let a := bicycleComputeInverseFl L traj timestep P.dt
  let arr : AccelSteerFl φ :=
    if P.normalizeActions then
      { accel := L.div a.data.accel (pyFloat φ P.maxAccel), steering := L.div a.data.steering (pyFloat φ P.maxSteering) }
    else a.data
  { data := bicycleClipFl P arr, valid := a.valid }

/-- `InvertibleBicycleModel`. waymax/dynamics/bicycle_model.py:115-264 -/
noncomputable def bicycleFl (P : BicycleParamsFl) {n : Nat} : DynamicsModel (Flt φ) (AccelSteerFl φ) n :=
  .ofSingle (bicycleUpdateFl L P) (fun traj t => bicycleInverseFl L P traj t)

/-! ### Kinematic infeasibility -/

/-- Constructor arguments of `KinematicsInfeasibilityMetric`: Python floats. waymax/metrics/comfort.py:38-54 -/
structure KimParamsFl where
  dt : Flt float64
  maxAcc : Flt float64
  maxSteering : Flt float64

/-- The default arguments. waymax/metrics/comfort.py:38-40 -/
noncomputable def KimParamsFl.default : KimParamsFl :=
  { dt := Flt.round _ 0.1, maxAcc := Flt.round _ 10.4, maxSteering := Flt.round _ 0.3 }

/-- A limit plus `_KIM_EPSILON`, added in Python, then converted. waymax/metrics/comfort.py:25, 106-107 -/
noncomputable def kimThreshold (φ : Format) (limit : Flt float64) : Flt φ := pyFloat φ (limit.add (Flt.round _ 1e-3))

open Classical in
/-- `KinematicsInfeasibilityMetric.compute`. waymax/metrics/comfort.py:56-112 -/
noncomputable def kinematicsInfeasibilityMetricFl (K : KimParamsFl) {n T : Nat} [NeZero T] (s : SimState (Flt φ) n T) (i : Fin n) :
    MetricResult :=
  let a := bicycleComputeInverseFl L (s.simTrajectory i) (s.timestep - 1) K.dt
  { value := if a.data.accel.abs > kimThreshold φ K.maxAcc ∨ a.data.steering.abs > kimThreshold φ K.maxSteering then 1 else 0,
    valid := a.valid }

end

end Waymax
