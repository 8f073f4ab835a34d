import Verif.Model.Ieee
/-
Model of InvertibleBicycleModel and of the kinematic infeasibility metric in machine arithmetic with NaN, infinities and overflow: the
functions of Model/MachineBicycle.lean with the operations of Model/Ieee.lean. Division is the correctly rounded one.
-/

namespace Waymax

open Real

namespace Ieee

variable {F : IeeeFormat}

/-- `jnp.abs`. waymax/dynamics/bicycle_model.py:99, 108, 109, waymax/metrics/comfort.py:106-107 -/
noncomputable def abs : Ieee F → Ieee F
  | nan => nan
  | inf _ => inf false
  | fin x h => fin x.abs (by simpa [Flt.abs] using h)

/-- `<=`: false when an argument is NaN. waymax/dynamics/bicycle_model.py:99 -/
noncomputable def le (a b : Ieee F) : Bool := !a.isNan && !b.isNan && !(lt b a)

/-- `jnp.clip(x, lo, hi)`, computed as `minimum(maximum(x, lo), hi)`. waymax/dynamics/bicycle_model.py:164-173 -/
noncomputable def clip (x lo hi : Ieee F) : Ieee F := (x.max lo).min hi

/-- `%` of JAX arrays: NaN for an infinite dividend. Called with a finite positive divisor only. waymax/utils/geometry.py:338 -/
noncomputable def mod (a : Ieee F) (b : Flt F.fmt) : Ieee F :=
  match a with
  | fin x _ => ofFlt F (x.mod b)
  | _ => nan

/-- `wrap_yaws`. waymax/utils/geometry.py:336-338 -/
noncomputable def wrapYaws (yaw : Ieee F) : Ieee F :=
  ((yaw.add (ofFlt F (Flt.pi F.fmt))).mod (Flt.twoPi F.fmt)).sub (ofFlt F (Flt.pi F.fmt))

/-- `jnp.arctan2(y, x)`; with an infinite argument it is the limit angle. waymax/dynamics/bicycle_model.py:95 -/
noncomputable def atan2 (L : Libm F.fmt) (y x : Ieee F) : Ieee F :=
  match y, x with
  | nan, _ => nan
  | _, nan => nan
  | fin y _, fin x _ => ofFlt F (L.arctan2 y x)
  | fin y _, inf neg => if neg then ofReal F (if y.val < 0 then -π else π) else ofReal F 0
  | inf neg, fin _ _ => ofReal F (if neg then -(π / 2) else π / 2)
  | inf neg, inf back => ofReal F ((if neg then -1 else 1) * (if back then 3 * π / 4 else π / 4))

end Ieee

section
variable {F : IeeeFormat} (L : Libm F.fmt)

/-- Action row `(acceleration, steering)`. waymax/dynamics/bicycle_model.py:143-175 -/
structure AccelSteerIe (F : IeeeFormat) where
  accel : Ieee F
  steering : Ieee F

/-- A Python float next to an array. waymax/dynamics/bicycle_model.py:89, 102, 213-219 -/
noncomputable def pyIe (F : IeeeFormat) (x : Flt float64) : Ieee F := Ieee.ofFlt F (pyFloat F.fmt x)

/-- `_clip_values`. waymax/dynamics/bicycle_model.py:162-174 -/
noncomputable def bicycleClipIe (P : BicycleParamsFl) (a : AccelSteerIe F) : AccelSteerIe F :=
  let b := Ieee.ofFlt F (P.accelBound F.fmt)
  let c := Ieee.ofFlt F (P.steeringBound F.fmt)
  { accel := a.accel.clip b.neg b, steering := a.steering.clip c.neg c }

/-- The acceleration and steering in physical units: clip, then scale. waymax/dynamics/bicycle_model.py:208-212 -/
noncomputable def bicyclePhysicalIe (P : BicycleParamsFl) (a : AccelSteerIe F) : AccelSteerIe F :=
  let c := bicycleClipIe P a
  if P.normalizeActions then { accel := c.accel.mul (pyIe F P.maxAccel), steering := c.steering.mul (pyIe F P.maxSteering) } else c

/-- `sqrt(vel_x**2 + vel_y**2)`. waymax/dynamics/bicycle_model.py:87, 205 -/
noncomputable def speedIe (velX velY : Ieee F) : Ieee F := ((velX.mul velX).add (velY.mul velY)).sqrt L

/-- `speed * t + 0.5 * accel * t**2`. waymax/dynamics/bicycle_model.py:102, 217 -/
noncomputable def travelIe (dt : Flt float64) (speed accel : Ieee F) : Ieee F :=
  (speed.mul (pyIe F dt)).add (((Ieee.ofReal F 0.5).mul accel).mul (pyIe F (dt.mul dt)))

/-- `InvertibleBicycleModel.compute_update`, one object. waymax/dynamics/bicycle_model.py:176-229 -/
noncomputable def bicycleUpdateIe (P : BicycleParamsFl) (act : Act (AccelSteerIe F)) (p : Pt (Ieee F)) : Upd (Ieee F) :=
  let speed := speedIe L p.velX p.velY
  let a := bicyclePhysicalIe P act.data
  let t := pyIe F P.dt
  let half := Ieee.ofReal F 0.5
  let newX := (p.x.add (p.velX.mul t)).add (((half.mul a.accel).mul (p.yaw.trig L.cos)).mul (pyIe F (P.dt.mul P.dt)))
  let newY := (p.y.add (p.velY.mul t)).add (((half.mul a.accel).mul (p.yaw.trig L.sin)).mul (pyIe F (P.dt.mul P.dt)))
  let deltaYaw := a.steering.mul (travelIe P.dt speed a.accel)
  let newYaw := (p.yaw.add deltaYaw).wrapYaws
  let newVel := speed.add (a.accel.mul t)
  { x := newX, y := newY, yaw := newYaw, velX := newVel.mul (newYaw.trig L.cos), velY := newVel.mul (newYaw.trig L.sin),
    valid := p.valid && act.valid }

/-- The numbers computed by `compute_inverse` for one pair of steps, with the default yaw estimate.
waymax/dynamics/bicycle_model.py:85-110 -/
noncomputable def bicycleInversePairIe (dt : Flt float64) (p q : Pt (Ieee F)) : AccelSteerIe F :=
  let limit := Ieee.ofFlt F (speedLimitFl F.fmt)
  let speed := speedIe L p.velX p.velY
  let newSpeed := speedIe L q.velX q.velY
  let accel := (newSpeed.sub speed).div (pyIe F dt)
  let newYaw := q.yaw.wrapYaws
  let yaw := p.yaw.wrapYaws
  let realNewYaw := if newSpeed.abs.le limit then newYaw else Ieee.atan2 L q.velY q.velX
  let deltaYaw := (realNewYaw.sub yaw).wrapYaws
  let steering := deltaYaw.div (travelIe dt speed accel)
  let steering := if speed.abs.lt limit then Ieee.ofReal F 0 else steering
  let steering := if newSpeed.abs.lt limit then Ieee.ofReal F 0 else steering
  { accel := accel, steering := steering }

/-- `compute_inverse`, one object. waymax/dynamics/bicycle_model.py:46-112 -/
noncomputable def bicycleComputeInverseIe {T : Nat} [NeZero T] (traj : Fin T → Pt (Ieee F)) (timestep : Int) (dt : Flt float64) :
    Act (AccelSteerIe F) :=
  let w := window2 traj timestep
  let valid := w.1.valid && w.2.valid
  { data := if valid then bicycleInversePairIe L dt w.1 w.2 else { accel := Ieee.ofReal F 0, steering := Ieee.ofReal F 0 }, valid := valid }

/-- `InvertibleBicycleModel.inverse`, one object. waymax/dynamics/bicycle_model.py:231-264 -/
noncomputable def bicycleInverseIe (P : BicycleParamsFl) {T : Nat} [NeZero T] (traj : Fin T → Pt (Ieee F)) (timestep : Int) :
    Act (AccelSteerIe F) :=
  let a := bicycleComputeInverseIe L traj timestep P.dt
  let arr : AccelSteerIe F :=
    if P.normalizeActions then
      { accel := a.data.accel.div (pyIe F P.maxAccel), steering := a.data.steering.div (pyIe F P.maxSteering) }
    else a.data
  { data := bicycleClipIe P arr, valid := a.valid }

/-- `InvertibleBicycleModel`. waymax/dynamics/bicycle_model.py:115-264 -/
noncomputable def bicycleIe (P : BicycleParamsFl) {n : Nat} : DynamicsModel (Ieee F) (AccelSteerIe F) n :=
  .ofSingle (bicycleUpdateIe L P) (fun traj t => bicycleInverseIe L P traj t)

/-- `KinematicsInfeasibilityMetric.compute`. waymax/metrics/comfort.py:56-112 -/
noncomputable def kinematicsInfeasibilityMetricIe (K : KimParamsFl) {n T : Nat} [NeZero T] (s : SimState (Ieee F) n T) (i : Fin n) :
    MetricResultIe F :=
  let a := bicycleComputeInverseIe L (s.simTrajectory i) (s.timestep - 1) K.dt
  let over (x : Ieee F) (limit : Flt float64) := (Ieee.ofFlt F (kimThreshold F.fmt limit)).lt x.abs
  { value := if over a.data.accel K.maxAcc || over a.data.steering K.maxSteering then Ieee.ofReal F 1 else Ieee.ofReal F 0, valid := a.valid }

end

end Waymax
