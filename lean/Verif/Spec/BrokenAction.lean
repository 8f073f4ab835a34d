import Verif.Spec.Overflow
import Verif.Model.IeeeBicycle
/-
Vocabulary for the statements about broken actions in the bicycle model.
-/

namespace Waymax

variable {F : IeeeFormat}

/-- Time step and limits of ordinary size. -/
structure ModerateLimits (P : BicycleParamsFl) : Prop where
  dt : |P.dt.val| ≤ 1
  accel : 0 ≤ P.maxAccel.val ∧ P.maxAccel.val ≤ 16
  steering : 0 ≤ P.maxSteering.val ∧ P.maxSteering.val ≤ 1

/-- Position, velocity and heading of at most `2 ^ B`. -/
structure MotionWithin {φ : Format} (B : ℕ) (p : Pt (Flt φ)) : Prop where
  x : |p.x.val| ≤ 2 ^ B
  y : |p.y.val| ≤ 2 ^ B
  yaw : |p.yaw.val| ≤ 2 ^ B
  velX : |p.velX.val| ≤ 2 ^ B
  velY : |p.velY.val| ≤ 2 ^ B

/-- Position, heading and velocity are numbers. -/
def Upd.AllFinite (u : Upd (Ieee F)) : Prop :=
  u.x.isFinite = true ∧ u.y.isFinite = true ∧ u.yaw.isFinite = true ∧ u.velX.isFinite = true ∧ u.velY.isFinite = true

/-- The new position, heading and velocity computed without overflow, as machine numbers. -/
noncomputable def Upd.ieee (F : IeeeFormat) (u : Upd (Flt F.fmt)) : Upd (Ieee F) :=
  { x := .ofFlt F u.x, y := .ofFlt F u.y, yaw := .ofFlt F u.yaw, velX := .ofFlt F u.velX, velY := .ofFlt F u.velY, valid := u.valid }

/-- The same for an action. -/
noncomputable def AccelSteerFl.ieee (F : IeeeFormat) (a : AccelSteerFl F.fmt) : AccelSteerIe F :=
  { accel := .ofFlt F a.accel, steering := .ofFlt F a.steering }

/-- No entry of the action is NaN. -/
def AccelSteerIe.Numbers (a : AccelSteerIe F) : Prop := a.accel ≠ .nan ∧ a.steering ≠ .nan

/-- C164 in full: whatever an actor returns, an object in moderate motion has a finite position, heading and velocity after the step. -/
def C164_full (F : IeeeFormat) (L : Libm F.fmt) (P : BicycleParamsFl) : Prop :=
  ∀ (B : ℕ) (act : Act (AccelSteerIe F)) (p : Pt (Flt F.fmt)), 2 * B + 7 < F.top → MotionWithin B p →
    (bicycleUpdateIe L P act (p.ieee F)).AllFinite

end Waymax
