import Verif.Spec.Geometry
import Verif.Model.Continuous
/-
Vocabulary for the statement that transitions rated as feasible can be driven.
-/

namespace Waymax

open Real

/-- The vehicle of the kinematic infeasibility metric: a bicycle model with the limits of the metric and its tolerance of 0.001. -/
noncomputable def vehicleOf (K : KimParams) : BicycleParams :=
  { dt := K.dt, maxAccel := K.maxAcc + 0.001, maxSteering := K.maxSteering + 0.001, normalizeActions := false }

/-- An action within the limits of the metric. -/
def WithinLimits (K : KimParams) (a : AccelSteer) : Prop := |a.accel| ≤ K.maxAcc + 0.001 ∧ |a.steering| ≤ K.maxSteering + 0.001

/-- Some action within the limits takes the vehicle from `p` to the position, heading and velocity of `q`. -/
def Drivable (K : KimParams) (p q : Pt ℝ) : Prop :=
  ∃ a, WithinLimits K a ∧
    let u := bicycleUpdate (vehicleOf K) { data := a, valid := true } p
    u.x = q.x ∧ u.y = q.y ∧ AnglesAgree u.yaw q.yaw ∧ u.velX = q.velX ∧ u.velY = q.velY

/-- C163 in full: a transition that the metric rates as feasible can be driven. -/
def C163_full (n T : Nat) [NeZero T] (K : KimParams) : Prop :=
  ∀ (s : SimState ℝ n T) (t t' : Fin T) (i : Fin n), (t' : Nat) = t + 1 → (t' : Int) = s.timestep →
    (kinematicsInfeasibilityMetric K s i).valid = true → (kinematicsInfeasibilityMetric K s i).value = 0 →
    Drivable K (s.simTrajectory i t) (s.simTrajectory i t')

end Waymax
