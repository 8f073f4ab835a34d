import Verif.Spec.BrokenSpeed
import Verif.Spec.Overflow
/-
Vocabulary for C181: the speeds of agents that keep their distance, in machine arithmetic. Nothing here is used by the model.
-/

namespace Waymax

/-- Parameters of a usual size, among them the default ones: the positive ones are between 1/64 and 64. -/
structure SaneIdm (P : IdmParams) : Prop where
  spacing : 0 ≤ P.minSpacing
  headway : 0 ≤ P.safeTimeHeadway ∧ P.safeTimeHeadway ≤ 64
  desired : 1 / 64 ≤ P.desiredVel ∧ P.desiredVel ≤ 64
  accel : 1 / 64 ≤ P.maxAccel ∧ P.maxAccel ≤ 64
  decel : 1 / 64 ≤ P.maxDecel ∧ P.maxDecel ≤ 64

/-- A floating point format at least as wide as half precision: it has the number `2 ^ (-12)` and numbers up to `2 ^ 14`. -/
def WideFormat (F : IeeeFormat) : Prop := F.fmt.emin ≤ -12 ∧ 14 ≤ F.top

/-- A square root that is positive for positive numbers and stays below 1 or its argument. -/
def PositiveSqrt {φ : Format} (L : Libm φ) : Prop := SaneSqrt L ∧ ∀ x, 0 < x.val → 0 < (L.sqrt x).val

/-- Neither NaN nor negative. -/
def NotNegative {F : IeeeFormat} (a : Ieee F) : Prop := a = .inf false ∨ ∃ r, HasVal a r ∧ 0 ≤ r

/-- A power function that maps numbers that are not negative to such numbers. -/
def SanePower {F : IeeeFormat} (pw : Ieee F → Ieee F) : Prop := ∀ a, NotNegative a → NotNegative (pw a)

/-- The largest speed that an agent of speed `v` can have a tenth of a second later: `v + 0.1 * max_accel`, as the machine computes it. -/
noncomputable def topSpeed (F : IeeeFormat) (P : IdmParams) (v : ℝ) : ℝ :=
  F.fmt.fl (v + F.fmt.fl (F.fmt.fl (float64.fl 0.1) * F.fmt.fl P.maxAccel))

end Waymax
