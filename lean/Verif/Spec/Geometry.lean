import Mathlib.Analysis.SpecialFunctions.Trigonometric.Basic
import Mathlib.Analysis.SpecialFunctions.Pow.Real
/-
Plane geometry vocabulary for the statements about frames and boxes. Nothing here is used by the model, and nothing here uses
the model.
-/

namespace Waymax

open Real

/-- Euclidean distance in the plane. -/
noncomputable def dist2 (p q : ℝ × ℝ) : ℝ := √((p.1 - q.1) ^ 2 + (p.2 - q.2) ^ 2)

/-- Euclidean norm in the plane. -/
noncomputable def norm2 (v : ℝ × ℝ) : ℝ := √(v.1 ^ 2 + v.2 ^ 2)

/-- The unit vector with heading `yaw`. -/
noncomputable def heading (yaw : ℝ) : ℝ × ℝ := (cos yaw, sin yaw)

/-- The unit vector to the left of heading `yaw`. -/
noncomputable def leftOf (yaw : ℝ) : ℝ × ℝ := (-sin yaw, cos yaw)

/-- The point at `u` along heading `yaw` and `v` to the left, seen from the centre `(x, y)`. -/
noncomputable def pointAt (x y yaw u v : ℝ) : ℝ × ℝ :=
  (x + u * (heading yaw).1 + v * (leftOf yaw).1, y + u * (heading yaw).2 + v * (leftOf yaw).2)

/-- Interior of the oriented rectangle with centre `(x, y)`, sides `|length|` and `|width|` and heading `yaw`. -/
def rectInterior (x y length width yaw : ℝ) : Set (ℝ × ℝ) :=
  {p | ∃ u v, |u| < |length| / 2 ∧ |v| < |width| / 2 ∧ p = pointAt x y yaw u v}

/-- The closed oriented rectangle. -/
def rectClosed (x y length width yaw : ℝ) : Set (ℝ × ℝ) :=
  {p | ∃ u v, |u| ≤ |length| / 2 ∧ |v| ≤ |width| / 2 ∧ p = pointAt x y yaw u v}

/-- Two angles describe the same heading. -/
def AnglesAgree (a b : ℝ) : Prop := ∃ k : ℤ, a = b + k * (2 * π)

end Waymax
