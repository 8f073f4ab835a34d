import Verif.Spec.Geometry
import Mathlib.Data.Rat.Defs
/-
Vocabulary for the statements about pictures. Nothing here is used by the model, and nothing here uses the model.
-/

namespace Waymax

open Real

/-- The closed polygon around the rectangle with centre `(x, y)`: front left, front right, rear right, rear left, front left. -/
noncomputable def rectPolygon (x y length width yaw : ℝ) : List (ℝ × ℝ) :=
  [pointAt x y yaw (length / 2) (width / 2), pointAt x y yaw (length / 2) (-(width / 2)),
   pointAt x y yaw (-(length / 2)) (-(width / 2)), pointAt x y yaw (-(length / 2)) (width / 2),
   pointAt x y yaw (length / 2) (width / 2)]

/-- The triangle from the middle of the left side to the middle of the right side to the middle of the front. -/
noncomputable def headingTriangle (x y length width yaw : ℝ) : List (ℝ × ℝ) :=
  [pointAt x y yaw 0 (width / 2), pointAt x y yaw 0 (-(width / 2)), pointAt x y yaw (length / 2) 0,
   pointAt x y yaw 0 (width / 2)]

/-- The colours of the legend. -/
def blue : ℚ × ℚ × ℚ := (0, 6/10, 8/10)
/-- The colours of the legend. -/
def grey : ℚ × ℚ × ℚ := (6/10, 6/10, 6/10)
/-- The colours of the legend. -/
def lightGrey : ℚ × ℚ × ℚ := (8/10, 8/10, 8/10)
/-- The colours of the legend. -/
def red : ℚ × ℚ × ℚ := (1, 0, 0)

end Waymax
