import Verif.Spec.Observation
/-
Vocabulary for the statements about frames in machine arithmetic: coordinates that are right up to an error. Nothing here is used by
the model.
-/

namespace Waymax

/-- The point `g` of the map has coordinates `l`, up to `err` each, in the frame with origin `c` and heading `yaw`. -/
def NearlySeenPoint (err : ℝ) (c : ℝ × ℝ) (yaw : ℝ) (g l : ℝ × ℝ) : Prop :=
  ∃ e, SeenPoint c yaw g e ∧ |l.1 - e.1| ≤ err ∧ |l.2 - e.2| ≤ err

/-- The direction `g` of the map has components `l`, up to `err` each, along heading `yaw` and to its left. -/
def NearlySeenDir (err : ℝ) (yaw : ℝ) (g l : ℝ × ℝ) : Prop :=
  ∃ e, SeenDir yaw g e ∧ |l.1 - e.1| ≤ err ∧ |l.2 - e.2| ≤ err

/-- Size of a pair of numbers. -/
def size2 (p : ℝ × ℝ) : ℝ := |p.1| + |p.2|

/-- What rounding can do to coordinates in the frame of an observer at `c`: the error of sine and cosine counts with the distance to
the observer, the rounding of sums with the size of the map coordinates. -/
noncomputable def frameMargin (ε : ℝ) (c p : ℝ × ℝ) : ℝ := ε * size2 (p.1 - c.1, p.2 - c.2) + 3 * ε * (1 + size2 p + size2 c)

/-- What rounding can do to velocities and directions. -/
noncomputable def dirMargin (ε : ℝ) (v : ℝ × ℝ) : ℝ := 2 * ε * (1 + size2 v)

end Waymax
