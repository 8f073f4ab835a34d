import Verif.Spec.Metrics
import Verif.Spec.MachineMetrics
/-
Vocabulary for the statements about the off-road metric in machine arithmetic: the exact scene behind machine numbers, and corners whose side
of the road edge does not depend on small errors.
-/

namespace Waymax

variable {φ : Format}

/-- A road point of machine numbers, seen as a road point of real numbers. -/
def RgPoint.exact (p : RgPoint (Flt φ)) : RgPoint ℝ :=
  { x := p.x.val, y := p.y.val, z := p.z.val, dirX := p.dirX.val, dirY := p.dirY.val, dirZ := p.dirZ.val, type := p.type, id := p.id, valid := p.valid }

/-- `q` is a corner of the exact box of an object of machine numbers. -/
def IsCornerFl (p : Pt (Flt φ)) (q : ℝ × ℝ) : Prop :=
  ∃ a b : ℝ, (a = 1 ∨ a = -1) ∧ (b = 1 ∨ b = -1) ∧
    q = pointAt p.x.val p.y.val p.yaw.val (a * p.length.val / 2) (b * p.width.val / 2)

/-- `q` lies more than `m` to the right of the directed line through `p` with direction `(dx, dy)` (for a direction of length 1). -/
def RightBy (m : ℝ) (p : RgPoint ℝ) (dx dy : ℝ) (q : ℝ × ℝ) : Prop := m < dy * (q.1 - p.x) - dx * (q.2 - p.y)

/-- `q` lies more than `m` to the left of the directed line through `p` with direction `(dx, dy)` (for a direction of length 1). -/
def LeftBy (m : ℝ) (p : RgPoint ℝ) (dx dy : ℝ) (q : ℝ × ℝ) : Prop := m < dx * (q.2 - p.y) - dy * (q.1 - p.x)

/-- Road point `k` is an edge point that is the nearest one to `q` at height `z`, up to an error `tol d` of every distance `d`. -/
def MightBeNearest (tol : ℝ → ℝ) (rg : List (RgPoint ℝ)) (q : ℝ × ℝ) (z : ℝ) (k : Nat) (p : RgPoint ℝ) : Prop :=
  rg[k]? = some p ∧ IsEdge p ∧ ∀ p' ∈ rg, IsEdge p' →
    stretchedDist p q z - tol (stretchedDist p q z) ≤ stretchedDist p' q z + tol (stretchedDist p' q z)

/-- `q` is clearly on the off-road side: for every edge point that might be the nearest one, it is farther to the right than the error, also of
the direction of the preceding point if that belongs to the same curve. -/
def SurelyOff (tol : ℝ → ℝ) (rg : List (RgPoint ℝ)) (q : ℝ × ℝ) (z : ℝ) : Prop :=
  ∀ (k : Nat) (p : RgPoint ℝ), MightBeNearest tol rg q z k p → RightBy (tol (stretchedDist p q z)) p p.dirX p.dirY q ∧
    ∀ (j : Nat) (p' : RgPoint ℝ), j + 1 = k → rg[j]? = some p' → p'.id = p.id →
      RightBy (tol (stretchedDist p q z)) p p'.dirX p'.dirY q

/-- `q` is clearly on the road: for every edge point that might be the nearest one, it is farther to the left than the error, of the direction of
that point or of the preceding one if that belongs to the same curve. -/
def SurelyOn (tol : ℝ → ℝ) (rg : List (RgPoint ℝ)) (q : ℝ × ℝ) (z : ℝ) : Prop :=
  ∀ (k : Nat) (p : RgPoint ℝ), MightBeNearest tol rg q z k p → LeftBy (tol (stretchedDist p q z)) p p.dirX p.dirY q ∨
    ∃ (j : Nat) (p' : RgPoint ℝ), j + 1 = k ∧ rg[j]? = some p' ∧ p'.id = p.id ∧
      LeftBy (tol (stretchedDist p q z)) p p'.dirX p'.dirY q

/-- The error of a distance `d` from a corner of an object's box to a road edge, and of the side it is on: a few relative errors of the
distance, and a few of the coordinates of the box. -/
noncomputable def offroadTolerance (ε : ℝ) (o : Pt (Flt φ)) (d : ℝ) : ℝ :=
  6 * ε * d + 30 * ε * (1 + (|o.x.val| + |o.y.val| + |o.length.val| + |o.width.val|))

end Waymax
