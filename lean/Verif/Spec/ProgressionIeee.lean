import Verif.Model.IeeeProgression
import Verif.Spec.Broken
import Verif.Spec.Influence
import Verif.Spec.Overflow
/-
Vocabulary for C168: logs and paths with broken entries, and paths of moderate length.
-/

namespace Waymax

variable {F : IeeeFormat} {n T : Nat}

/-- At step `t` of the log some object is at NaN, or an object other than `k` is at infinity. -/
def LogBrokenAt (s : SimState (Ieee F) n T) (k : Fin n) (t : Fin T) : Prop :=
  ∃ j, ((s.logTrajectory j t).x = .nan ∨ (s.logTrajectory j t).y = .nan) ∨
    j ≠ k ∧ ((s.logTrajectory j t).x.isFinite = false ∨ (s.logTrajectory j t).y.isFinite = false)

/-- At step `t` of the log all objects have finite coordinates. -/
def LogFiniteAt (s : SimState (Ieee F) n T) (t : Fin T) : Prop :=
  ∀ j, (s.logTrajectory j t).x.isFinite = true ∧ (s.logTrajectory j t).y.isFinite = true

/-- Two points that differ at most in the position of a point marked invalid, and in height and id. -/
structure SamePoint (p q : PathPoint (Ieee F)) : Prop where
  valid : p.valid = q.valid
  arc : p.arcLength = q.arcLength
  xy : p.valid = true → p.x = q.x ∧ p.y = q.y

/-- Two paths whose points are the same in this sense. -/
def SamePath (p q : SdcPath (Ieee F)) : Prop := p.onRoute = q.onRoute ∧ List.Forall₂ SamePoint p.points q.points

/-- Arc lengths are at most `2 ^ B`, and two arc lengths on a path are equal or differ by at least `2 ^ (-D)`. -/
structure ArcsWithin {φ : Format} (B D : ℕ) (paths : List (SdcPath (Flt φ))) : Prop where
  arc : ∀ path ∈ paths, ∀ p ∈ path.points, |p.arcLength.val| ≤ 2 ^ B
  gap : ∀ path ∈ paths, ∀ p ∈ path.points, ∀ q ∈ path.points,
    p.arcLength.val = q.arcLength.val ∨ (2 : ℝ) ^ (-(D : ℤ)) ≤ |p.arcLength.val - q.arcLength.val|

end Waymax
