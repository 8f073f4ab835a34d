import Verif.Model.Continuous
import Verif.Spec.Geometry
/-
Specification for C189: what it means that a simulated object stays close to its log.

`NearLog ex ey eyaw p q`: the two points differ by at most `ex` in x, `ey` in y, and `eyaw` in heading up to full turns.
`NearLogDist e eyaw p q`: their distance is at most `e`, and their headings differ by at most `eyaw` up to full turns.
-/
namespace Waymax

open Real

def HeadingWithin (e a b : ℝ) : Prop := ∃ k : ℤ, |a - b - k * (2 * π)| ≤ e

def NearLog (ex ey eyaw : ℝ) (p q : Pt ℝ) : Prop :=
  |p.x - q.x| ≤ ex ∧ |p.y - q.y| ≤ ey ∧ HeadingWithin eyaw p.yaw q.yaw

def NearLogDist (e eyaw : ℝ) (p q : Pt ℝ) : Prop :=
  dist2 (p.x, p.y) (q.x, q.y) ≤ e ∧ HeadingWithin eyaw p.yaw q.yaw

end Waymax
