import Verif.Spec.Geometry
import Verif.Model.Types
import Verif.Model.Metrics

/-! Objects that take up more room. -/

namespace Waymax

/-- `q` is at the place of `p`, with the same heading, and its box is at least as long and as wide. -/
structure Larger (p q : Pt ℝ) : Prop where
  x : q.x = p.x
  y : q.y = p.y
  z : q.z = p.z
  yaw : q.yaw = p.yaw
  length : |p.length| ≤ |q.length|
  width : |p.width| ≤ |q.width|

/-- The current states of `s'` are those of `s`, with objects at least as large, and no object is missing. -/
structure LargerScene {n T : Nat} (s s' : SimState ℝ n T) (t t' : Fin T) : Prop where
  now : (t : Int) = s.timestep
  now' : (t' : Int) = s'.timestep
  box : ∀ i, Larger (s.simTrajectory i t) (s'.simTrajectory i t')
  present : ∀ i, (s.simTrajectory i t).valid = true → (s'.simTrajectory i t').valid = true
  roads : s'.roadgraphPoints = s.roadgraphPoints

/-- What one expects of the off-road metric: an object that is off the road stays off the road when it is made larger. -/
def OffroadGrows (n T : Nat) [NeZero T] : Prop :=
  ∀ (s s' : SimState ℝ n T) (t t' : Fin T), LargerScene s s' t t' → ∀ r r', offroadMetric s = .ok r → offroadMetric s' = .ok r' →
    ∀ i, (r i).value ≤ (r' i).value

end Waymax
