import Verif.Model.Specs
import Verif.Spec.Batch
/- Vocabulary for declared action spaces. -/

namespace Waymax

/-- The array of numbers `f` obeys the declared bounds, entry by entry. -/
def BoundedSpec.Allows (s : BoundedSpec) (f : List Nat → ℝ) : Prop :=
  ∀ idx, InRange s.shape idx →
    s.minimum.get (Nd.broadcastIdx s.minimum.shape idx) ≤ (f idx : EReal) ∧
      (f idx : EReal) ≤ s.maximum.get (Nd.broadcastIdx s.maximum.shape idx)

/-- The dynamics models of the library with continuous actions. -/
inductive BuiltinDyn where
  | state
  | deltaGlobal (P : DeltaParams)
  | deltaLocal (P : DeltaParams)
  | bicycle (P : BicycleParams)

namespace BuiltinDyn

/-- The declared action space. -/
noncomputable def spec : BuiltinDyn → Except Err BoundedSpec
  | state => stateSpec
  | deltaGlobal P => deltaSpec P
  | deltaLocal P => deltaSpec P
  | bicycle P => bicycleSpec P

/-- The model on batches. -/
noncomputable def model : BuiltinDyn → DynNd ℝ
  | state => stateNd ℝ
  | deltaGlobal P => deltaGlobalNd P
  | deltaLocal P => deltaLocalNd P
  | bicycle P => bicycleNd P

/-- Numbers per action. -/
def dim : BuiltinDyn → Nat
  | state => 5
  | deltaGlobal _ => 3
  | deltaLocal _ => 3
  | bicycle _ => 2

/-- The limits the model was built with are not negative. -/
def SaneLimits : BuiltinDyn → Prop
  | state => True
  | deltaGlobal P => 0 ≤ P.maxDx ∧ 0 ≤ P.maxDy ∧ 0 ≤ P.maxDyaw
  | deltaLocal P => 0 ≤ P.maxDx ∧ 0 ≤ P.maxDy ∧ 0 ≤ P.maxDyaw
  | bicycle P => P.normalizeActions = true ∨ 0 ≤ P.maxAccel ∧ 0 ≤ P.maxSteering

/-- What the declared action space should allow. -/
def Within : BuiltinDyn → (Nat → ℝ) → Prop
  | state, _ => True
  | deltaGlobal P, f => |f 0| ≤ P.maxDx ∧ |f 1| ≤ P.maxDy ∧ |f 2| ≤ P.maxDyaw
  | deltaLocal P, f => |f 0| ≤ P.maxDx ∧ |f 1| ≤ P.maxDy ∧ |f 2| ≤ P.maxDyaw
  | bicycle P, f => |f 0| ≤ P.accelBound ∧ |f 1| ≤ P.steeringBound

end BuiltinDyn

end Waymax
