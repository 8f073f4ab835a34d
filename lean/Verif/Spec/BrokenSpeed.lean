import Verif.Spec.Broken
import Verif.Model.IeeeIdm
/-
Vocabulary for C180: what an agent that keeps its distance does about an object with broken numbers. Nothing here is used by the model.
-/

namespace Waymax

variable {F : IeeeFormat} {n T : Nat} [NeZero T]

/-- NaN in the place of a velocity. -/
def BrokenVelocity (p : Pt (Ieee F)) : Prop := p.velX = .nan ∨ p.velY = .nan

/-- The same states, except that object `j` is gone from the second. -/
structure Removed (j : Fin n) (s s' : SimState (Ieee F) n T) : Prop where
  others : ∀ k, k ≠ j → SameObject k s s'
  gone : (currentPt s' j).valid = false

/-- The same states, except that in the second object `i` is alone. -/
structure AloneIn (i : Fin n) (s s' : SimState (Ieee F) n T) : Prop where
  same : SameObject i s s'
  gone : ∀ k, k ≠ i → (currentPt s' k).valid = false

/-- The full expectation: an object with a broken pose or a broken velocity makes no difference to the speed that another agent chooses:
the agent drives as if the object were not there. -/
def BrokenObjectsIgnored (F : IeeeFormat) (L : Libm F.fmt) (pw : Ieee F → Ieee F) : Prop :=
  ∀ (n T : Nat) (_ : NeZero T) (P : IdmParams) (s s' : SimState (Ieee F) n T) (i j : Fin n), i ≠ j →
    BrokenPose (currentPt s j) ∨ BrokenVelocity (currentPt s j) → Removed j s s' →
    idmUpdateSpeedIe L pw P s i = idmUpdateSpeedIe L pw P s' i

end Waymax
