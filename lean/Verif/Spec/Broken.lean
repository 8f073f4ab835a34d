import Verif.Model.Ieee
import Verif.Spec.Influence
/-
Vocabulary for the statements about NaN and infinities.
-/

namespace Waymax

variable {F : IeeeFormat} {n T : Nat}

/-- Where an object is at the current step. -/
def currentPt [NeZero T] (s : SimState (Ieee F) n T) (i : Fin n) : Pt (Ieee F) := dynIndex (s.simTrajectory i) s.timestep

/-- NaN or an infinity in the place of a coordinate or of the heading. -/
def BrokenPose (p : Pt (Ieee F)) : Prop := p.x.isFinite = false ∨ p.y.isFinite = false ∨ p.yaw.isFinite = false

/-- Object `k` is the only one marked as the SDC. -/
def SdcIs (s : SimState (Ieee F) n T) (k : Fin n) : Prop := ∀ i, (s.objectMetadata i).isSdc = true ↔ i = k

end Waymax
