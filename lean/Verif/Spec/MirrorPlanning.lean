import Verif.Spec.Mirror
import Verif.Spec.MotionPlanning
/-
Vocabulary for C174: the planning environment and its sim agents in the mirror.
-/

namespace Waymax

section
variable {D X K P : Type} {n T : Nat} [NeZero T]

/-- A state of the planning environment in the mirror; the sim agents' internal states are the same. -/
def PlanFlipped (s s' : PlanState X n T) : Prop := Flipped s.sim s'.sim ∧ s'.actorStates = s.actorStates

/-- A sim agent that treats left and right alike: it claims the same objects, sends those that are present to the mirrored
poses, and remembers the same. -/
structure AgentMirrorFree (A : SimAgent X K P n T) : Prop where
  init : ∀ s s' k, PlanFlipped s s' → A.init k s' = A.init k s
  state : ∀ s s' p x k, PlanFlipped s s' → PresentLogged s.sim →
    (A.selectAction p s' x k).actorState = (A.selectAction p s x k).actorState
  claims : ∀ s s' p x k, PlanFlipped s s' → PresentLogged s.sim →
    (A.selectAction p s' x k).isControlled = (A.selectAction p s x k).isControlled
  action : ∀ s s' p x k, PlanFlipped s s' → PresentLogged s.sim → ∀ i, (dynIndex (s.sim.simTrajectory i) s.sim.timestep).valid = true →
    StateFlipped ((A.selectAction p s x k).action i).data ((A.selectAction p s' x k).action i).data ∧
      ((A.selectAction p s' x k).action i).valid = ((A.selectAction p s x k).action i).valid

end

end Waymax
