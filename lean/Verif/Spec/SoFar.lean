import Verif.Model.Reward
/-
Vocabulary for C182: what has been simulated so far, and what is stored in the simulated trajectory for later steps.
-/

namespace Waymax

variable {α : Type} {n T : Nat}

/-- Two states that agree except perhaps in what the simulated trajectories hold for the steps after the current one. -/
structure SameSoFar (s s' : SimState α n T) : Prop where
  sim : ∀ i (t : Fin T), (t.val : Int) ≤ s.timestep → s'.simTrajectory i t = s.simTrajectory i t
  rest : s' = { s with simTrajectory := s'.simTrajectory }

/-- What one expects of a metric: it judges what has been simulated so far, at every step of an episode. -/
def SoFar {β : Type} (q : SimState α n T → β) : Prop :=
  ∀ s s', SameSoFar s s' → 0 ≤ s.timestep → s.timestep < T → q s' = q s

end Waymax
