import Verif.Spec.Episode

/-! What it means to save an episode as a log and to resume it. -/

namespace Waymax
variable {α : Type} {n T : Nat}

/-- The episode so far as a scenario: up to the current step the log is what was simulated, after it the log is unchanged. -/
def SimState.recorded (s : SimState α n T) : SimState α n T :=
  { s with logTrajectory := fun i t => if (t : Int) ≤ s.timestep then s.simTrajectory i t else s.logTrajectory i t }

/-- The configuration with which the recorded episode is resumed: all steps so far are warm-up steps. -/
def EnvConfig.resumeAt (cfg : EnvConfig) (now : Int) : EnvConfig := { cfg with initSteps := (now + 1).toNat }

/-- Two states differ at most in the log up to step `now`. -/
structure SameUpToLog (now : Int) (s r : SimState α n T) : Prop where
  time : r.timestep = s.timestep
  sim : r.simTrajectory = s.simTrajectory
  log : ∀ i (t : Fin T), now < t → r.logTrajectory i t = s.logTrajectory i t
  lights : r.logTrafficLight = s.logTrafficLight
  objects : r.objectMetadata = s.objectMetadata
  paths : r.sdcPaths = s.sdcPaths
  roads : r.roadgraphPoints = s.roadgraphPoints

end Waymax
