import Verif.Spec.Episode
import Verif.Model.Metrics

/-! Cutting a scenario in time. -/

namespace Waymax
variable {α : Type} {n T : Nat}

/-- The scenario from step `m` on, for `T'` steps: step `m` is its step 0. Metadata, routes and map stay. -/
def SimState.window (s : SimState α n T) (m : Nat) {T' : Nat} (h : m + T' ≤ T) : SimState α n T' :=
  { simTrajectory := fun i t => s.simTrajectory i ⟨m + t, by omega⟩
    logTrajectory := fun i t => s.logTrajectory i ⟨m + t, by omega⟩
    logTrafficLight := s.logTrafficLight.map fun light t => light ⟨m + t, by omega⟩
    objectMetadata := s.objectMetadata
    timestep := s.timestep - m
    sdcPaths := s.sdcPaths
    roadgraphPoints := s.roadgraphPoints }

/-- The configuration for the cut scenario: the warm-up ends at the same moment. -/
def EnvConfig.startingAt (cfg : EnvConfig) (m : Nat) : EnvConfig := { cfg with initSteps := cfg.initSteps - m }

/-- What one expects of every metric of the current step: it is the same for the cut scenario. Here for the progress along the route. -/
def ProgressOfWindow (n T T' : Nat) [NeZero T] [NeZero T'] : Prop :=
  ∀ (s : SimState ℝ n T) (m : Nat) (h : m + T' ≤ T), (m : Int) ≤ s.timestep → s.timestep < m + T' →
    progressionMetric (s.window m h) = progressionMetric s

end Waymax
