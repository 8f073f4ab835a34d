import Verif.Spec.Padding
import Verif.Spec.Episode
import Verif.Model.Observation
/-
Vocabulary for C152: two recordings that differ only in the numbers stored for absent objects. Nothing here is used by the model.
-/

namespace Waymax

section
variable {α : Type} {n T : Nat}

/-- The same entry of a trajectory, except for the numbers of an absent object: the flag and the time stamp are the same, and
everything is if the object is present. -/
structure SameIfPresent (p p' : Pt α) : Prop where
  valid : p'.valid = p.valid
  time : p'.timestampMicros = p.timestampMicros
  same : p.valid = true → p' = p

/-- Two scenarios or simulator states that differ only in the numbers stored for absent objects. -/
structure SamePresent (s s' : SimState α n T) : Prop where
  sim : ∀ i t, SameIfPresent (s.simTrajectory i t) (s'.simTrajectory i t)
  log : ∀ i t, SameIfPresent (s.logTrajectory i t) (s'.logTrajectory i t)
  objects : s'.objectMetadata = s.objectMetadata
  clock : s'.timestep = s.timestep
  lights : s'.logTrafficLight = s.logTrafficLight
  paths : s'.sdcPaths = s.sdcPaths
  roadgraph : s'.roadgraphPoints = s.roadgraphPoints

/-- From the last warm-up step on no object enters the log; the question only arises if new objects are allowed. -/
def NothingEnters (cfg : EnvConfig) (s : SimState α n T) : Prop :=
  cfg.allowNewObjectsAfterWarmup = true → ∀ i, ∀ t t' : Fin T, cfg.initSteps ≤ t'.val → t'.val = t.val + 1 →
    (s.logTrajectory i t').valid = true → (s.logTrajectory i t).valid = true

/-- The altitude and the size of an entry are the same, whether the object is present or not. -/
def SameBody (p p' : Pt α) : Prop := p'.z = p.z ∧ p'.length = p.length ∧ p'.width = p.width ∧ p'.height = p.height

/-- No object that the configuration hands to the actions enters the log from the last warm-up step on. -/
def NothingControlledEnters (cfg : EnvConfig) (s : SimState α n T) : Prop :=
  ∀ i, IsControlled cfg s i → ∀ t t' : Fin T, cfg.initSteps ≤ t'.val → t'.val = t.val + 1 →
    (s.logTrajectory i t').valid = true → (s.logTrajectory i t).valid = true

/-- Two observations that differ only in the numbers of absent objects. -/
structure SameSeen {K : Nat} (o o' : Obs n K) : Prop where
  objects : ∀ i t, SameIfPresent (o.trajectory i t) (o'.trajectory i t)
  rest : ({ o' with trajectory := o.trajectory } : Obs n K) = o

end

end Waymax
