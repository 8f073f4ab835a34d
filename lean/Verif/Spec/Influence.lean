import Verif.Spec.Padding
/-
Vocabulary for C151: what the states of one object can depend on. Nothing here is used by the model.
-/

namespace Waymax

variable {α D : Type} {n T : Nat}

/-- Two simulator states that agree on object `i`: the same simulated and logged states of `i`, the same metadata of `i`, the same
clock. Everything else, in particular all other objects, the map and the lights, can differ. -/
structure SameObject (i : Fin n) (s s' : SimState α n T) : Prop where
  sim : s'.simTrajectory i = s.simTrajectory i
  log : s'.logTrajectory i = s.logTrajectory i
  object : s'.objectMetadata i = s.objectMetadata i
  clock : s'.timestep = s.timestep

/-- A dynamics model that moves every object by its own action from its own state. -/
def ObjectByObject (d : DynamicsModel α D n) : Prop :=
  ∀ (a a' : Fin n → Act D) (c c' : Fin n → Pt α) (i : Fin n), a' i = a i → c' i = c i → d.computeUpdate a' c' i = d.computeUpdate a c i

end Waymax
