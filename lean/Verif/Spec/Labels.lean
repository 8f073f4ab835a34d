import Verif.Model.Observation
import Verif.Model.Planning
/-
Vocabulary for C185: the same scenario with other object labels (ids, classes, interest marks, control marks). Nothing here is used by the
model.
-/

namespace Waymax

/-- The objects have the same roles: the same one is the SDC, the same ones are to be modelled, the same ones are valid. Ids, classes, the
marks of interest and the control marks can differ. -/
structure SameRoles {n : Nat} (md md' : Fin n → ObjMeta) : Prop where
  sdc : ∀ i, (md' i).isSdc = (md i).isSdc
  modeled : ∀ i, (md' i).isModeled = (md i).isModeled
  valid : ∀ i, (md' i).isValid = (md i).isValid

section
variable {α D M R : Type} {n T K : Nat}

/-- The same state with other labels. -/
def SimState.relabel (md : Fin n → ObjMeta) (s : SimState α n T) : SimState α n T := { s with objectMetadata := md }

/-- A quantity that only depends on the roles, not on the labels. -/
def LabelBlind {β : Type} (q : SimState α n T → β) : Prop := ∀ s md, SameRoles s.objectMetadata md → q (s.relabel md) = q s

/-- A rollout entry whose state and observation carry other labels. -/
def RolloutEntry.relabel (md : Fin n → ObjMeta) (e : RolloutEntry (SimState α n T) (Fin n → Act D) (SimState α n T) M R) :
    RolloutEntry (SimState α n T) (Fin n → Act D) (SimState α n T) M R :=
  { e with state := e.state.relabel md, observation := e.observation.relabel md }

/-- An observation that carries other labels. -/
def Obs.relabel (md : Fin n → ObjMeta) (o : Obs n K) : Obs n K := { o with metadata := md }

/-- Dynamics whose inverse does not look at the labels. -/
def DynamicsModel.LabelBlind (d : DynamicsModel α D n) : Prop :=
  ∀ {T : Nat} [NeZero T] (traj : Traj α n T) (md md' : Fin n → ObjMeta) (t : Int), SameRoles md md' → d.inverse traj md' t = d.inverse traj md t

/-- A state of the planning environment with other labels. -/
def PlanState.relabel {X : Type} (md : Fin n → ObjMeta) (s : PlanState X n T) : PlanState X n T := { s with sim := s.sim.relabel md }

/-- A sim agent that does not look at the labels. -/
structure AgentLabelBlind {X J P : Type} (A : SimAgent X J P n T) : Prop where
  init : ∀ s md key, SameRoles s.sim.objectMetadata md → A.init key (s.relabel md) = A.init key s
  select : ∀ s md p x key, SameRoles s.sim.objectMetadata md → A.selectAction p (s.relabel md) x key = A.selectAction p s x key

/-- Expectation, from the documentation of the object metadata: an object is controlled by the environment's actions exactly if it is marked as
controlled. -/
def MarkedAreControlled [NeZero T] (cfg : EnvConfig) (s : SimState α n T) : Prop :=
  ∀ mask, envControlMask cfg s = .ok mask → ∀ i, mask i = (s.objectMetadata i).isControlled

end

end Waymax
