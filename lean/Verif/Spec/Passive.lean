import Verif.Spec.Padding
import Verif.Spec.Planning
import Verif.Model.Observation
/-
Vocabulary for C186: two recordings that differ only in time stamps, heights of objects and traffic lights. Nothing here is used by the
model.
-/

namespace Waymax

section
variable {α D : Type} {n T K : Nat}

/-- Two trajectory entries that differ at most in the time stamp and in the height of the object. -/
structure SamePassing (p p' : Pt α) : Prop where
  x : p'.x = p.x
  y : p'.y = p.y
  z : p'.z = p.z
  velX : p'.velX = p.velX
  velY : p'.velY = p.velY
  yaw : p'.yaw = p.yaw
  valid : p'.valid = p.valid
  length : p'.length = p.length
  width : p'.width = p.width

/-- Two scenarios or simulator states that differ at most in time stamps, heights of objects and traffic lights. The number of traffic
lights can differ as well. -/
structure SameTraffic (s s' : SimState α n T) : Prop where
  sim : ∀ i t, SamePassing (s.simTrajectory i t) (s'.simTrajectory i t)
  log : ∀ i t, SamePassing (s.logTrajectory i t) (s'.logTrajectory i t)
  objects : s'.objectMetadata = s.objectMetadata
  clock : s'.timestep = s.timestep
  paths : s'.sdcPaths = s.sdcPaths
  roadgraph : s'.roadgraphPoints = s.roadgraphPoints

/-- A quantity that does not depend on them. -/
def Indifferent {β : Type} (q : SimState α n T → β) : Prop := ∀ s s', SameTraffic s s' → q s' = q s

/-- Dynamics that do not depend on them. -/
structure DynamicsModel.Indifferent (d : DynamicsModel α D n) : Prop where
  update : ∀ a (cur cur' : Fin n → Pt α), (∀ i, SamePassing (cur i) (cur' i)) → d.computeUpdate a cur' = d.computeUpdate a cur
  inverse : ∀ {T : Nat} [NeZero T] (traj traj' : Traj α n T) md t, (∀ i t, SamePassing (traj i t) (traj' i t)) →
    d.inverse traj' md t = d.inverse traj md t

/-- States of the planning environment, with equal internal states of the sim agents. -/
def SamePlanTraffic {X : Type} (s s' : PlanState X n T) : Prop := SameTraffic s.sim s'.sim ∧ s'.actorStates = s.actorStates

/-- A sim agent that does not depend on them. -/
structure AgentIndifferent {X J P : Type} (A : SimAgent X J P n T) : Prop where
  init : ∀ s s' key, SamePlanTraffic s s' → A.init key s' = A.init key s
  select : ∀ s s' p x key, SamePlanTraffic s s' → A.selectAction p s' x key = A.selectAction p s x key

/-- Two observations that differ at most in time stamps, heights of objects and traffic lights. -/
structure SameScene (o o' : Obs n K) : Prop where
  objects : ∀ i t, SamePassing (o.trajectory i t) (o'.trajectory i t)
  rest : ({ o' with trajectory := o.trajectory, trafficLights := o.trafficLights } : Obs n K) = o

end

end Waymax
