import Verif.Spec.Padding
import Verif.Spec.Planning
/-
Vocabulary for C148: two recordings of the same scene that are equal up to some step and differ afterwards. Nothing here is used by
the model.
-/

namespace Waymax

section
variable {α D : Type} {n T : Nat}

/-- The two recordings are equal up to and including step `k`: same objects, routes and road map, same logged states and traffic
lights up to step `k`. Whatever is logged later can differ. -/
structure SameUntil (k : Nat) (s s' : SimState α n T) : Prop where
  log : ∀ i (t : Fin T), t.val ≤ k → s'.logTrajectory i t = s.logTrajectory i t
  lights : List.Forall₂ (fun l l' : Fin T → TlState α => ∀ t : Fin T, t.val ≤ k → l' t = l t) s.logTrafficLight s'.logTrafficLight
  objects : s'.objectMetadata = s.objectMetadata
  paths : s'.sdcPaths = s.sdcPaths
  roadgraph : s'.roadgraphPoints = s.roadgraphPoints

/-- States of simulations of two such recordings: the simulated trajectories are equal, at all steps, and so are the clocks. The
clock is not beyond step `k`. -/
structure SameRun (k : Nat) (s s' : SimState α n T) : Prop extends SameUntil k s s' where
  sim : s'.simTrajectory = s.simTrajectory
  clock : s'.timestep = s.timestep
  started : 0 ≤ s.timestep
  early : s.timestep ≤ k

/-- A quantity that can be computed without knowing what is logged after the current step. -/
def Present {β : Type} (q : SimState α n T → β) : Prop := ∀ k s s', SameRun k s s' → q s' = q s

/-- An actor that knows the log up to the step after the current one, as the expert does. -/
structure OneStepAhead {X K P : Type} (A : Actor (SimState α n T) (Fin n → Act D) X K P (Fin n → Bool)) : Prop where
  init : ∀ k s s' key, SameRun k s s' → A.init key s' = A.init key s
  select : ∀ k s s' p x key, SameRun k s s' → s.timestep + 1 ≤ k → A.selectAction p s' x key = A.selectAction p s x key

/-- Two rollout entries that differ at most in the part of the log after step `k` their states carry along. -/
structure SameOutcome {M R : Type} (k : Nat)
    (e e' : RolloutEntry (SimState α n T) (Fin n → Act D) (SimState α n T) M R) : Prop where
  action : e'.action = e.action
  state : SameRun k e.state e'.state
  observation : SameRun k e.observation e'.observation
  metrics : e'.metrics = e.metrics
  reward : e'.reward = e.reward

end

section
variable {X K P : Type} {n T : Nat}

/-- States of the planning environment for two such recordings, with equal internal states of the sim agents. -/
def SamePlanRun (k : Nat) (s s' : PlanState X n T) : Prop := SameRun k s.sim s'.sim ∧ s'.actorStates = s.actorStates

/-- A sim agent that knows the log up to the step after the current one. -/
structure AgentOneStepAhead (A : SimAgent X K P n T) : Prop where
  init : ∀ k s s' key, SamePlanRun k s s' → A.init key s' = A.init key s
  select : ∀ k s s' p x key, SamePlanRun k s s' → s.sim.timestep + 1 ≤ k → A.selectAction p s' x key = A.selectAction p s x key

end

end Waymax
