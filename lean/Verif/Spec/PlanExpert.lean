import Verif.Spec.Planning
import Verif.Model.BatchPlanning
/-
Specification for C161: expert rollouts in the planning environment.
-/

namespace Waymax

section
variable {D X K P : Type} {n T : Nat}

/-- The sim agent never claims an object marked as SDC, as sim agents made with the default control function do. -/
def LeavesSdc (A : SimAgent X K P n T) : Prop :=
  ∀ p s x key i, (s.sim.objectMetadata i).isSdc = true → (A.selectAction p s x key).isControlled i = false

/-- Object `i` of the scenario is not the SDC, and no sim agent may move it: none claims it, or it overlaps another object in the first
logged frame. -/
def NobodyMoves [NeZero T] (E : PlanEnv D X K P n T) (scen : SimState ℝ n T) (i : Fin n) : Prop :=
  (scen.objectMetadata i).isSdc = false ∧
  (StartsOverlapping scen.logTrajectory i ∨
    ∀ A ∈ E.actors, ∀ p (s : PlanState X n T) x key, s.sim.objectMetadata = scen.objectMetadata →
      (A.selectAction p s x key).isControlled i = false)

/-- Same place, heading and velocity. -/
def SameMotion (p q : Pt ℝ) : Prop := p.x = q.x ∧ p.y = q.y ∧ p.yaw = q.yaw ∧ p.velX = q.velX ∧ p.velY = q.velY

end

/-- The expert built with the dynamics model the environment was built with, instead of the environment's own `env.dynamics`: its actions
have one row for each object. waymax/agents/expert.py:62-107, waymax/env/rollout.py:208-222 -/
def plainExpertNd {X J Q : Type} (inverse : InverseNd ℝ) : RaisingActor (PlanStateNd X) (ActNd ℝ) Unit J Q (Nd Bool) where
  init := fun _ _ => ()
  selectAction := fun _ s _ _ => do
    let action ← inferExpertActionNd inverse s.sim
    return { actorState := (), action, isControlled := s.sim.objectMetadata.isSdc }

end Waymax
