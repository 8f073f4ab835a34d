import Verif.Spec.Motion
import Verif.Spec.Planning
/-
Vocabulary for the statements C146 and C147: sim agents and the planning environment in another map frame. Nothing here is used by
the model.
-/

namespace Waymax

section
variable {D X K P : Type} {n T : Nat} [NeZero T]

/-- An agent's update of one object, moved: its numbers count only where the update is valid. -/
def AgentMoved (g : Motion) (u u' : Upd ℝ) : Prop := u'.valid = u.valid ∧ (u.valid = true → UpdMoved g u u')

/-- Every object that is present now occurs in its log. -/
def PresentLogged (s : SimState ℝ n T) : Prop :=
  ∀ i, (dynIndex (s.simTrajectory i) s.timestep).valid = true → ∃ t, (s.logTrajectory i t).valid = true

/-- A state of the planning environment in the other frame; the sim agents' internal states are the same. -/
def PlanMoved (g : Motion) (s s' : PlanState X n T) : Prop := Moved g s.sim s'.sim ∧ s'.actorStates = s.actorStates

/-- A sim agent that does not care about the map frame: it claims the same objects, sends those that are present to the moved
poses, and remembers the same. -/
structure AgentFrameFree (g : Motion) (A : SimAgent X K P n T) : Prop where
  init : ∀ s s' k, PlanMoved g s s' → A.init k s' = A.init k s
  state : ∀ s s' p x k, PlanMoved g s s' → PresentLogged s.sim →
    (A.selectAction p s' x k).actorState = (A.selectAction p s x k).actorState
  claims : ∀ s s' p x k, PlanMoved g s s' → PresentLogged s.sim →
    (A.selectAction p s' x k).isControlled = (A.selectAction p s x k).isControlled
  action : ∀ s s' p x k, PlanMoved g s s' → PresentLogged s.sim → ∀ i, (dynIndex (s.sim.simTrajectory i) s.sim.timestep).valid = true →
    StateMoved g ((A.selectAction p s x k).action i).data ((A.selectAction p s' x k).action i).data ∧
      ((A.selectAction p s' x k).action i).valid = ((A.selectAction p s x k).action i).valid

/-- The planning agent's actions of an episode, moved; the random keys are the same. -/
def PlanActMoved (rel : D → D → Prop) (a a' : Act D × Option K) : Prop :=
  rel a.1.data a'.1.data ∧ a'.1.valid = a.1.valid ∧ a'.2 = a.2

/-- From the last warm-up step on no object enters the log; the question only arises if new objects are allowed. -/
def NoEntry (cfg : EnvConfig) (s : SimState ℝ n T) : Prop :=
  cfg.allowNewObjectsAfterWarmup = true → ∀ i, ∀ t t' : Fin T, cfg.initSteps ≤ t'.val → t'.val = t.val + 1 →
    (s.logTrajectory i t').valid = true → (s.logTrajectory i t).valid = true

/-- In the first logged frame the boxes of absent objects do not meet other boxes. -/
def AbsentApart (log : Traj ℝ n T) : Prop :=
  let interior := fun j => let p := log j 0; rectInterior p.x p.y p.length p.width p.yaw
  ∀ i j, i ≠ j → (log j 0).valid = false → ¬ (interior i ∩ interior j).Nonempty

end

end Waymax
