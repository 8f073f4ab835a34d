import Verif.Spec.DiscreteReplay
import Verif.Model.Discretizer
import Verif.Model.BaseEnv
/-
Specification for C190: actions labelled from the log, executed without feedback.

`logLabels d s t m` are the actions that `inverse` infers from `m` successive pairs of logged steps, the first pair starting at
step `t`: the labels of an imitation data set. They do not depend on the simulated poses.
-/
namespace Waymax

open Real

def logLabels {α D : Type} {n T : Nat} [NeZero T] (d : DynamicsModel α D n) (s : SimState α n T) (t : Nat) (m : Nat) :
    List (Fin n → Act D) :=
  (List.range m).map fun k => d.inverse s.logTrajectory s.objectMetadata ((t + k : Nat) : Int)

/-- The log of object `i` is valid from step `t` on and moves by at most the given amounts per step. -/
structure LogWithin {n T : Nat} (s : SimState ℝ n T) (i : Fin n) (t : Nat) (maxDx maxDy : ℝ) : Prop where
  valid : ∀ u : Fin T, t ≤ u.val → (s.logTrajectory i u).valid = true
  moves : ∀ u u' : Fin T, t ≤ u.val → u'.val = u.val + 1 →
    |(s.logTrajectory i u').x - (s.logTrajectory i u).x| ≤ maxDx ∧ |(s.logTrajectory i u').y - (s.logTrajectory i u).y| ≤ maxDy

/-- After a warm-up that ends at step `t`, executing the labels of the next `m` steps leaves every object with a log within the
bounds of the action space in the relation `C m` to its logged pose. -/
def LabelsReplay {D : Type} (maxDx maxDy : ℝ) (d : ∀ n, DynamicsModel ℝ D n) (C : Nat → Pt ℝ → Pt ℝ → Prop) : Prop :=
  ∀ (n T : Nat) [NeZero T] (cfg : EnvConfig) (scen s0 s : SimState ℝ n T) (t m : Nat) (now : Fin T) (i : Fin n),
    cfg.initSteps = t + 1 → reset cfg scen = .ok s0 → stepMany (d n) cfg s0 (logLabels (d n) scen t m) = .ok s →
    now.val = t + m → LogWithin scen i t maxDx maxDy → C m (s.simTrajectory i now) (scen.logTrajectory i now)

end Waymax
