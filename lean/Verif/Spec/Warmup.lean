import Verif.Model.Rollout
/-
Vocabulary for C188: a longer warm-up, and replaying the same steps.
-/

namespace Waymax

section
variable {α : Type} {n T : Nat}

/-- The same configuration with `k` more warm-up steps. -/
def EnvConfig.warmedBy (cfg : EnvConfig) (k : Nat) : EnvConfig := { cfg with initSteps := cfg.initSteps + k }

/-- `k` steps of the expert with `StateDynamics`. -/
def expertRun [ScalarOps α] [NeZero T] (cfg : EnvConfig) : Nat → SimState α n T → Except Err (SimState α n T)
  | 0, s => .ok s
  | k + 1, s => step stateDynamics cfg s (inferExpertAction s stateDynamics) >>= expertRun cfg k

/-- The claim: warming up for `k` more steps is the same as replaying these `k` steps with the expert. -/
def WarmupIsReplay (α : Type) [ScalarOps α] (n T : Nat) [NeZero T] : Prop :=
  ∀ (cfg : EnvConfig) (s : SimState α n T) (k : Nat), cfg.maxNumObjects = n → cfg.controlledObject ≠ .NON_SDC →
    1 ≤ cfg.initSteps → cfg.initSteps + k ≤ T →
    reset (cfg.warmedBy k) s = (reset cfg s >>= expertRun cfg k)

/-- The weaker claim: the same objects are present afterwards. -/
def WarmupKeepsPresence (α : Type) [ScalarOps α] (n T : Nat) [NeZero T] : Prop :=
  ∀ (cfg : EnvConfig) (s s1 s2 : SimState α n T) (k : Nat), 1 ≤ cfg.initSteps → cfg.initSteps + k ≤ T →
    reset (cfg.warmedBy k) s = .ok s1 → (reset cfg s >>= expertRun cfg k) = .ok s2 →
    ∀ i (t : Fin T), (t : Int) = s1.timestep → (s2.simTrajectory i t).valid = (s1.simTrajectory i t).valid

/-- Height above ground, size and presence of every object are logged unchanged from step `a` to step `b`. -/
def SteadyLog (s : SimState α n T) (a b : Nat) : Prop :=
  ∀ i (t0 t : Fin T), t0.val = a → a ≤ t.val → t.val ≤ b →
    (s.logTrajectory i t).z = (s.logTrajectory i t0).z ∧ (s.logTrajectory i t).length = (s.logTrajectory i t0).length ∧
    (s.logTrajectory i t).width = (s.logTrajectory i t0).width ∧ (s.logTrajectory i t).height = (s.logTrajectory i t0).height ∧
    (s.logTrajectory i t).valid = (s.logTrajectory i t0).valid

/-- Two points that differ at most in z, size and presence. -/
structure SameReplay (p q : Pt α) : Prop where
  x : p.x = q.x
  y : p.y = q.y
  yaw : p.yaw = q.yaw
  velX : p.velX = q.velX
  velY : p.velY = q.velY
  stamp : p.timestampMicros = q.timestampMicros

end

end Waymax
