import Verif.Model.Dynamics
/-
Model of waymax/env/base_environment.py (state transitions) and of the termination / truncation defaults in
waymax/env/abstract_environment.py. Rewards and metrics are modelled in `Verif.Model.Metrics`.
-/

namespace Waymax

/-- The part of `EnvironmentConfig` the transition functions read. waymax/config.py:202-216 -/
structure EnvConfig where
  maxNumObjects : Nat := 128
  initSteps : Nat := 11
  controlledObject : ObjectType := .SDC
  allowNewObjectsAfterWarmup : Bool := true
  deriving DecidableEq, Repr

section
variable {α D : Type} [ScalarOps α] {n T : Nat}

/-- `BaseEnvironment.reset`. waymax/env/base_environment.py:64-92 -/
def reset (cfg : EnvConfig) (s : SimState α n T) : Except Err (SimState α n T) :=
  if cfg.maxNumObjects = n then
    updateStateByLog
      { s with timestep := -1, simTrajectory := fillInvalidTrajectory s.logTrajectory } cfg.initSteps
  else .error .assertion

/-- `_get_control_mask`. waymax/env/base_environment.py:200-217 -/
def envControlMask [NeZero T] (cfg : EnvConfig) (s : SimState α n T) : Except Err (Fin n → Bool) :=
  if cfg.controlledObject = .VALID ∧ cfg.allowNewObjectsAfterWarmup = false then
    .ok fun i => dynIndex (fun t => (s.simTrajectory i t).valid) ((cfg.initSteps : Int) - 1)
  else getControlMask s.objectMetadata cfg.controlledObject

/-- `BaseEnvironment.step`. waymax/env/base_environment.py:114-142 -/
def step [NeZero T] (d : DynamicsModel α D n) (cfg : EnvConfig) (s : SimState α n T) (a : Fin n → Act D) :
    Except Err (SimState α n T) := do
  let isControlled ← envControlMask cfg s
  return { s with
    simTrajectory := d.forward a s.simTrajectory s.logTrajectory isControlled s.timestep
      cfg.allowNewObjectsAfterWarmup
    timestep := s.timestep + 1 }

/-- Repeated `env.step`: the states an episode goes through under a list of actions.
waymax/env/base_environment.py:114-142, called as at waymax/env/rollout.py:137-163 -/
def stepMany [NeZero T] (d : DynamicsModel α D n) (cfg : EnvConfig) (s : SimState α n T) :
    List (Fin n → Act D) → Except Err (SimState α n T)
  | [] => .ok s
  | a :: as => do
    let s' ← step d cfg s a
    stepMany d cfg s' as

/-- `AbstractEnvironment.termination` for one scenario. waymax/env/abstract_environment.py:128-143 -/
def termination (_s : SimState α n T) : Bool := false

/-- `AbstractEnvironment.truncation` for one scenario. waymax/env/abstract_environment.py:145-163 -/
def truncation (s : SimState α n T) : Bool := decide (s.remainingTimesteps < 1)

end

end Waymax
