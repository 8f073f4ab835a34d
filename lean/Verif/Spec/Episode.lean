import Verif.Model.BaseEnv
/-
Vocabulary for the statements about episodes. Nothing here is used by the model.
-/

namespace Waymax

/-- The placeholder that fills steps that have not been simulated: invalid, every number -1. -/
def IsPlaceholder {α : Type} [ScalarOps α] (p : Pt α) : Prop :=
  p.valid = false ∧ p.timestampMicros = -1 ∧
  p.x = ScalarOps.invalid ∧ p.y = ScalarOps.invalid ∧ p.z = ScalarOps.invalid ∧
  p.velX = ScalarOps.invalid ∧ p.velY = ScalarOps.invalid ∧ p.yaw = ScalarOps.invalid ∧
  p.length = ScalarOps.invalid ∧ p.width = ScalarOps.invalid ∧ p.height = ScalarOps.invalid

/-- The scenario data that the simulation must never change. -/
structure SameScenario {α : Type} {n T : Nat} (s s' : SimState α n T) : Prop where
  log : s'.logTrajectory = s.logTrajectory
  lights : s'.logTrafficLight = s.logTrafficLight
  objects : s'.objectMetadata = s.objectMetadata
  paths : s'.sdcPaths = s.sdcPaths
  roads : s'.roadgraphPoints = s.roadgraphPoints

/-- Which objects the user is told are controlled (config.py, `controlled_object` and
`allow_new_objects_after_warmup`): the SDC, the modelled objects, or the valid ones. When no new objects may appear, "valid"
means valid in the last warm-up step `init_steps - 1` of the simulation. -/
def IsControlled {α : Type} {n T : Nat} (cfg : EnvConfig) (s : SimState α n T) (i : Fin n) : Prop :=
  match cfg.controlledObject with
  | .SDC => (s.objectMetadata i).isSdc = true
  | .MODELED => (s.objectMetadata i).isModeled = true
  | .VALID =>
    if cfg.allowNewObjectsAfterWarmup then (s.objectMetadata i).isValid = true
    else ∃ t : Fin T, t.val + 1 = cfg.initSteps ∧ (s.simTrajectory i t).valid = true
  | .NON_SDC => False

/-- `s1` is the state reached from scenario `scen` by `reset` (giving `s0`) and then one `step` per action in `acts`,
with at least one warm-up step and all steps inside the horizon `T`. -/
structure Episode {α D : Type} [ScalarOps α] {n T : Nat} [NeZero T] (d : DynamicsModel α D n) (cfg : EnvConfig)
    (scen s0 : SimState α n T) (acts : List (Fin n → Act D)) (s1 : SimState α n T) : Prop where
  start : reset cfg scen = .ok s0
  run : stepMany d cfg s0 acts = .ok s1
  warm : 1 ≤ cfg.initSteps
  fits : cfg.initSteps + acts.length ≤ T

end Waymax
