import Verif.Lemmas.Episode
/- Small concrete scenarios used to show that the hypotheses of the theorems can be met. Scalars are integers here. -/

namespace Waymax

instance : ScalarOps Int where
  zero := 0
  invalid := -1
  add := (· + ·)
  mul := (· * ·)
  arctan2 := fun _ _ => 0
  dt := 1

/-- A point whose numbers all derive from `k`. -/
def exPt (k : Int) (v : Bool) : Pt Int :=
  { x := k, y := k + 1, z := k + 2, velX := 1, velY := 2, yaw := 0, valid := v, timestampMicros := 100000 * k,
    length := 4, width := 2, height := 1 }

/-- Log of two objects over four steps; object 1 appears at step 2. -/
def exLog : Traj Int 2 4 := fun i t => exPt (10 * i.val + t.val) (decide (i.val = 0 ∨ 2 ≤ t.val))

/-- Object 0 is the SDC. -/
def exMeta : Fin 2 → ObjMeta := fun i =>
  { id := i.val, objectType := 1, isSdc := decide (i.val = 0), isModeled := true, isValid := true,
    objectsOfInterest := false, isControlled := false }

/-- A scenario with arbitrary garbage as simulated trajectory. -/
def exScen : SimState Int 2 4 :=
  { simTrajectory := fun _ _ => exPt 77 true, logTrajectory := exLog, logTrafficLight := [],
    objectMetadata := exMeta, timestep := 3, sdcPaths := none, roadgraphPoints := none }

/-- Actions that put object `i` at `(100 + i, 200)`. -/
def exAct (v : Bool) : Fin 2 → Act (StateRow Int) :=
  fun i => { data := { x := 100 + i.val, y := 200, yaw := 1, velX := 3, velY := 4 }, valid := v }

/-- Two objects, one warm-up step, injection allowed, SDC controlled. -/
def exCfg : EnvConfig := { maxNumObjects := 2, initSteps := 1 }

section
variable {α D : Type} [ScalarOps α] {n T : Nat} [NeZero T]

omit [ScalarOps α] in
theorem envControlMask_exists (cfg : EnvConfig) (s : SimState α n T) (h : cfg.controlledObject ≠ .NON_SDC) :
    ∃ m, envControlMask cfg s = .ok m := by
  unfold envControlMask getControlMask
  split
  · exact ⟨_, rfl⟩
  · cases hc : cfg.controlledObject with
    | NON_SDC => exact absurd hc h
    | SDC => exact ⟨_, rfl⟩
    | MODELED => exact ⟨_, rfl⟩
    | VALID => exact ⟨_, rfl⟩

theorem step_exists (d : DynamicsModel α D n) (cfg : EnvConfig) (s : SimState α n T) (a : Fin n → Act D)
    (h : cfg.controlledObject ≠ .NON_SDC) : ∃ s', step d cfg s a = .ok s' := by
  obtain ⟨m, hm⟩ := envControlMask_exists cfg s h
  exact ⟨_, by unfold step; rw [hm]; rfl⟩

theorem stepMany_exists (d : DynamicsModel α D n) (cfg : EnvConfig) (s : SimState α n T)
    (as : List (Fin n → Act D)) (h : cfg.controlledObject ≠ .NON_SDC) : ∃ s', stepMany d cfg s as = .ok s' := by
  induction as generalizing s with
  | nil => exact ⟨s, rfl⟩
  | cons a as ih =>
    obtain ⟨s1, h1⟩ := step_exists d cfg s a h
    obtain ⟨s2, h2⟩ := ih s1
    exact ⟨s2, by unfold stepMany; rw [h1]; exact h2⟩

/-- Episodes of every length that fits the horizon exist, for every dynamics, scenario and action list. -/
theorem episode_exists (d : DynamicsModel α D n) (cfg : EnvConfig) (scen : SimState α n T)
    (acts : List (Fin n → Act D)) (hn : cfg.maxNumObjects = n) (hw : 1 ≤ cfg.initSteps)
    (hf : cfg.initSteps + acts.length ≤ T) (h : cfg.controlledObject ≠ .NON_SDC) :
    ∃ s0 s1, Episode d cfg scen s0 acts s1 := by
  have hr := reset_eq cfg scen
  rw [if_pos hn, if_pos (by omega)] at hr
  obtain ⟨s1, h1⟩ := stepMany_exists (T := T) d cfg _ acts h
  exact ⟨_, s1, hr, h1, hw, hf⟩

end

/-- A three-step episode of the concrete scenario. -/
theorem exEpisode (cfg : EnvConfig) (h : cfg.maxNumObjects = 2) (h1 : cfg.initSteps = 1)
    (hc : cfg.controlledObject ≠ .NON_SDC) :
    ∃ s0 s1, Episode stateDynamics cfg exScen s0 [exAct true, exAct false, exAct true] s1 :=
  episode_exists _ _ _ _ h (by omega) (by simp [h1]) hc

end Waymax
