import Verif.Props.PlanExpert
import Verif.Props.PlanExpertPlain
import Verif.Props.BatchPlanReplay
/-
C161: the expectation about the dynamics model handed to the expert, its refutation, and concrete cases.
-/

namespace Waymax

/-! ### The dynamics model the environment was built with -/

/-- What `rollout_log_by_expert_sdc(scenario, env, dynamics_model)` promises when `dynamics_model` is the one the planning environment was
built with (waymax/env/rollout.py:208-222): the rollout succeeds on every batch of scenarios that fits. Here for state dynamics, no sim
agents, no metrics and no reward. -/
def C161_full : Prop :=
  ∀ (n T : Nat) [NeZero T] (pre : List Nat) (cfg : EnvConfig) (S : StateNd ℝ) (numSteps : Nat), cfg.maxNumObjects = n →
    cfg.controlledObject = .SDC → cfg.initSteps ≤ T → S.Shaped pre n T → (∃ p, InRange pre p) → 1 ≤ numSteps →
    ∃ o, planRolloutNd ({ dynamics := stateNd ℝ, cfg := cfg, rewards := [], actors := [], params := [] } : PlanEnvNd Unit Unit Unit)
      (fun _ m => List.replicate m ()) builtinMetricsNd [] false (plainExpertNd (stateInverseNd ℝ)) (fun k : Unit => (k, k)) () S ()
      numSteps = .ok o

/-- It does not hold: the expert's actions have one row for each object, the environment wants one for each scenario. -/
theorem C161_full_violated : ¬ C161_full := by
  intro h
  obtain ⟨o, ho⟩ := h 2 3 [2] { maxNumObjects := 2, initSteps := 2 } exDuo 1 rfl rfl (by simp) exDuo_shaped
    ⟨[1], .cons (by omega) .nil⟩ (le_refl _)
  obtain ⟨e, he⟩ := C161_plain_expert_fails (E := ({ dynamics := stateNd ℝ, cfg := { maxNumObjects := 2, initSteps := 2 }, rewards := []
                                                     actors := [], params := [] } : PlanEnvNd Unit Unit Unit)) (d := .state) rfl
    (C120_state_inverse 2) (fun _ m => List.replicate m ()) builtinMetricsNd [] false (fun k : Unit => (k, k)) () exDuo_shaped () 1
  rw [he] at ho
  cases ho

/-- With the environment's own `env.dynamics` it does. -/
theorem C161_wrapped_succeeds {n T : Nat} [NeZero T] {pre : List Nat} {cfg : EnvConfig} {S : StateNd ℝ} {numSteps : Nat}
    (hn : cfg.maxNumObjects = n) (hc : cfg.controlledObject = .SDC) (hw : cfg.initSteps ≤ T) (hS : S.Shaped pre n T)
    (hb : ∃ p, InRange pre p) (hk : 1 ≤ numSteps) :
    ∃ o, planRolloutNd ({ dynamics := stateNd ℝ, cfg := cfg, rewards := [], actors := [], params := [] } : PlanEnvNd Unit Unit Unit)
      (fun _ m => List.replicate m ()) builtinMetricsNd [] false (planExpertNd (stateInverseNd ℝ)) (fun k : Unit => (k, k)) () S ()
      numSteps = .ok o :=
  C122_expert_succeeds (X := Unit) (X' := Unit) (K := Unit) (P := Unit) (Q := fun _ _ _ => True) (C105_state n) (C120_state_inverse n)
    stateToRow_rowOf stateOfRow_rowOf hn hc hw (agents := []) (fun g hg => absurd hg List.not_mem_nil) hS hb []
    (fun k hk => absurd hk List.not_mem_nil) false [] (fun e he => absurd he List.not_mem_nil) (fun _ m => List.replicate m ())
    (fun k : Unit => (k, k)) () () hk

example : ∃ o, planRolloutNd ({ dynamics := stateNd ℝ, cfg := { maxNumObjects := 2, initSteps := 2 }, rewards := [], actors := []
                                params := [] } : PlanEnvNd Unit Unit Unit)
    (fun _ m => List.replicate m ()) builtinMetricsNd [] false (planExpertNd (stateInverseNd ℝ)) (fun k : Unit => (k, k)) () exDuo () 5 = .ok o :=
  C161_wrapped_succeeds rfl rfl (by simp) exDuo_shaped ⟨[1], .cons (by omega) .nil⟩ (by omega)

/-- An action with a row for each of the two cars of two scenarios is rejected. -/
example : ∃ e, planStepNd ({ dynamics := stateNd ℝ, cfg := { maxNumObjects := 2, initSteps := 2 }, rewards := [], actors := []
                             params := [] } : PlanEnvNd Unit Unit Unit) (fun _ m => List.replicate m ()) { sim := exDuo, actorStates := [] }
    { data := { shape := [2, 2, 5], get := fun _ => 0 }, valid := { shape := [2, 2, 1], get := fun _ => true } } none = .error e :=
  C161_object_actions_rejected (d := .state) rfl _ exDuo_shaped rfl _

/-! ### A rollout of one scenario -/

/-- One step of the expert from the reset of two cars with a frozen sim agent for the car that is not the SDC. -/
theorem exists_plan_rollout : ∃ out, rollout (planEnv (pushEnv [simAgent defaultControlFunc frozenUpdate]) (fun _ m => List.replicate m ()) [] [] false)
    (planExpert (T := 3) (J := Unit) (Q := Unit) (stateDynamics (α := ℝ) (n := 2)) stateToRow stateOfRow) (fun k => (k, k)) () id
    { sim := carScen, actorStates := [] } () 1 = .ok out := by
  have hr := reset_push [simAgent defaultControlFunc frozenUpdate] carScen
  have hm : ∀ (cfg : EnvConfig) (s : SimState ℝ 2 3), planMetrics [] cfg [] s = .ok [] := fun _ _ => rfl
  have hw : ∀ (s : SimState ℝ 2 3) (a : Act (StateRow ℝ)),
      planReward [] (pushEnv [simAgent (K := Unit) (P := Unit) defaultControlFunc frozenUpdate]) false s a = .ok 0 := fun _ _ => rfl
  generalize hs : ({ sim := _, actorStates := _ } : PlanState Unit 2 3) = s0 at hr
  have hl : s0.actorStates.length = 1 := by rw [← hs]; rfl
  have hst : ∀ a, ∃ s1, planStep (pushEnv [simAgent (K := Unit) (P := Unit) defaultControlFunc frozenUpdate]) (fun _ m => List.replicate m ()) s0 a
      = .ok s1 := fun a => ⟨_, by rw [planStep_eq, if_neg (by rw [hl]; simp [pushEnv])]⟩
  obtain ⟨s1, h1⟩ := hst ((planExpert (T := 3) (J := Unit) (Q := Unit) (stateDynamics (α := ℝ) (n := 2)) stateToRow stateOfRow).selectAction ()
    s0 () ()).action
  generalize hro : rollout _ _ _ _ _ _ _ _ = r
  cases r with
  | ok out => exact ⟨out, rfl⟩
  | error e =>
    exfalso
    unfold rollout at hro
    simp only [planEnv, hr, bind, Except.bind, scan, rolloutStep, hm, hw, planExpert, pure, Except.pure] at hro h1
    rw [h1] at hro
    simp at hro

theorem frozen_leaves_sdc : LeavesSdc (simAgent (K := Unit) (P := Unit) (n := 2) (T := 3) defaultControlFunc frozenUpdate) := by
  intro p s x key i hi
  show (!(s.sim.objectMetadata i).isSdc) = false
  rw [hi]
  rfl

/-- The SDC is where the log has it after the step, although the environment has a sim agent. -/
example : ∃ out, ∃ _ : out.length = 2, rollout (planEnv (pushEnv [simAgent defaultControlFunc frozenUpdate]) (fun _ m => List.replicate m ()) [] [] false)
    (planExpert (T := 3) (J := Unit) (Q := Unit) (stateDynamics (α := ℝ) (n := 2)) stateToRow stateOfRow) (fun k => (k, k)) () id
    { sim := carScen, actorStates := [] } () 1 = .ok out ∧
    (out[1].state.sim.simTrajectory 0 2).y = 2 ∧ (logDivergenceMetric out[1].state.sim 0).value = 0 := by
  obtain ⟨out, ho⟩ := exists_plan_rollout
  obtain ⟨hlen, hrun, -, -⟩ := plan_rollout_facts (E := pushEnv [simAgent defaultControlFunc frozenUpdate]) ho (by simp [pushEnv]) (by simp [pushEnv])
  have hsdc : OnlySdc carScen.objectMetadata 0 := by
    intro i
    simp [carScen]
  have hA : ∀ A ∈ (pushEnv [simAgent (K := Unit) (P := Unit) (n := 2) (T := 3) defaultControlFunc frozenUpdate]).actors, LeavesSdc A := by
    intro A hA
    obtain rfl := List.mem_singleton.1 hA
    exact frozen_leaves_sdc
  refine ⟨out, hlen, ho, ?_, ?_⟩
  · rw [(C161_sdc_state (E := pushEnv [simAgent defaultControlFunc frozenUpdate]) rfl hA hsdc ho (by simp [pushEnv]) (by simp [pushEnv]) 1 (by omega) 2
      (by rw [(hrun 1 (le_refl _)).2]; simp [pushEnv])).2.1]
    simp [carScen, ptAt]
  · exact C161_log_divergence (E := pushEnv [simAgent defaultControlFunc frozenUpdate]) rfl hA hsdc ho (by simp [pushEnv]) (by simp [pushEnv]) 1 (by omega)

end Waymax
