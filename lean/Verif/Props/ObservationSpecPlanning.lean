import Verif.Props.ObservationSpec
import Verif.Props.BatchPlanning

/-! C175 for the planning-agent environment with sim agents: the arrays of the simulator state. The internal states of the sim agents of
this library contain no arrays. -/

namespace Waymax
variable {X X' K P D : Type} {n T : Nat} [NeZero T] {pre : List Nat} {Q : List Nat → X → X' → Prop}

theorem planStepNd_rest {E : PlanEnvNd X K P} {split : K → Nat → List K} {s s' : PlanStateNd X} {a : ActNd ℝ} {rng : Option K}
    (h : planStepNd E split s a rng = .ok s') : SameRest s.sim s'.sim := by
  unfold planStepNd at h
  obtain ⟨_, _, h⟩ := bind_ok h
  obtain ⟨_, _, h⟩ := bind_ok h
  obtain ⟨_, _, h⟩ := bind_ok h
  obtain ⟨_, _, h⟩ := bind_ok h
  obtain ⟨_, _, h⟩ := bind_ok h
  obtain ⟨_, _, h⟩ := bind_ok h
  obtain ⟨_, _, h⟩ := bind_ok h
  cases h
  exact ⟨rfl, rfl, rfl, rfl, rfl⟩

theorem planManyNd_rest {E : PlanEnvNd X K P} {split : K → Nat → List K} (as : List (ActNd ℝ × Option K)) :
    ∀ {s s' : PlanStateNd X}, planManyNd E split s as = .ok s' → SameRest s.sim s'.sim := by
  induction as with
  | nil => intro s s' h; cases h; exact ⟨rfl, rfl, rfl, rfl, rfl⟩
  | cons a as ih =>
    intro s s' h
    obtain ⟨_, h1, h2⟩ := bind_ok h
    exact (planStepNd_rest h1).trans (ih h2)

theorem planReset_rest {E : PlanEnvNd X K P} {split : K → Nat → List K} {s : StateNd ℝ} {s' : PlanStateNd X} {rng : Option K}
    (h : planResetNd E split s rng = .ok s') : SameRest s s'.sim := by
  unfold planResetNd at h
  obtain ⟨_, h1, h⟩ := bind_ok h
  cases h
  exact resetNd_rest h1

theorem planEpisode_leaves {dn : DynNd ℝ} {dim : Nat} {row : (Nat → ℝ) → D} {d : DynamicsModel ℝ D n} (hd : dn.Refines n dim row d)
    {cfg : EnvConfig} {rewards : Dict ℝ} {agents : List (AgentPair X X' K P n T)}
    (hg : ∀ g ∈ agents, SimAgentNd.Refines g.batch g.single g.params pre Q) {split : K → Nat → List K} {rng : Option K} {s : StateNd ℝ}
    (hs : s.Shaped pre n T) {as : List (ActNd ℝ × Option K)} (ha : ∀ a ∈ as, a.1.OnePerScenario pre dim) {p : List Nat}
    (hp : InRange pre p) {s' : PlanStateNd X}
    (h : (planResetNd (envOfPairs dn cfg rewards agents) split s rng >>= fun r =>
      planManyNd (envOfPairs dn cfg rewards agents) split r as) = .ok s') : s'.sim.leafShapes = clockless s.leafShapes := by
  have hb := C121_episode hd cfg rewards hg split rng hs as ha hp
  rw [h] at hb
  obtain ⟨r, h1, h2⟩ := bind_ok h
  rcases hx : (planReset (envOfPairsAt d cfg rewards agents p) split (s.scenario n T p) rng >>= fun s =>
        planMany (envOfPairsAt d cfg rewards agents p) split s (as.map fun a => (a.1.planner row p, a.2))) with e | q
  · rw [hx] at hb
    exact hb.elim
  · rw [hx] at hb
    exact leaves_of_rest hs hb.shaped hb.time ((planReset_rest h1).trans (planManyNd_rest as h2))

/-- In the planning-agent environment, with any sim agents that treat the scenarios of a batch separately, any actions and any random
keys, the simulator state that is observed conforms to what is declared exactly when there are no batch axes. -/
theorem C175_planning_exact {dn : DynNd ℝ} {dim : Nat} {row : (Nat → ℝ) → D} {d : DynamicsModel ℝ D n} (hd : dn.Refines n dim row d)
    {cfg : EnvConfig} {rewards : Dict ℝ} {agents : List (AgentPair X X' K P n T)}
    (hg : ∀ g ∈ agents, SimAgentNd.Refines g.batch g.single g.params pre Q) {split : K → Nat → List K} {rng : Option K}
    {sample s : StateNd ℝ} (hsample : sample.Loaded pre n T) (hs : s.Loaded pre n T) (same : s.leafShapes = sample.leafShapes)
    {declared : List (String × List Nat)} (hspec : observationSpec cfg sample = .ok declared)
    {as : List (ActNd ℝ × Option K)} (ha : ∀ a ∈ as, a.1.OnePerScenario pre dim) {p : List Nat} (hp : InRange pre p) {s' : PlanStateNd X}
    (h : (planResetNd (envOfPairs dn cfg rewards agents) split s rng >>= fun r =>
      planManyNd (envOfPairs dn cfg rewards agents) split r as) = .ok s') :
    Conforms pre declared (observeNd s'.sim).leafShapes ↔ pre = [] :=
  conforms_iff hsample same hspec (planEpisode_leaves hd hg hs.shaped ha hp h)

/-- Whatever the batch axes, the arrays of the simulator state other than the clock conform to what is declared. -/
theorem C175_planning_partial {dn : DynNd ℝ} {dim : Nat} {row : (Nat → ℝ) → D} {d : DynamicsModel ℝ D n} (hd : dn.Refines n dim row d)
    {cfg : EnvConfig} {rewards : Dict ℝ} {agents : List (AgentPair X X' K P n T)}
    (hg : ∀ g ∈ agents, SimAgentNd.Refines g.batch g.single g.params pre Q) {split : K → Nat → List K} {rng : Option K}
    {sample s : StateNd ℝ} (hsample : sample.Loaded pre n T) (hs : s.Loaded pre n T) (same : s.leafShapes = sample.leafShapes)
    {declared : List (String × List Nat)} (hspec : observationSpec cfg sample = .ok declared)
    {as : List (ActNd ℝ × Option K)} (ha : ∀ a ∈ as, a.1.OnePerScenario pre dim) {p : List Nat} (hp : InRange pre p) {s' : PlanStateNd X}
    (h : (planResetNd (envOfPairs dn cfg rewards agents) split s rng >>= fun r =>
      planManyNd (envOfPairs dn cfg rewards agents) split r as) = .ok s') :
    Conforms pre (withoutClock declared) (withoutClock (observeNd s'.sim).leafShapes) :=
  conforms_rest hsample same hspec (planEpisode_leaves hd hg hs.shaped ha hp h)

/-- The hypotheses are met: a batch of two scenarios without sim agents. -/
example : ∃ (s' : PlanStateNd Unit) (declared : List (String × List Nat)),
    (planResetNd (envOfPairs (n := 4) (T := 7) (X := Unit) (X' := Unit) (K := Unit) (P := Unit) (stateNd ℝ) (plainCfg 4) [] [])
      (fun _ _ => []) (plainBatch [2] 4 7) none) = .ok s' ∧
    Conforms [2] (withoutClock declared) (withoutClock (observeNd s'.sim).leafShapes) := by
  obtain ⟨r, hs⟩ := plainBatch_runs (pre := [2]) (p := [0]) (by simp [InRange]) 4 7
  obtain ⟨declared, hd⟩ : ∃ declared, observationSpec (plainCfg 4) (plainBatch [2] 4 7) = .ok declared := by
    unfold observationSpec
    rw [hs]
    exact ⟨_, rfl⟩
  have hl := plainBatch_loaded [2] 4 7
  have hr : planResetNd (envOfPairs (n := 4) (T := 7) (X := Unit) (X' := Unit) (K := Unit) (P := Unit) (stateNd ℝ) (plainCfg 4) [] [])
      (fun _ _ => []) (plainBatch [2] 4 7) none = .ok { sim := r, actorStates := [] } := by
    unfold planResetNd
    show (resetNd (plainCfg 4) (plainBatch [2] 4 7) >>= _) = _
    rw [hs]
    simp [envOfPairs, exc_ok_bind]
  refine ⟨_, declared, hr, ?_⟩
  exact C175_planning_partial (agents := []) (Q := fun _ _ _ => True) (C105_state 4) (by simp) hl hl rfl hd (as := []) (by simp)
    (p := [0]) (by simp [InRange]) (by rw [hr]; rfl)

end Waymax
