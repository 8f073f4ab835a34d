import Verif.Spec.Passive
import Verif.Props.Causal
import Verif.Props.PlanningMetrics
import Verif.Model.Discretizer
import Verif.Lemmas.RolloutRel
/-
C186: time stamps, heights of objects and traffic lights have no influence.
-/

namespace Waymax

section
variable {α D : Type} {n T : Nat}

theorem SamePassing.refl (p : Pt α) : SamePassing p p := ⟨rfl, rfl, rfl, rfl, rfl, rfl, rfl, rfl, rfl⟩

/-- An entry without the passive fields. -/
def Pt.bare (p : Pt α) : Pt α := { p with timestampMicros := 0, height := p.z }

theorem SamePassing.bare {p p' : Pt α} (h : SamePassing p p') : p'.bare = p.bare := by
  obtain ⟨h1, h2, h3, h4, h5, h6, h7, h8, h9⟩ := h
  simp only [Pt.bare, h1, h2, h3, h4, h5, h6, h7, h8, h9]

/-- A state without them. -/
def SimState.bare (s : SimState α n T) : SimState α n T :=
  { s with simTrajectory := fun i t => (s.simTrajectory i t).bare, logTrajectory := fun i t => (s.logTrajectory i t).bare, logTrafficLight := [] }

theorem SameTraffic.bare {s s' : SimState α n T} (h : SameTraffic s s') : s'.bare = s.bare := by
  have h1 : (fun i t => (s'.simTrajectory i t).bare) = fun i t => (s.simTrajectory i t).bare := funext fun i => funext fun t => (h.sim i t).bare
  have h2 : (fun i t => (s'.logTrajectory i t).bare) = fun i t => (s.logTrajectory i t).bare := funext fun i => funext fun t => (h.log i t).bare
  simp only [SimState.bare, h1, h2, h.objects, h.clock, h.paths, h.roadgraph]

theorem SimState.toBare (s : SimState α n T) : SameTraffic s s.bare :=
  ⟨fun _ _ => ⟨rfl, rfl, rfl, rfl, rfl, rfl, rfl, rfl, rfl⟩, fun _ _ => ⟨rfl, rfl, rfl, rfl, rfl, rfl, rfl, rfl, rfl⟩, rfl, rfl, rfl, rfl⟩

theorem Indifferent.of_bare {β : Type} {q : SimState α n T → β} (h : ∀ s, q s.bare = q s) : Indifferent q := fun s s' hs => by
  rw [← h s', hs.bare, h s]

variable [ScalarOps α]

/-- C186: `reset`. -/
theorem C186_reset (cfg : EnvConfig) {s s' : SimState α n T} (h : SameTraffic s s') : Both SameTraffic (reset cfg s) (reset cfg s') := by
  rw [reset_eq, reset_eq]
  split
  · split
    · refine .ok ⟨?_, h.log, h.objects, rfl, h.paths, h.roadgraph⟩
      intro i t
      simp only
      split
      · exact h.log i t
      · exact .refl _
    · exact .error
  · exact .error

theorem updatedPt_motion {u : Upd α} {cur cur' ref ref' : Pt α} {fb inj c : Bool} (hc : SamePassing cur cur') (hr : SamePassing ref ref') :
    SamePassing (updatedPt fb inj c u cur ref) (updatedPt fb inj c u cur' ref') := by
  constructor <;> simp only [updatedPt, fallbackPt, hc.x, hc.y, hc.z, hc.velX, hc.velY, hc.valid, hc.length, hc.width, hr.x, hr.y,
    hr.velX, hr.velY, hr.yaw, hr.valid]

variable [NeZero T]

/-- C186: `step` with any dynamics that do not look at the passive fields. -/
theorem C186_step {d : DynamicsModel α D n} (hd : d.Indifferent) (cfg : EnvConfig) {s s' : SimState α n T} (h : SameTraffic s s') (a : Fin n → Act D) :
    Both SameTraffic (step d cfg s a) (step d cfg s' a) := by
  have hm : envControlMask cfg s' = envControlMask cfg s := by
    unfold envControlMask
    rw [h.objects]
    simp only [fun i t => (h.sim i t).valid]
  unfold step
  rw [hm]
  cases envControlMask cfg s with
  | error e => exact .error
  | ok c =>
    refine .ok ⟨?_, h.log, h.objects, by simp only [h.clock], h.paths, h.roadgraph⟩
    intro i t
    simp only
    unfold DynamicsModel.forward applyTrajectoryUpdate
    simp only [h.clock]
    unfold dynUpdateSlice
    rw [hd.update a (fun i => dynIndex (s.simTrajectory i) s.timestep) (fun i => dynIndex (s'.simTrajectory i) s.timestep) fun i => h.sim i _]
    split
    · exact updatedPt_motion (h.sim i _) (h.log i _)
    · exact h.sim i t

/-- C186: whole episodes. -/
theorem C186_episode {d : DynamicsModel α D n} (hd : d.Indifferent) (cfg : EnvConfig) {s s' : SimState α n T} (h : SameTraffic s s')
    (as : List (Fin n → Act D)) :
    Both SameTraffic (reset cfg s >>= fun s0 => stepMany d cfg s0 as) (reset cfg s' >>= fun s0 => stepMany d cfg s0 as) := by
  have key : ∀ (as : List (Fin n → Act D)) (x x' : SimState α n T), SameTraffic x x' → Both SameTraffic (stepMany d cfg x as) (stepMany d cfg x' as) := by
    intro as
    induction as with
    | nil => exact fun x x' hx => .ok hx
    | cons a as ih => exact fun x x' hx => (C186_step hd cfg hx a).bind fun _ _ hy => ih _ _ hy
  exact (C186_reset cfg h).bind fun _ _ h0 => key as _ _ h0

omit [ScalarOps α] in
/-- C186: the expert. -/
theorem C186_expert {d : DynamicsModel α D n} (hd : d.Indifferent) : Indifferent fun s : SimState α n T => inferExpertAction s d := by
  intro s s' h
  simp only [inferExpertAction, h.objects, h.clock]
  refine hd.inverse _ _ _ _ fun i t => ?_
  split
  · exact h.sim i _
  · exact h.log i _

omit [ScalarOps α] [NeZero T] in
/-- C186: the state dynamics, over any numbers. -/
theorem stateDynamics_indifferent : (stateDynamics (α := α) (n := n)).Indifferent where
  update := fun _ _ _ _ => rfl
  inverse := fun traj traj' md t h => funext fun i => by
    have hp : SamePassing (dynIndex (traj i) (t + 1)) (dynIndex (traj' i) (t + 1)) := h i _
    simp only [stateDynamics, stateInverse, hp.x, hp.y, hp.yaw, hp.velX, hp.velY, hp.valid]

omit [ScalarOps α] [NeZero T] in
/-- C186: termination and truncation. -/
theorem C186_ends : Indifferent (termination (α := α) (n := n) (T := T)) ∧ Indifferent (truncation (α := α) (n := n) (T := T)) := by
  constructor
  · exact fun s s' h => by simp only [termination]
  · intro s s' h
    unfold truncation SimState.remainingTimesteps
    rw [h.clock]

end

section
variable {n T : Nat}

theorem window2_bare {T : Nat} [NeZero T] (x : Fin T → Pt ℝ) (k : Int) :
    window2 (fun t => (x t).bare) k = ((window2 x k).1.bare, (window2 x k).2.bare) := by
  unfold window2
  split <;> rfl

theorem computeInverse_bare {T : Nat} [NeZero T] (x : Fin T → Pt ℝ) (k : Int) (dt : ℝ) (b : Bool) :
    bicycleComputeInverse (fun t => (x t).bare) k dt b = bicycleComputeInverse x k dt b := by
  unfold bicycleComputeInverse
  rw [window2_bare]
  rfl

theorem inverse_bare {D : Type} {d : DynamicsModel ℝ D n}
    (hu : ∀ a cur, d.computeUpdate a (fun i => (cur i).bare) = d.computeUpdate a cur)
    (hi : ∀ {T : Nat} [NeZero T] (traj : Traj ℝ n T) md t, d.inverse (fun i t => (traj i t).bare) md t = d.inverse traj md t) : d.Indifferent where
  update := fun a cur cur' h => by
    rw [← hu a cur', ← hu a cur, show (fun i => (cur' i).bare) = fun i => (cur i).bare from funext fun i => (h i).bare]
  inverse := fun traj traj' md t h => by
    rw [← hi traj' md t, ← hi traj md t,
      show (fun i t => (traj' i t).bare) = fun i t => (traj i t).bare from funext fun i => funext fun t => (h i t).bare]

/-- C186: the built-in dynamics. -/
theorem C186_dynamics (P : DeltaParams) (B : BicycleParams) : (stateDynamics (α := ℝ) (n := n)).Indifferent ∧ (deltaGlobal P (n := n)).Indifferent ∧
    (deltaLocal P (n := n)).Indifferent ∧ (bicycle B (n := n)).Indifferent := by
  refine ⟨inverse_bare (fun _ _ => rfl) fun _ _ _ => rfl, inverse_bare (fun _ _ => rfl) fun traj md t => funext fun i => ?_,
    inverse_bare (fun _ _ => rfl) fun traj md t => funext fun i => ?_, inverse_bare (fun _ _ => rfl) fun traj md t => funext fun i => ?_⟩
  · change deltaGlobalInverse P (fun t => (traj i t).bare) t = deltaGlobalInverse P (traj i) t
    unfold deltaGlobalInverse
    rw [window2_bare]
    rfl
  · change deltaLocalInverse P (fun t => (traj i t).bare) t = deltaLocalInverse P (traj i) t
    unfold deltaLocalInverse deltaGlobalInverse
    rw [window2_bare]
    rfl
  · change bicycleInverse B (fun t => (traj i t).bare) t = bicycleInverse B (traj i) t
    unfold bicycleInverse
    rw [computeInverse_bare]

variable [NeZero T]

theorem kinematics_indifferent (K : KimParams) : Indifferent (kinematicsInfeasibilityMetric K (n := n) (T := T)) := by
  refine .of_bare fun s => funext fun i => ?_
  unfold kinematicsInfeasibilityMetric
  rw [show s.bare.simTrajectory i = fun t => (s.simTrajectory i t).bare from rfl, computeInverse_bare]
  rfl

/-- C186: the metrics. -/
theorem C186_metrics : Indifferent (logDivergenceMetric (n := n) (T := T)) ∧ Indifferent (overlapMetric (n := n) (T := T)) ∧
    Indifferent (offroadMetric (n := n) (T := T)) ∧ (∀ P, Indifferent (kinematicsInfeasibilityMetric P (n := n) (T := T))) ∧
    Indifferent (wrongWayMetric (n := n) (T := T)) ∧ Indifferent (progressionMetric (n := n) (T := T)) ∧
    Indifferent (offRouteMetric (n := n) (T := T)) :=
  ⟨.of_bare fun _ => rfl, .of_bare fun _ => rfl, .of_bare fun _ => rfl, kinematics_indifferent, .of_bare fun _ => rfl,
    .of_bare fun _ => rfl, .of_bare fun _ => rfl⟩

/-- C186: the metrics the environment reports. -/
theorem C186_env_metrics (names : List String) : Indifferent (envMetrics (n := n) (T := T) builtinMetrics names) :=
  .of_bare fun s => by
    have : ∀ (ns : List String) (d : Dict (MetricArr n)),
        (ns.foldlM (init := d) fun results name =>
          match (builtinMetrics (n := n) (T := T)).get? name with
          | some m => do return results.set name (← m s.bare)
          | none => (.error .valueError : Except Err _)) =
        ns.foldlM (init := d) fun results name =>
          match (builtinMetrics (n := n) (T := T)).get? name with
          | some m => do return results.set name (← m s)
          | none => .error .valueError := by
      intro ns
      induction ns with
      | nil => exact fun _ => rfl
      | cons a ns ih =>
        intro d
        rw [List.foldlM_cons, List.foldlM_cons]
        cases hm : (builtinMetrics (n := n) (T := T)).get? a with
        | none => rfl
        | some m =>
          have : m s.bare = m s := by
            unfold Dict.get? at hm
            rw [Option.map_eq_some_iff] at hm
            obtain ⟨e, he, rfl⟩ := hm
            have hmem := List.mem_of_find?_eq_some he
            simp only [builtinMetrics, List.mem_cons, List.not_mem_nil, or_false] at hmem
            rcases hmem with rfl | rfl | rfl | rfl | rfl | rfl | rfl
            case inr.inr.inr.inl =>
              exact congrArg (fun r => Except.ok (MetricArr.perObject r)) (kinematics_indifferent {} s s.bare s.toBare)
            all_goals rfl
          simp only [this]
          congr 1
          funext x
          exact ih x
    exact this names []

/-- C186: the reward. -/
theorem C186_reward {D : Type} (cfg : EnvConfig) (computeReward : Bool) (rewards : Dict ℝ) (a : Fin n → Act D) :
    Indifferent fun s : SimState ℝ n T => envReward builtinMetrics cfg computeReward rewards s a := by
  intro s s' h
  have := C186_env_metrics (n := n) (T := T) (rewards.map Prod.fst) s s' h
  unfold envMetrics at this
  simp only [envReward, linearReward, h.objects, this]

/-- C186: rollouts of actors that do not look at the passive fields record the same actions, metrics and rewards. -/
theorem C186_rollout {D X K P M R : Type} {d : DynamicsModel ℝ D n} (hd : d.Indifferent) (cfg : EnvConfig)
    {metrics : SimState ℝ n T → Except Err M} (hmet : Indifferent metrics) {reward : SimState ℝ n T → (Fin n → Act D) → Except Err R}
    (hrew : ∀ a, Indifferent fun s => reward s a) {A : Actor (SimState ℝ n T) (Fin n → Act D) X K P (Fin n → Bool)}
    (hinit : ∀ k, Indifferent (A.init k)) (hsel : ∀ p x k, Indifferent fun s => A.selectAction p s x k)
    (split : K → K × K) (params : P) (zeros : (Fin n → Act D) → Fin n → Act D) {s s' : SimState ℝ n T} (h : SameTraffic s s') (rng : K)
    (numSteps : Nat) :
    Both (List.Forall₂ fun e e' => e'.action = e.action ∧ SameTraffic e.state e'.state ∧ SameTraffic e.observation e'.observation ∧
        e'.metrics = e.metrics ∧ e'.reward = e.reward)
      (rollout (baseEnv d cfg metrics reward) A split params zeros s rng numSteps)
      (rollout (baseEnv d cfg metrics reward) A split params zeros s' rng numSteps) := by
  have hboth : ∀ {β : Type} {x y : Except Err β}, y = x → Both (fun a b => b = a) x y := by
    intro β x y hxy
    subst hxy
    cases y with
    | error e => exact .error
    | ok b => exact .ok rfl
  refine rollout_related (relS := SameTraffic) (relA := fun a a' => a' = a) (relO := SameTraffic) (relM := fun a a' => a' = a)
    (relR := fun a a' => a' = a) (relX := fun x x' => x' = x) (fun s s' k hs => hinit k s s' hs) (fun s s' x x' k hs hx => ?_)
    (C186_reset cfg h) (fun s s' a a' hs ha => ?_) (fun s s' hs => hs) (fun s s' hs => hboth (hmet s s' hs)) (fun s s' a a' hs ha => ?_)
    (fun a a' ha => congrArg zeros ha) split rng numSteps
  · subst hx
    rw [show A.selectAction params s' x' k = A.selectAction params s x' k from hsel params x' k s s' hs]
    exact ⟨rfl, rfl⟩
  · subst ha
    exact C186_step hd cfg hs _
  · subst ha
    exact hboth (hrew a' s s' hs)

/-! ### Agents and the planning environment -/

omit [NeZero T] in
/-- A sim agent built from a control function and an update that do not look at the passive fields. -/
theorem simAgent_indifferent {K P : Type} {f : SimState ℝ n T → Fin n → Bool} (hf : Indifferent f) {u : SimState ℝ n T → Fin n → Upd ℝ}
    (hu : Indifferent u) : AgentIndifferent (simAgent (K := K) (P := P) f u) := by
  refine ⟨fun _ _ _ _ => rfl, fun s s' p x key h => ?_⟩
  simp only [simAgent, hf _ _ h.1, hu _ _ h.1]

theorem findReference_bare {T : Nat} (cur : Pt ℝ) (traj : Fin T → Pt ℝ) (m : Nat) :
    findReference cur.bare (fun t => (traj t).bare) m = (findReference cur traj m).map (List.map Pt.bare) := by
  unfold findReference
  by_cases h : m ≤ T
  · simp only [dif_pos h, Except.map, List.map_ofFn]
    rfl
  · simp only [dif_neg h, Except.map]

theorem addHeadway_bare (ws : List (Pt ℝ)) (d : ℝ) (m : Nat) :
    addHeadwayWaypoints (ws.map Pt.bare) d m = (addHeadwayWaypoints ws d m).map (List.map Pt.bare) := by
  unfold addHeadwayWaypoints
  rw [List.getLast?_map]
  cases ws.getLast? with
  | none => rfl
  | some last =>
    simp only [Option.map_some, Except.map, List.map_append, List.map_map]
    rfl

omit [NeZero T] in
theorem idmLookahead_bare (I : IdmParams) (log : Fin T → Pt ℝ) (cur : Pt ℝ) :
    idmLookahead I (fun t => (log t).bare) cur.bare = (idmLookahead I log cur).map (List.map Pt.bare) := by
  unfold idmLookahead
  have key : ∀ x : Except Err (List (Pt ℝ)), (x.map (List.map Pt.bare) >>= fun traj =>
      if I.additionalLookaheadPoints > 0 then addHeadwayWaypoints traj I.additionalLookaheadDistance I.additionalLookaheadPoints else .ok traj) =
      (x >>= fun traj => if I.additionalLookaheadPoints > 0 then addHeadwayWaypoints traj I.additionalLookaheadDistance I.additionalLookaheadPoints
        else .ok traj).map (List.map Pt.bare) := by
    intro x
    cases x with
    | error e => rfl
    | ok ws =>
      simp only [Except.map, bind, Except.bind]
      split
      · exact addHeadway_bare _ _ _
      · rfl
  dsimp only
  split
  · rw [show findReference cur.bare (fun _ : Fin 1 => cur.bare) 1 = _ from findReference_bare cur (fun _ : Fin 1 => cur) 1]
    exact key _
  · rw [findReference_bare]
    exact key _

omit [NeZero T] in
theorem idmAccel_bare (I : IdmParams) (log : Fin n → Fin T → Pt ℝ) (cur : Fin n → Pt ℝ) (i : Fin n) :
    idmAccel I (fun i t => (log i t).bare) (fun i => (cur i).bare) i = idmAccel I log cur i := by
  unfold idmAccel
  rw [idmLookahead_bare]
  cases idmLookahead I (log i) (cur i) with
  | error e => rfl
  | ok ws =>
    simp only [Except.map, bind, Except.bind, List.length_map]
    split
    · rfl
    · unfold computeLeadDistance
      simp only [List.map_map]
      rfl

theorem waypoint_bare (b : Bool) {u : UpdateSpeed n T} (hu : ∀ s, u s.bare = u s) (s : SimState ℝ n T) :
    waypointUpdate b u s.bare = waypointUpdate b u s := by
  funext i
  unfold waypointUpdate
  rw [hu]
  have : ∀ (log : Fin T → Pt ℝ) cur v ok, (nextByProjection b (fun t => (log t).bare) cur.bare v ok).bare = (nextByProjection b log cur v ok).bare := by
    intro log cur v ok
    unfold nextByProjection
    have hp : ∀ x y e, projectToTrajectory x y (fun t => (log t).bare) e = projectToTrajectory x y log e := fun _ _ _ => rfl
    simp only [hp]
    rw [apply_ite Pt.bare, apply_ite Pt.bare]
    rfl
  have hb := this (s.logTrajectory i) (dynIndex (s.simTrajectory i) s.timestep) (u s i).1 (u s i).2
  have hx := congrArg Pt.x hb
  have hy := congrArg Pt.y hb
  have hw := congrArg Pt.yaw hb
  have h1 := congrArg Pt.velX hb
  have h2 := congrArg Pt.velY hb
  have hv := congrArg Pt.valid hb
  simp only [Pt.bare] at hx hy hw h1 h2 hv
  simp only [Upd.mk.injEq]
  exact ⟨hx, hy, hw, h1, h2, hv⟩

theorem idmSpeeds_bare (I : IdmParams) (s : SimState ℝ n T) : idmSpeeds I s.bare = idmSpeeds I s := by
  funext i
  unfold idmSpeeds idmUpdateSpeed
  have h : idmAccel I s.bare.logTrajectory (fun j => dynIndex (s.bare.simTrajectory j) s.bare.timestep) i = _ :=
    idmAccel_bare I s.logTrajectory (fun j => dynIndex (s.simTrajectory j) s.timestep) i
  dsimp only
  rw [h]
  rfl

/-- C186: the built-in agents. None of them stops for a traffic light. -/
theorem C186_agents {K P : Type} (I : IdmParams) (v : ℝ) :
    AgentIndifferent (idmAgent (K := K) (P' := P) (n := n) (T := T) I) ∧ AgentIndifferent (constantSpeedPolicy (K := K) (P := P) (n := n) (T := T) v) ∧
    AgentIndifferent (simAgent (K := K) (P := P) (n := n) (T := T) defaultControlFunc frozenUpdate) ∧
    ∀ {D : Type} {d : DynamicsModel ℝ D n}, d.Indifferent → ∀ {f : SimState ℝ n T → Fin n → Bool}, Indifferent f → ∀ speed,
      Indifferent fun s : SimState ℝ n T => constantSpeedAction d f speed s := by
  have hdef : Indifferent (defaultControlFunc (n := n) (T := T)) := .of_bare fun _ => rfl
  refine ⟨simAgent_indifferent hdef (.of_bare (waypoint_bare _ (idmSpeeds_bare I))), simAgent_indifferent hdef (.of_bare (waypoint_bare _ fun _ => rfl)),
    simAgent_indifferent hdef (.of_bare fun _ => rfl), fun hd f hf speed s s' h => ?_⟩
  simp only [constantSpeedAction, hf _ _ h, h.objects, h.clock]
  refine hd.inverse _ _ _ _ fun i t => ?_
  have hp : SamePassing (dynIndex (s.simTrajectory i) s.timestep) (dynIndex (s'.simTrajectory i) s.timestep) := h.sim i _
  refine Fin.cases ?_ (fun t => Fin.cases ?_ (fun t => t.elim0) t) t
  · exact hp
  · constructor <;> simp only [constantSpeedNext, Matrix.cons_val_succ, Matrix.cons_val_zero, hp.x, hp.y, hp.z, hp.velX, hp.velY, hp.yaw, hp.valid,
      hp.length, hp.width]

section
variable {D X K P : Type}

omit [NeZero T] in
theorem C186_plan_reset {E : PlanEnv D X K P n T} (hA : ∀ A ∈ E.actors, AgentIndifferent A) {s s' : SimState ℝ n T} (h : SameTraffic s s')
    (split : K → Nat → List K) (rng : Option K) :
    Both SamePlanTraffic (planReset E split s rng) (planReset E split s' rng) := by
  have hr := C186_reset E.cfg h
  unfold reset at hr
  unfold planReset
  refine hr.bind fun s0 s0' h0 => .ok ⟨h0, ?_⟩
  simp only
  refine List.map_congr_left fun e he => ?_
  exact (hA e.2 (List.of_mem_zip he).2).init _ _ _ ⟨h0, rfl⟩

theorem C186_plan_step {E : PlanEnv D X K P n T} (hd : E.dynamics.Indifferent) (hA : ∀ A ∈ E.actors, AgentIndifferent A) {s s' : PlanState X n T}
    (h : SamePlanTraffic s s') (split : K → Nat → List K) (a : Act D) (rng : Option K) :
    Both SamePlanTraffic (planStep E split s a rng) (planStep E split s' a rng) := by
  unfold planStep
  rw [h.2]
  split
  · exact .error
  · have hcur : planningComputeUpdate E.dynamics a s'.sim.currentSim = planningComputeUpdate E.dynamics a s.sim.currentSim := by
      refine hd.update _ _ _ fun i => ?_
      unfold SimState.currentSim
      rw [h.1.clock]
      exact h.1.sim i _
    have hover : initializedOverlap s'.sim.logTrajectory = initializedOverlap s.sim.logTrajectory :=
      (Indifferent.of_bare fun _ => rfl : Indifferent fun s : SimState ℝ n T => initializedOverlap s.logTrajectory) _ _ h.1
    have hloop : ∀ (es : List (SimAgent X K P n T × X × P × Option K)) (acc : Merged X n), (∀ e ∈ es, e.1 ∈ E.actors) →
        ∀ ok : Fin n → Bool, es.foldl (mergeSimAgent s' ok) acc = es.foldl (mergeSimAgent s ok) acc := by
      intro es
      induction es with
      | nil => exact fun _ _ _ => rfl
      | cons e es ih =>
        intro acc he ok
        rw [List.foldl_cons, List.foldl_cons]
        have : mergeSimAgent s' ok acc e = mergeSimAgent s ok acc e := by
          unfold mergeSimAgent
          rw [(hA e.1 (he e List.mem_cons_self)).select s s' _ _ _ h]
        rw [this]
        exact ih _ (fun e' he' => he e' (List.mem_cons_of_mem _ he')) ok
    have hmem : ∀ e ∈ E.actors.zip (s.actorStates.zip (E.params.zip (planKeys split rng E.actors.length))), e.1 ∈ E.actors :=
      fun e he => (List.of_mem_zip he).1
    refine .ok ⟨⟨?_, h.1.log, h.1.objects, ?_, h.1.paths, h.1.roadgraph⟩, ?_⟩
    · intro i t
      simp only [hcur, hover, h.1.objects, hloop _ _ hmem]
      unfold DynamicsModel.forward applyTrajectoryUpdate
      simp only [h.1.clock]
      unfold dynUpdateSlice
      split
      · exact updatedPt_motion (h.1.sim i _) (h.1.log i _)
      · exact h.1.sim i t
    · simp only [h.1.clock]
    · simp only [hcur, hover, h.1.objects, hloop _ _ hmem]

/-- C186: episodes of the planning environment. -/
theorem C186_plan_episode {E : PlanEnv D X K P n T} (hd : E.dynamics.Indifferent) (hA : ∀ A ∈ E.actors, AgentIndifferent A)
    {s s' : SimState ℝ n T} (h : SameTraffic s s') (split : K → Nat → List K) (rng : Option K) (as : List (Act D × Option K)) :
    Both SamePlanTraffic (planReset E split s rng >>= fun s0 => planMany E split s0 as)
      (planReset E split s' rng >>= fun s0 => planMany E split s0 as) := by
  have key : ∀ (as : List (Act D × Option K)) (x x' : PlanState X n T), SamePlanTraffic x x' →
      Both SamePlanTraffic (planMany E split x as) (planMany E split x' as) := by
    intro as
    induction as with
    | nil => exact fun x x' hx => .ok hx
    | cons a as ih => exact fun x x' hx => (C186_plan_step hd hA hx split a.1 a.2).bind fun _ _ hy => ih _ _ hy
  exact (C186_plan_reset hA h split rng).bind fun _ _ h0 => key as _ _ h0

theorem C186_plan_metrics (cfg : EnvConfig) (names : List String) : Indifferent (planMetrics (n := n) (T := T) builtinMetrics cfg names) := by
  intro s s' h
  have hm := C186_env_metrics (n := n) (T := T) names s s' h
  unfold envMetrics at hm
  simp only [planMetrics, hm, h.objects, h.clock]

theorem C186_plan_reward (E : PlanEnv D X K P n T) (computeReward : Bool) (a : Act D) :
    Indifferent fun s : SimState ℝ n T => planReward builtinMetrics E computeReward s a := by
  intro s s' h
  have hm := C186_env_metrics (n := n) (T := T) (E.rewards.map Prod.fst) s s' h
  unfold envMetrics at hm
  simp only [planReward, linearReward, hm, h.objects]

end

/-! ### Observations -/

omit [NeZero T] in
theorem globalObservation_passive {s s' : SimState ℝ n T} (h : SameTraffic s s') (K : Nat) :
    Both SameScene (globalObservation s K) (globalObservation s' K) := by
  unfold globalObservation
  split
  · rw [h.roadgraph]
    cases s.roadgraphPoints with
    | none => exact .error
    | some rg =>
      refine .ok ⟨fun i t => ?_, ?_⟩
      · simp only [h.clock]
        exact h.sim i _
      · simp only [h.objects]
  · exact .error

omit [NeZero T] in
theorem withTopk_passive {K : Nat} {o o' : Obs n K} (h : SameScene o o') (e : Fin n → Bool) (ref : ℝ × ℝ) (k : Nat) :
    Both SameScene (o.withTopk e ref k) (o'.withTopk e ref k) := by
  unfold Obs.withTopk
  have hrg : o'.roadgraph = o.roadgraph := (congrArg Obs.roadgraph h.rest :)
  rw [hrg]
  cases filterTopk o.roadgraph ref k with
  | error e => exact .error
  | ok rg =>
    refine .ok ⟨h.objects, ?_⟩
    have hr := h.rest
    cases o; cases o'
    simp only [Obs.mk.injEq] at hr ⊢
    simp [hr]

omit [NeZero T] in
theorem transform_passive {K : Nat} {o o' : Obs n K} (h : SameScene o o') (pose : Pose2D) :
    SameScene (transformObservation o pose) (transformObservation o' pose) := by
  have hr := h.rest
  have ho := h.objects
  cases o; cases o'
  simp only [Obs.mk.injEq, true_and] at hr ho
  obtain ⟨rfl, rfl, rfl, rfl, rfl⟩ := hr
  refine ⟨fun i t => ?_, rfl⟩
  have hb := ho i t
  constructor <;> simp only [transformObservation, transformTrajectoryPt, hb.x, hb.y, hb.z, hb.velX, hb.velY, hb.yaw, hb.valid, hb.length, hb.width]

theorem currentSim_passive {s s' : SimState ℝ n T} (h : SameTraffic s s') (i : Fin n) : SamePassing (s.currentSim i) (s'.currentSim i) := by
  unfold SimState.currentSim
  rw [h.clock]
  exact h.sim i _

/-- C186: what an object and the SDC see differs only in the passive fields. -/
theorem C186_observation {s s' : SimState ℝ n T} (h : SameTraffic s s') (K topk : Nat) (frame : Frame) :
    (∀ i, Both SameScene (observationFromState s K topk frame i) (observationFromState s' K topk frame i)) ∧
    Both SameScene (sdcObservationFromState s K topk frame) (sdcObservationFromState s' K topk frame) := by
  constructor
  · intro i
    have hc := currentSim_passive h
    unfold observationFromState
    refine (globalObservation_passive h K).bind fun g g' hg => ?_
    simp only [(hc _).x, (hc _).y, (hc _).yaw, (hc _).valid]
    refine (withTopk_passive hg _ _ _).bind fun o o' ho => ?_
    cases frame with
    | OBJECT => exact .ok (transform_passive ho _)
    | GLOBAL => exact .ok ho
    | SDC =>
      simp only [h.objects]
      cases hs : sdcIndex s.objectMetadata with
      | error e => exact .error
      | ok k =>
        simp only [bind, Except.bind]
        exact .ok (transform_passive ho _)
  · have hc := currentSim_passive h
    unfold sdcObservationFromState
    simp only [h.objects, h.paths]
    cases hs : sdcIndex s.objectMetadata with
    | error e => exact .error
    | ok k =>
      simp only [bind, Except.bind, (hc _).x, (hc _).y, (hc _).yaw, (hc _).valid]
      refine (globalObservation_passive h K).bind fun g g' hg => ?_
      refine (withTopk_passive hg _ _ _).bind fun o o' ho => ?_
      have ho' : ∀ p : Option (List (SdcPath ℝ)), SameScene (match p with | none => o | some paths => { o with sdcPaths := some paths })
          (match p with | none => o' | some paths => { o' with sdcPaths := some paths }) := by
        intro p
        cases p with
        | none => exact ho
        | some ps =>
          refine ⟨ho.objects, ?_⟩
          have hr := ho.rest
          cases o; cases o'
          simp only [Obs.mk.injEq] at hr ⊢
          simp [hr]
      cases frame with
      | GLOBAL => exact .ok (ho' _)
      | OBJECT => exact .ok (transform_passive (ho' _) _)
      | SDC => exact .ok (transform_passive (ho' _) _)

end

/-! ### Examples -/

/-- The example scenario as another recorder would store it: other time stamps, no heights, other lights. -/
def exRecorded : SimState Int 2 4 :=
  { exScen with
    simTrajectory := fun i t => { exScen.simTrajectory i t with timestampMicros := 5000 * t.val, height := 0 }
    logTrajectory := fun i t => { exScen.logTrajectory i t with timestampMicros := 5000 * t.val, height := 0 }
    logTrafficLight := [fun _ => { x := 1, y := 2, z := 3, state := 4, laneId := 5, valid := true }] }

theorem exRecorded_same : SameTraffic exScen exRecorded :=
  ⟨fun _ _ => ⟨rfl, rfl, rfl, rfl, rfl, rfl, rfl, rfl, rfl⟩, fun _ _ => ⟨rfl, rfl, rfl, rfl, rfl, rfl, rfl, rfl, rfl⟩, rfl, rfl, rfl, rfl⟩

example : exRecorded.logTrajectory ≠ exScen.logTrajectory := fun h =>
  absurd (congrArg Pt.timestampMicros (congrFun (congrFun h 0) 1)) (by decide)

/-- A concrete case of the simulation theorems: three actions. -/
example : Both SameTraffic (reset exCfg exScen >>= fun s0 => stepMany stateDynamics exCfg s0 [exAct true, exAct false, exAct true])
    (reset exCfg exRecorded >>= fun s0 => stepMany stateDynamics exCfg s0 [exAct true, exAct false, exAct true]) :=
  C186_episode stateDynamics_indifferent exCfg exRecorded_same _

/-- A concrete case with real numbers: one object, other heights, another light. -/
example : SameTraffic jumpScen { jumpScen with
    simTrajectory := fun i t => { jumpScen.simTrajectory i t with height := 3, timestampMicros := 1 }
    logTrajectory := fun i t => { jumpScen.logTrajectory i t with height := 3, timestampMicros := 1 }
    logTrafficLight := [fun _ => { x := 1, y := 2, z := 3, state := 4, laneId := 5, valid := true }] } :=
  ⟨fun _ _ => ⟨rfl, rfl, rfl, rfl, rfl, rfl, rfl, rfl, rfl⟩, fun _ _ => ⟨rfl, rfl, rfl, rfl, rfl, rfl, rfl, rfl, rfl⟩, rfl, rfl, rfl, rfl⟩

end Waymax
