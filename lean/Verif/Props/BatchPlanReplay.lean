import Verif.Props.BatchPlanRollout
import Verif.Props.BatchLogReplay
import Verif.Props.PlanningGaps
/-
C122: rollouts of batches in the planning environment.
-/

namespace Waymax

section
variable {pre : List Nat} {n T : Nat} [NeZero T]
variable {D X X' Y Y' K J P P' C C' : Type} {Q : List Nat → X → X' → Prop} {R : List Nat → Y → Y' → Prop}

/-- The rollout of a batch in the planning environment with the built-in metrics, for any dynamics, sim agents and planner that refine
their one-scenario versions: it fails when the rollouts of the scenarios fail, with the same error, and otherwise entry `t` of scenario
`p` is entry `t` of the rollout of scenario `p`: state, observation, action, metrics and reward. -/
theorem C122_rollout {dn : DynNd ℝ} {dim : Nat} {row : (Nat → ℝ) → D} {d : DynamicsModel ℝ D n} (hd : dn.Refines n dim row d)
    (cfg : EnvConfig) {agents : List (AgentPair X X' K P n T)} (hg : ∀ g ∈ agents, SimAgentNd.Refines g.batch g.single g.params pre Q)
    {act : RaisingActor (PlanStateNd X) (ActNd ℝ) Y J P' C} {single : List Nat → Actor (PlanState X' n T) (Act D) Y' J P' C'} {params : P'}
    (hact : PlannerRefines act single params pre dim row Q R) {S : StateNd ℝ} (hS : S.Shaped pre n T) (names : List String)
    (hnames : ∀ k ∈ names, S.Supports pre T k) (computeReward : Bool) (rewards : Dict ℝ)
    (hrewards : ∀ e ∈ rewards, e.1 ∈ ["log_divergence", "overlap", "offroad", "kinematic_infeasibility"] ∧ S.Supports pre T e.1)
    (splitEnv : K → Nat → List K) (split : J → J × J) (rng : J) (numSteps : Nat) :
    PlanRolloutAgrees pre n T dim row (numSteps + 1)
      (planRolloutNd (envOfPairs dn cfg rewards agents) splitEnv builtinMetricsNd names computeReward act split params S rng numSteps)
      fun p => rollout (planEnv (envOfPairsAt d cfg rewards agents p) splitEnv builtinMetrics names computeReward) (single p) split params
        (zeroAction row) { sim := S.scenario n T p, actorStates := [] } rng numSteps :=
  (planRollout_core hd cfg hg hact hS names hnames computeReward rewards hrewards splitEnv split rng numSteps).1

/-- The expert as the planner: on a batch it chooses the expert action of the SDC of each scenario. -/
theorem C122_expert_actor {inv : InverseNd ℝ} {dim : Nat} {row : (Nat → ℝ) → D} {d : DynamicsModel ℝ D n} (hi : inv.Refines n dim row d)
    {toRow : D → Fin dim → ℝ} (hrow : ∀ f (k : Fin dim), toRow (row f) k = f k.val) {ofRow : (Fin dim → ℝ) → D}
    (hof : ∀ f, ofRow (fun k => f k.val) = row f) (params : P') :
    PlannerRefines (X := X) (J := J) (T := T) (planExpertNd inv) (fun _ => planExpert d toRow ofRow) params pre dim row Q fun _ _ _ => True where
  init := fun _ _ _ _ _ _ => trivial
  select := fun k s y h ht => by
    obtain ⟨prev, e1, s1, g1⟩ := slice_traj h.sim ht
    obtain ⟨next, e2, s2, g2⟩ := slice_traj h.log (start := s.sim.timestep.map fun t => t + 1) ht
    obtain ⟨both, e3, s3, g3⟩ := zipLeaves_concat (q := pre ++ [n]) (t := prev) (u := next) (a := 1) (b := 1)
      (by rw [snoc2] at s1; exact s1) (by rw [snoc2] at s2; exact s2)
    obtain ⟨a, e4, s4, g4⟩ := C121_inverse hi hrow hof (le_refl 2) (pre := pre) (t := both) (by rw [snoc2]; exact s3)
      (m := s.sim.objectMetadata) h.metadata.isSdc 0
    refine ⟨{ actorState := (), action := a, isControlled := s.sim.objectMetadata.isSdc }, ?_, s4, fun p s' _ hp hsh _ => ⟨?_, trivial⟩⟩
    · unfold planExpertNd inferExpertActionNd
      dsimp only
      rw [e1, exc_ok_bind, e2, exc_ok_bind, e3, exc_ok_bind]
      rw [e4, exc_ok_bind]
      rfl
    · rw [g4 p hp]
      unfold planExpert
      dsimp only
      rw [hsh.sim]
      congr 1
      funext i k
      have hts : (s.sim.scenario n T p).timestep = s.sim.timestep.get [] := by simp [StateNd.scenario, ht]
      rw [snoc2, g3, hts]
      by_cases hk : k.val = 0
      · rw [if_pos (by omega), if_pos hk, hk, ← snoc2, g1 p hp i]
        rfl
      · rw [if_neg (by omega), if_neg hk, show k.val - 1 = 0 by omega, ← snoc2, g2 p hp i]
        rfl

/-- Expert rollouts of batches in the planning environment, for any dynamics and any sim agents. -/
theorem C122_expert_rollout {dn : DynNd ℝ} {inv : InverseNd ℝ} {dim : Nat} {row : (Nat → ℝ) → D} {d : DynamicsModel ℝ D n}
    (hd : dn.Refines n dim row d) (hi : inv.Refines n dim row d)
    {toRow : D → Fin dim → ℝ} (hrow : ∀ f (k : Fin dim), toRow (row f) k = f k.val) {ofRow : (Fin dim → ℝ) → D}
    (hof : ∀ f, ofRow (fun k => f k.val) = row f) (cfg : EnvConfig)
    {agents : List (AgentPair X X' K P n T)} (hg : ∀ g ∈ agents, SimAgentNd.Refines g.batch g.single g.params pre Q)
    {S : StateNd ℝ} (hS : S.Shaped pre n T) (names : List String) (hnames : ∀ k ∈ names, S.Supports pre T k) (computeReward : Bool)
    (rewards : Dict ℝ)
    (hrewards : ∀ e ∈ rewards, e.1 ∈ ["log_divergence", "overlap", "offroad", "kinematic_infeasibility"] ∧ S.Supports pre T e.1)
    (splitEnv : K → Nat → List K) (split : J → J × J) (params : P') (rng : J) (numSteps : Nat) :
    PlanRolloutAgrees pre n T dim row (numSteps + 1)
      (planRolloutNd (envOfPairs dn cfg rewards agents) splitEnv builtinMetricsNd names computeReward (planExpertNd inv) split params S rng
        numSteps)
      fun p => rollout (planEnv (envOfPairsAt d cfg rewards agents p) splitEnv builtinMetrics names computeReward)
        (planExpert d toRow ofRow) split params (zeroAction row) { sim := S.scenario n T p, actorStates := [] } rng numSteps :=
  C122_rollout hd cfg hg (C122_expert_actor hi hrow hof params) hS names hnames computeReward rewards hrewards splitEnv split rng numSteps

/-! ### The SDC follows its log -/

/-- Expert rollouts in the planning environment with state dynamics and sim agents that leave the SDC alone: at every entry of the rollout
the SDC's simulated pose and velocity are the logged ones at all steps up to the current one, whatever the sim agents do to other
objects. -/
theorem C122_sdc_follows_log {E : PlanEnv (StateRow ℝ) X K P n T} (hE : E.dynamics = stateDynamics) {splitEnv : K → Nat → List K}
    {reg : Dict (Metric n T)} {names : List String} {computeReward : Bool} {split : J → J × J} {params : P'}
    {z : Act (StateRow ℝ) → Act (StateRow ℝ)} {scen : PlanState X n T} {rng : J} {N : Nat} {es : List (PlanEntry (StateRow ℝ) X n T)}
    (h : rollout (planEnv E splitEnv reg names computeReward) (planExpert stateDynamics stateToRow stateOfRow) split params z scen rng N =
      .ok es) (hw : 1 ≤ E.cfg.initSteps) (hfit : E.cfg.initSteps + N ≤ T) {k : Fin n} (hk : OnlySdc scen.sim.objectMetadata k)
    (hno : ∀ (j : Nat) a q, E.actors[j]? = some a → E.params[j]? = some q → SimAgent.LeavesAlone a q scen.sim.objectMetadata k)
    (j : Nat) (hj : j < es.length) :
    es[j].state.sim.timestep = (E.cfg.initSteps : Int) - 1 + j ∧ es[j].state.sim.logTrajectory = scen.sim.logTrajectory ∧
    ∀ t : Fin T, (t : Int) ≤ es[j].state.sim.timestep →
      let p := es[j].state.sim.simTrajectory k t
      let l := scen.sim.logTrajectory k t
      p.x = l.x ∧ p.y = l.y ∧ p.yaw = l.yaw ∧ p.velX = l.velX ∧ p.velY = l.velY ∧ p.timestampMicros = l.timestampMicros := by
  obtain ⟨hN, hlen, hreset, hstep, -, ⟨xs, -, hact⟩, -⟩ := C14_rollout_spec h
  have key : ∀ j (hj : j ≤ N), es[j].state.sim.logTrajectory = scen.sim.logTrajectory ∧
      es[j].state.sim.objectMetadata = scen.sim.objectMetadata ∧ es[j].state.sim.timestep = (E.cfg.initSteps : Int) - 1 + j ∧
      ∀ t : Fin T, (t : Int) ≤ es[j].state.sim.timestep →
        let p := es[j].state.sim.simTrajectory k t
        let l := scen.sim.logTrajectory k t
        p.x = l.x ∧ p.y = l.y ∧ p.yaw = l.yaw ∧ p.velX = l.velX ∧ p.velY = l.velY ∧ p.timestampMicros = l.timestampMicros := by
    intro j
    induction j with
    | zero =>
      intro _
      have hr0 : planReset E splitEnv scen.sim none = .ok es[0].state := hreset
      have hr : reset E.cfg scen.sim = .ok es[0].state.sim := by
        unfold planReset at hr0
        obtain ⟨s0, h1, h2⟩ := bind_eq_ok.1 hr0
        rw [← Except.ok.inj h2]
        exact h1
      have hr := C01_reset_spec hr
      refine ⟨hr.2.2.2.log, hr.2.2.2.objects, by simpa using hr.1, fun t ht => ?_⟩
      have : t.val < E.cfg.initSteps := by rw [hr.1] at ht; omega
      simp only [hr.2.1 k t this]
      exact ⟨trivial, trivial, trivial, trivial, trivial, trivial⟩
    | succ j ih =>
      intro hj
      obtain ⟨hlog, hmd, hts, ih⟩ := ih (by omega)
      have hst : planStep E splitEnv es[j].state es[j].action none = .ok es[j + 1].state := hstep j (by omega)
      have h1 : ((⟨E.cfg.initSteps - 1 + j, by omega⟩ : Fin T) : Int) = es[j].state.sim.timestep := by
        rw [hts]; simp only; omega
      have h2 : ((⟨E.cfg.initSteps + j, by omega⟩ : Fin T) : Int) = es[j].state.sim.timestep + 1 := by
        rw [hts]; simp only; omega
      have hk' : OnlySdc es[j].state.sim.objectMetadata k := by rw [hmd]; exact hk
      obtain ⟨-, b2, -, -, -, -, b7, b8, b9, -⟩ := C45_rest_of_step hst h1 h2 k
      have hmove := C70_planner_moves_sdc_partial hst h1 h2 k ((hk' k).2 rfl) (by
        intro i o ho
        unfold agentOutput at ho
        split at ho
        · rename_i a x q ha hx hq
          rw [← Option.some.inj ho]
          exact hno i a q ha hq _ _ _ hmd
        · cases ho)
      have hao : es[j].action = planningInverse stateDynamics stateToRow stateOfRow (T := 2) (fun i t =>
          if t.val = 0 then dynIndex (es[j].state.sim.simTrajectory i) es[j].state.sim.timestep
          else dynIndex (es[j].state.sim.logTrajectory i) (es[j].state.sim.timestep + 1)) es[j].state.sim.objectMetadata 0 :=
        ((hact j (by omega)).1).symm
      refine ⟨b9.log.trans hlog, b9.objects.trans hmd, by rw [b8, hts]; push_cast; ring, fun t ht => ?_⟩
      by_cases htt : t = ⟨E.cfg.initSteps + j, by omega⟩
      · rw [hE, hao, C74_inverse_is_sdc_action stateDynamics stateOfRow_toRow _ hk'] at hmove
        rw [htt]
        have hd : dynIndex (es[j].state.sim.logTrajectory k) (es[j].state.sim.timestep + 1) =
            scen.sim.logTrajectory k ⟨E.cfg.initSteps + j, by omega⟩ := by
          rw [dynIndex_of_eq _ h2, hlog]
        have hinv : stateDynamics.inverse (α := ℝ) (n := n) (T := 2) (fun i t =>
            if t.val = 0 then dynIndex (es[j].state.sim.simTrajectory i) es[j].state.sim.timestep
            else dynIndex (es[j].state.sim.logTrajectory i) (es[j].state.sim.timestep + 1)) es[j].state.sim.objectMetadata 0 k =
            inferExpertAction es[j].state.sim stateDynamics k := rfl
        rw [hinv] at hmove
        have hu : ∀ cur : Fin n → Pt ℝ, stateDynamics.computeUpdate (fun _ => inferExpertAction es[j].state.sim stateDynamics k) cur k =
            stateUpdate (inferExpertAction es[j].state.sim stateDynamics k) := fun _ => rfl
        rw [hu, expert_update, hd] at hmove
        rw [hlog] at b2
        exact ⟨hmove.1, hmove.2.1, hmove.2.2.1, hmove.2.2.2.1, hmove.2.2.2.2, b2⟩
      · have hlt : (t : Int) ≤ es[j].state.sim.timestep := by
          rw [b8] at ht
          rw [← h2] at ht
          have : t.val ≠ E.cfg.initSteps + j := fun hc => htt (Fin.ext hc)
          rw [← h1]
          simp only at ht ⊢
          omega
        rw [b7 t htt]
        exact ih t hlt
  obtain ⟨k1, -, k3, k4⟩ := key j (by omega)
  exact ⟨k3, k1, k4⟩

/-- The layout of state actions in the rows of arrays is that of `stateRowOf`. -/
theorem stateToRow_rowOf (f : Nat → ℝ) (k : Fin 5) : stateToRow (stateRowOf f) k = f k.val := by
  fin_cases k <;> rfl

theorem stateOfRow_rowOf (f : Nat → ℝ) : stateOfRow (fun k => f k.val) = stateRowOf f := rfl

/-- The same for batches: the SDC of every scenario follows its own log. -/
theorem C122_log_replay {cfg : EnvConfig} (hw : 1 ≤ cfg.initSteps) {agents : List (AgentPair X X' K P n T)}
    (hg : ∀ g ∈ agents, SimAgentNd.Refines g.batch g.single g.params pre Q) {S : StateNd ℝ} (hS : S.Shaped pre n T) {numSteps : Nat}
    (hfit : cfg.initSteps + numSteps ≤ T) (names : List String) (hnames : ∀ k ∈ names, S.Supports pre T k) (computeReward : Bool)
    (rewards : Dict ℝ)
    (hrewards : ∀ e ∈ rewards, e.1 ∈ ["log_divergence", "overlap", "offroad", "kinematic_infeasibility"] ∧ S.Supports pre T e.1)
    {splitEnv : K → Nat → List K} {split : J → J × J} {params : P'} {rng : J} {o : RolloutNd}
    (h : planRolloutNd (envOfPairs (stateNd ℝ) cfg rewards agents) splitEnv builtinMetricsNd names computeReward
      (planExpertNd (stateInverseNd ℝ)) split params S rng numSteps = .ok o)
    {p : List Nat} (hp : InRange pre p) {i : Fin n} (hsdc : OnlySdc (S.scenario n T p).objectMetadata i)
    (hno : ∀ g ∈ agents, SimAgent.LeavesAlone (g.single p) g.params (S.scenario n T p).objectMetadata i) {k : Nat} (hk : k ≤ numSteps) :
    let s := o.state.scenario n T (k :: p)
    s.timestep = cfg.initSteps - 1 + k ∧
    ∀ t : Fin T, (t : Int) ≤ s.timestep →
      (s.simTrajectory i t).x = S.logTrajectory.x.get (p ++ [i.val, t.val]) ∧
      (s.simTrajectory i t).y = S.logTrajectory.y.get (p ++ [i.val, t.val]) ∧
      (s.simTrajectory i t).yaw = S.logTrajectory.yaw.get (p ++ [i.val, t.val]) ∧
      (s.simTrajectory i t).velX = S.logTrajectory.velX.get (p ++ [i.val, t.val]) ∧
      (s.simTrajectory i t).velY = S.logTrajectory.velY.get (p ++ [i.val, t.val]) ∧
      (s.simTrajectory i t).timestampMicros = S.logTrajectory.timestampMicros.get (p ++ [i.val, t.val]) := by
  have hag := C122_expert_rollout (C105_state n) (C120_state_inverse n) stateToRow_rowOf stateOfRow_rowOf cfg hg hS names hnames
    computeReward rewards hrewards splitEnv split params rng numSteps
  rw [h] at hag
  obtain ⟨-, -, -, hag⟩ := hag
  obtain ⟨es, h1, h2, h3⟩ := hag p hp
  have hs := (h3 k (by omega)).state
  have hlog := C122_sdc_follows_log (E := envOfPairsAt stateDynamics cfg rewards agents p) rfl h1 hw hfit hsdc (by
    intro j a q ha hq
    simp only [envOfPairsAt, List.getElem?_map, Option.map_eq_some_iff] at ha hq
    obtain ⟨g, hgj, rfl⟩ := ha
    obtain ⟨g', hgj', rfl⟩ := hq
    obtain rfl := Option.some.inj (hgj.symm.trans hgj')
    exact hno g (List.mem_of_getElem? hgj)) k (by omega)
  intro s
  have hse : s = es[k].state.sim := hs
  rw [hse]
  exact ⟨hlog.1, hlog.2.2⟩

/-! ### Rollouts that succeed -/

omit [NeZero T] in
theorem keysOf_mem_of (names : List String) : ∀ (acc : List String) (k : String), k ∈ acc ∨ k ∈ names → k ∈ keysOf acc names := by
  induction names with
  | nil =>
    rintro acc k (h | h)
    · exact h
    · cases h
  | cons a names ih =>
    intro acc k h
    show k ∈ keysOf (if a ∈ acc then acc else acc ++ [a]) names
    apply ih
    rcases h with h | h
    · left
      split
      · exact h
      · simp [h]
    · rcases List.mem_cons.1 h with rfl | h
      · left
        split
        · assumption
        · simp
      · exact .inr h

omit [NeZero T] in
theorem planSelect_exists {sel : Nd Bool} (hs : sel.shape = pre ++ [n]) (names : List String) (hn : names.Nodup)
    (hobj : ∀ k ∈ names, k ∉ scenarioMetricNames) : ∀ (done : List String) (d : Dict MetricNd), (∀ k ∈ names, k ∉ done) →
    (∀ e ∈ d, e.2.value.shape = (if e.1 ∈ done then pre else pre ++ metricTail n e.1) ∧
      e.2.valid.shape = if e.1 ∈ done then pre else pre ++ metricTail n e.1) →
    ∃ out, names.foldlM (planSelectOneNd sel) d = .ok out := by
  induction names with
  | nil => exact fun done d _ _ => ⟨d, rfl⟩
  | cons k names ih =>
    intro done d hdone hd
    have h1 : ∃ d1, planSelectOneNd sel d k = .ok d1 := by
      unfold planSelectOneNd
      cases hg : d.get? k with
      | none => exact ⟨_, rfl⟩
      | some m =>
        have hmsh := hd _ (get?_mem hg)
        rw [if_neg (hdone k (by simp)), metricTail, if_neg (hobj k (by simp))] at hmsh
        obtain ⟨v, e1, -⟩ := select_ok (rest := []) (x := m.value) (by simpa using hmsh.1) hs
        obtain ⟨w, e2, -⟩ := selectBool_ok (rest := []) (x := m.valid) (by simpa using hmsh.2) hs
        dsimp only
        unfold selectMetricNd
        rw [e1, exc_ok_bind, e2, exc_ok_bind]
        exact ⟨_, rfl⟩
    obtain ⟨d1, h1⟩ := h1
    rw [List.nodup_cons] at hn
    have hsh := planSelect_shapes hs [k] (by simp) (fun k' hk' => hobj k' (by rw [List.mem_singleton.1 hk']; simp)) done d d1 (by
      intro k' hk'
      rw [List.mem_singleton.1 hk']
      exact hdone k (by simp)) hd (by rw [List.foldlM_cons, h1, exc_ok_bind]; rfl)
    obtain ⟨out, h2⟩ := ih hn.2 (fun k hk => hobj k (by simp [hk])) (done ++ [k]) d1 (by
      intro k' hk' hc
      rcases List.mem_append.1 hc with hc | hc
      · exact hdone k' (by simp [hk']) hc
      · rw [List.mem_singleton.1 hc] at hk'
        exact hn.1 hk') hsh.2
    exact ⟨out, by rw [List.foldlM_cons, h1, exc_ok_bind]; exact h2⟩

/-- The built-in metrics never fail in the planning environment when what they need is there. -/
theorem planMetrics_exists {S : StateNd ℝ} (hS : S.Shaped pre n T) (ht : S.timestep.shape = []) (cfg : EnvConfig) (names : List String)
    (hk : ∀ k ∈ names, k ∈ builtinMetricsNd.map Prod.fst ∧ S.Supports pre T k) :
    ∃ out, planMetricsNd builtinMetricsNd cfg names S = .ok out := by
  obtain ⟨d, h1, -⟩ := runMetricsNd_ok builtinMetricsNd S names (by
    intro k hkn
    rcases builtin_reads hS ht (hk k hkn).2 with ⟨h2, -⟩ | ⟨f, m, μ, h2, h3, -⟩
    · exact absurd (hk k hkn).1 ((Dict.get?_none _ _).1 h2)
    · exact ⟨f, m, h2, h3⟩) []
  obtain ⟨k1, s1⟩ := runMetrics_shapes hS ht names (fun k h => (hk k h).2) h1
  have hobj : ∀ k ∈ ["log_divergence", "overlap", "offroad"], k ∉ scenarioMetricNames := by
    intro k hk
    fin_cases hk <;> simp [scenarioMetricNames]
  obtain ⟨d1, h2⟩ := planSelect_exists hS.metadata.isSdc ["log_divergence", "overlap", "offroad"] (by decide) hobj [] d (by simp)
    (by simpa using s1)
  obtain ⟨k2, s2⟩ := planSelect_shapes hS.metadata.isSdc ["log_divergence", "overlap", "offroad"] (by decide) hobj [] d d1 (by simp)
    (by simpa using s1) h2
  have h1' : runMetricsNd builtinMetricsNd S names = .ok d := h1
  unfold planMetricsNd
  rw [h1', exc_ok_bind]
  dsimp only
  rw [h2, exc_ok_bind]
  split
  swap
  · exact ⟨_, rfl⟩
  rename_i hc
  have hmem : "kinematic_infeasibility" ∈ d1.map Prod.fst := by
    rw [k2, k1]
    exact keysOf_mem_of names [] _ (.inr (by simpa using hc))
  cases hg : d1.get? "kinematic_infeasibility" with
  | none => exact absurd hmem ((Dict.get?_none _ _).1 hg)
  | some kim =>
    have hsh := s2 _ (get?_mem hg)
    dsimp only at hsh
    rw [if_neg (by decide), metricTail, if_neg (by decide)] at hsh
    obtain ⟨v', a1, b1, -⟩ := zip_scalar (fun v (b : Bool) => v * if b then (1 : ℝ) else 0) hsh.1
      (y := S.timestep.map fun t => decide (t > (cfg.initSteps : Int) - 1)) ht
    obtain ⟨w', a2, b2, -⟩ := zip_scalar (fun a b : Bool => a && b) hsh.2
      (y := S.timestep.map fun t => decide (t > (cfg.initSteps : Int) - 1)) ht
    obtain ⟨v, e1, -⟩ := select_ok (rest := []) (x := v') (by simpa using b1) hS.metadata.isSdc
    obtain ⟨w, e2, -⟩ := selectBool_ok (rest := []) (x := w') (by simpa using b2) hS.metadata.isSdc
    dsimp only
    rw [a1, exc_ok_bind, a2, exc_ok_bind]
    unfold selectMetricNd
    rw [e1, exc_ok_bind, e2, exc_ok_bind]
    exact ⟨_, rfl⟩

/-- A rollout of a batch under the expert in the planning environment succeeds whenever the warm-up fits into the log, the objects fit
the environment, the metrics are built in and what they need is there; the constructor demands that the SDC is the controlled object. -/
theorem C122_expert_succeeds {dn : DynNd ℝ} {inv : InverseNd ℝ} {dim : Nat} {row : (Nat → ℝ) → D} {d : DynamicsModel ℝ D n}
    (hd : dn.Refines n dim row d) (hi : inv.Refines n dim row d)
    {toRow : D → Fin dim → ℝ} (hrow : ∀ f (k : Fin dim), toRow (row f) k = f k.val) {ofRow : (Fin dim → ℝ) → D}
    (hof : ∀ f, ofRow (fun k => f k.val) = row f) {cfg : EnvConfig} (hn : cfg.maxNumObjects = n) (hc : cfg.controlledObject = .SDC)
    (hw : cfg.initSteps ≤ T) {agents : List (AgentPair X X' K P n T)}
    (hg : ∀ g ∈ agents, SimAgentNd.Refines g.batch g.single g.params pre Q) {S : StateNd ℝ} (hS : S.Shaped pre n T)
    (hb : ∃ p, InRange pre p) (names : List String)
    (hnames : ∀ k ∈ names, k ∈ builtinMetricsNd.map Prod.fst ∧ S.Supports pre T k) (computeReward : Bool) (rewards : Dict ℝ)
    (hrewards : ∀ e ∈ rewards, e.1 ∈ ["log_divergence", "overlap", "offroad", "kinematic_infeasibility"] ∧ S.Supports pre T e.1)
    (splitEnv : K → Nat → List K) (split : J → J × J) (params : P') (rng : J) {numSteps : Nat} (hk : 1 ≤ numSteps) :
    ∃ o, planRolloutNd (envOfPairs dn cfg rewards agents) splitEnv builtinMetricsNd names computeReward (planExpertNd inv) split params S rng
      numSteps = .ok o := by
  obtain ⟨p, hp⟩ := hb
  refine (planRollout_core (R := fun _ _ _ => True) hd cfg hg (C122_expert_actor hi hrow hof params) hS names (fun k hk => (hnames k hk).2) computeReward rewards
    hrewards splitEnv split rng numSteps).2 ?_
  refine rolloutEntries_ok (Gs := fun s => s.sim.Follows S pre n T ∧ ∃ s' : PlanState X' n T, s.Shows pre n T Q p s' ∧
    s'.actorStates.length = agents.length) (Ga := fun a => a.OnePerScenario pre dim) ?_ ?_ (fun a h => ⟨h.data, h.valid⟩) ?_ ?_ ?_ rng hk
  · rintro s a ⟨h1, s', h2, h3⟩ ha
    have hb := C121_step hd cfg rewards hg splitEnv none ha hp h2
    have heq := planStep_eq (envOfPairsAt d cfg rewards agents p) splitEnv s' (a.planner row p) none
    rw [if_neg (by simp [envOfPairsAt, h3])] at heq
    rw [heq] at hb
    rcases hb.cases with ⟨x, y, g1, g2, g3⟩ | ⟨e, -, g2⟩
    · refine ⟨x, g1, planStep_follows hd hg h1 ha g1, y, g3, ?_⟩
      rw [← Except.ok.inj g2]
      simp only [List.length_map]
      have hl : (loopOutputs (envOfPairsAt d cfg rewards agents p) splitEnv s' none).length = agents.length := by
        simp only [loopOutputs, planKeys, envOfPairsAt, List.length_map, List.length_zip, List.length_replicate, h3]
        omega
      exact hl
    · cases g2
  · rintro k s x ⟨h1, -⟩
    obtain ⟨o, e, s1, -⟩ := (C122_expert_actor (T := T) (X := X) (J := J) (Q := Q) hi hrow hof params).select k s x h1.shaped h1.time
    exact ⟨o, e, s1⟩
  · rintro s ⟨h1, -⟩
    exact planMetrics_exists h1.shaped h1.time cfg names fun k hk => ⟨(hnames k hk).1, h1.supports (hnames k hk).2⟩
  · rintro s a ⟨h1, -⟩ ha
    show ∃ r, planRewardNd builtinMetricsNd cfg computeReward rewards s.sim = .ok r
    unfold planRewardNd
    cases computeReward with
    | false => exact ⟨_, rfl⟩
    | true =>
      obtain ⟨m, e1, s1, -⟩ := getControlMaskNd_ok h1.shaped (ct := cfg.controlledObject) (by rw [hc]; simp)
      obtain ⟨r, e2, s2, -⟩ := linearRewardNd_ok (reg := builtinMetrics (n := n) (T := T)) (fun e he => builtin_agrees h1.shaped h1.time
        (h1.supports (hrewards e he).2) (hrewards e he).1) s1 (D := Unit) (fun _ => ⟨(), true⟩)
      obtain ⟨q, e3, -⟩ := select_ok (rest := []) s2 h1.shaped.metadata.isSdc
      rw [if_pos rfl, e1, exc_ok_bind, e2, exc_ok_bind, e3, exc_ok_bind]
      exact ⟨_, rfl⟩
  · have hb := C121_reset dn d cfg rewards hg splitEnv none hS hp
    have hsingle : ∃ y, planReset (envOfPairsAt d cfg rewards agents p) splitEnv (S.scenario n T p) none = .ok y ∧
        y.actorStates.length = agents.length := by
      have hr : ∃ s0, reset cfg (S.scenario n T p) = .ok s0 := by
        rw [reset_eq, if_pos hn, if_pos hw]
        exact ⟨_, rfl⟩
      obtain ⟨s0, hr⟩ := hr
      have heq : planReset (envOfPairsAt d cfg rewards agents p) splitEnv (S.scenario n T p) none = (do
          let sim ← reset cfg (S.scenario n T p)
          return { sim := sim, actorStates := ((planKeys splitEnv none (agents.map fun g => g.single p).length).zip
            (agents.map fun g => g.single p)).map fun x => x.2.init x.1 { sim := sim, actorStates := [] } }) := rfl
      rw [heq, hr, exc_ok_bind]
      refine ⟨_, rfl, ?_⟩
      simp [planKeys]
    obtain ⟨y, hy, hl⟩ := hsingle
    rw [hy] at hb
    rcases hb.cases with ⟨x, y', g1, g2, g3⟩ | ⟨e, -, g2⟩
    · obtain rfl := Except.ok.inj g2
      exact ⟨x, g1, planReset_follows hS g1, y, g3, hl⟩
    · cases g2

end

/-- Two scenarios with two cars each, a frozen sim agent for the cars other than the SDC, two metrics and a reward: the hypotheses of the
theorems hold, the rollout of one step under the expert succeeds, and the SDC of the second scenario follows its log. -/
example : ∃ o, planRolloutNd (envOfPairs (stateNd ℝ) { maxNumObjects := 2, initSteps := 2 } [("overlap", -1)] exDuoAgents)
      (fun _ m => List.replicate m ()) builtinMetricsNd ["log_divergence", "overlap"] true (planExpertNd (stateInverseNd ℝ))
      (fun k : Unit => (k, k)) () exDuo () 1 = .ok o ∧ o.state.shape = [2, 2] ∧ (o.state.scenario 2 3 [1, 1]).timestep = 2 ∧
    ((o.state.scenario 2 3 [1, 1]).simTrajectory 0 2).y = 2 := by
  have hsup : ∀ k, k ∈ ["log_divergence", "overlap"] → exDuo.Supports [2] 3 k := by
    intro k hk
    simp only [List.mem_cons, List.not_mem_nil, or_false] at hk
    rcases hk with rfl | rfl <;> exact ⟨fun h => by simp at h, fun h => by simp [scenarioMetricNames] at h, fun h => by simp at h⟩
  have hrew : ∀ e ∈ ([("overlap", -1)] : Dict ℝ), e.1 ∈ ["log_divergence", "overlap", "offroad", "kinematic_infeasibility"] ∧
      exDuo.Supports [2] 3 e.1 := by
    intro e he
    obtain rfl := List.mem_singleton.1 he
    exact ⟨by simp, hsup _ (by simp)⟩
  obtain ⟨o, ho⟩ := C122_expert_succeeds (C105_state 2) (C120_state_inverse 2) stateToRow_rowOf stateOfRow_rowOf
    (cfg := { maxNumObjects := 2, initSteps := 2 }) rfl rfl (by simp) exDuoAgents_refine exDuo_shaped ⟨[1], .cons (by omega) .nil⟩
    ["log_divergence", "overlap"] (fun k hk => ⟨by fin_cases hk <;> simp [builtinMetricsNd], hsup k hk⟩) true [("overlap", -1)] hrew
    (fun _ m => List.replicate m ()) (fun k : Unit => (k, k)) () () (numSteps := 1) (le_refl _)
  have hag := C122_expert_rollout (C105_state 2) (C120_state_inverse 2) stateToRow_rowOf stateOfRow_rowOf
    { maxNumObjects := 2, initSteps := 2 } exDuoAgents_refine exDuo_shaped ["log_divergence", "overlap"] hsup true [("overlap", -1)] hrew
    (fun _ m => List.replicate m ()) (fun k : Unit => (k, k)) () () 1
  rw [ho] at hag
  obtain ⟨h1, h2⟩ := C122_log_replay (cfg := { maxNumObjects := 2, initSteps := 2 }) (by simp) exDuoAgents_refine exDuo_shaped (numSteps := 1)
    (by simp) ["log_divergence", "overlap"] hsup true [("overlap", -1)] hrew ho (p := [1]) (.cons (by omega) .nil) (i := 0) (by
      intro i
      fin_cases i <;> simp [StateNd.scenario, MetaNd.at_, exDuo]) (by
      intro g hg s x key hmd
      obtain rfl := List.mem_singleton.1 hg
      show (!(s.sim.objectMetadata 0).isSdc) = false
      rw [hmd]
      simp [StateNd.scenario, MetaNd.at_, exDuo]) (k := 1) (le_refl _)
  refine ⟨o, ho, hag.1.shape_eq, by rw [h1]; norm_num, ?_⟩
  rw [(h2 2 (by rw [h1]; norm_num)).2.1]
  simp [exDuo, exDuo.exDuoTraj]

end Waymax
