import Verif.Props.BatchRolloutAgrees
import Verif.Props.BatchTime
/-
C120, continued: rollouts of the expert, and batches that follow their logs.
-/

namespace Waymax

section
variable {S A O M R X K P C : Type}

/-- A rollout of at least one step succeeds when every part does on the states that occur. -/
theorem rolloutEntries_ok {E : RolloutEnv S A O M R} {act : RaisingActor S A X K P C} {split : K → K × K} {params : P} {z : A → A}
    {Gs : S → Prop} {Ga : A → Prop} (hstep : ∀ s a, Gs s → Ga a → ∃ s', E.step s a = .ok s' ∧ Gs s')
    (hsel : ∀ k s x, Gs s → ∃ o, act.selectAction params s x k = .ok o ∧ Ga o.action) (hz : ∀ a, Ga a → Ga (z a))
    (hmet : ∀ s, Gs s → ∃ m, E.metrics s = .ok m) (hrew : ∀ s a, Gs s → Ga a → ∃ r, E.reward s a = .ok r) {s : S}
    (hreset : ∃ s', E.reset s = .ok s' ∧ Gs s') (rng : K) {k : Nat} (hk : 1 ≤ k) :
    ∃ es, rolloutEntries E act split params z s rng k = .ok es := by
  have hscan : ∀ k c, Gs c.state → ∃ r, scan (rolloutStepE E act split params) k c = .ok r ∧ r.2.length = k ∧ Gs r.1.state ∧
      ∀ e ∈ r.2, Ga e.action := by
    intro k
    induction k with
    | zero => exact fun c hc => ⟨_, rfl, rfl, hc, by simp⟩
    | succ k ih =>
      intro c hc
      obtain ⟨o, e1, ha⟩ := hsel (split c.rng).1 c.state c.actorState hc
      obtain ⟨s', e2, hs⟩ := hstep _ _ hc ha
      obtain ⟨m, e3⟩ := hmet _ hc
      obtain ⟨w, e4⟩ := hrew _ _ hc ha
      have h1 : rolloutStepE E act split params c = .ok (⟨s', E.observe s', (split c.rng).2, o.actorState⟩,
          ⟨o.action, c.state, c.observation, m, w⟩) := by
        unfold rolloutStepE
        rw [e1, exc_ok_bind, e2, exc_ok_bind, e3, exc_ok_bind, e4, exc_ok_bind]
        rfl
      obtain ⟨r, h2, h3, h4, h5⟩ := ih ⟨s', E.observe s', (split c.rng).2, o.actorState⟩ hs
      refine ⟨(r.1, ⟨o.action, c.state, c.observation, m, w⟩ :: r.2), ?_, ?_, h4, ?_⟩
      · unfold scan
        rw [h1, exc_ok_bind]
        dsimp only
        rw [h2, exc_ok_bind]
        rfl
      · simp [h3]
      · intro e he
        rcases List.mem_cons.1 he with rfl | he
        · exact ha
        · exact h5 e he
  obtain ⟨s0, e0, h0⟩ := hreset
  obtain ⟨r, h1, h2, h3, h4⟩ := hscan k ⟨s0, E.observe s0, (split rng).2, act.init (split rng).1 s0⟩ h0
  unfold rolloutEntries
  rw [e0, exc_ok_bind]
  dsimp only
  rw [h1, exc_ok_bind]
  cases hl : r.2.getLast? with
  | none =>
    rw [List.getLast?_eq_none_iff] at hl
    rw [hl] at h2
    simp at h2
    omega
  | some y =>
    have hy := hz _ (h4 y (List.mem_of_getLast? hl))
    obtain ⟨m, e3⟩ := hmet _ h3
    obtain ⟨w, e4⟩ := hrew _ _ h3 hy
    dsimp only
    rw [e3, exc_ok_bind, e4, exc_ok_bind]
    exact ⟨_, rfl⟩

end

section
variable {pre : List Nat} {n T : Nat} [NeZero T]

/-- The expert for batches is the expert for each scenario. -/
theorem C120_expert_actor {K P D : Type} {inv : InverseNd ℝ} {dim : Nat} {row : (Nat → ℝ) → D} {d : DynamicsModel ℝ D n}
    (hi : inv.Refines n dim row d) (mask : StateNd ℝ → Nd Bool) (mask' : SimState ℝ n T → Fin n → Bool) (params : P) :
    (expertActorNd (K := K) inv mask).Refines (fun _ => expertActor (n := n) (T := T) d mask') params pre dim row fun _ _ _ => True := by
  refine ⟨fun _ _ _ _ _ _ => trivial, fun k S x h ht => ?_⟩
  obtain ⟨a, e1, s1, g1⟩ := C120_expert_action hi h ht
  refine ⟨{ actorState := (), action := a, isControlled := mask S }, ?_, s1, fun p hp _ _ => ⟨g1 p hp, trivial⟩⟩
  unfold expertActorNd
  dsimp only
  rw [e1, exc_ok_bind]
  rfl

/-- `rollout_log_by_expert_sdc` on a batch, for any dynamics with the built-in metrics, is the same rollout of each scenario. -/
theorem C120_expert_rollout {D : Type} {dn : DynNd ℝ} {inv : InverseNd ℝ} {dim : Nat} {row : (Nat → ℝ) → D} {d : DynamicsModel ℝ D n}
    (hd : dn.Refines n dim row d) (hi : inv.Refines n dim row d) (cfg : EnvConfig) {S : StateNd ℝ} (hS : S.Shaped pre n T)
    (names : List String) (hnames : ∀ k ∈ names, S.Supports pre T k) (computeReward : Bool) (rewards : Dict ℝ)
    (hrewards : ∀ e ∈ rewards, e.1 ∈ ["log_divergence", "overlap", "offroad", "kinematic_infeasibility"] ∧ S.Supports pre T e.1)
    (numSteps : Nat) :
    RolloutAgrees pre n T dim row (numSteps + 1)
      (rolloutLogByExpertSdcNd (baseEnvNd dn cfg builtinMetricsNd names computeReward rewards) inv S numSteps)
      fun p => rollout (baseEnv d cfg (envMetrics builtinMetrics names) (envReward builtinMetrics cfg computeReward rewards))
        (expertActor d fun s i => (s.objectMetadata i).isSdc) (fun k : Unit => (k, k)) () (zeroActions row n) (S.scenario n T p) () numSteps :=
  C120_rollout hd (C120_expert_actor hi _ _ ()) cfg hS names hnames computeReward rewards hrewards _ () numSteps

theorem stepNd_exists {D : Type} {dn : DynNd ℝ} {dim : Nat} {row : (Nat → ℝ) → D} {d : DynamicsModel ℝ D n} (hd : dn.Refines n dim row d)
    {cfg : EnvConfig} (hc : cfg.controlledObject ≠ .NON_SDC) {s : StateNd ℝ} (h : s.Shaped pre n T) (ht : s.timestep.shape = [])
    {a : ActNd ℝ} (ha : a.Shaped pre n dim) : ∃ s', stepNd dn cfg s a = .ok s' := by
  unfold stepNd
  have hm : ∃ m, envControlMaskNd cfg s = .ok m ∧ m.shape = pre ++ [n] := by
    rcases controlMask_batch cfg h with ⟨m, e, s, -⟩ | ⟨e, he, -⟩
    · exact ⟨m, e, s⟩
    · exfalso
      have hok : ∃ m, envControlMaskNd cfg s = .ok m := by
        unfold envControlMaskNd at he ⊢
        split
        · rename_i hv
          rw [if_pos hv] at he
          have hT : 1 ≤ T := Nat.one_le_iff_ne_zero.mpr (NeZero.ne T)
          unfold Nd.dynIndexV
          rw [h.sim.valid, snoc2, normAxis_last', exc_ok_bind, getD_snoc]
          dsimp only
          rw [assertThat_ok hT, exc_ok_bind]
          exact ⟨_, rfl⟩
        · obtain ⟨m, e, -⟩ := getControlMaskNd_ok h hc
          exact ⟨m, e⟩
      obtain ⟨m, e⟩ := hok
      rw [e] at he
      cases he
  obtain ⟨m, e, s1⟩ := hm
  obtain ⟨t', e2, -⟩ := forward_batch hd ha h.sim h.log s1 ht cfg.allowNewObjectsAfterWarmup
  rw [e, exc_ok_bind, e2, exc_ok_bind]
  exact ⟨_, rfl⟩

/-- A rollout of a batch under the expert succeeds whenever the warm-up fits into the log, the objects fit the environment, the metrics
are built in and what they need is there. It has one entry more than steps. -/
theorem C120_expert_succeeds {D : Type} {dn : DynNd ℝ} {inv : InverseNd ℝ} {dim : Nat} {row : (Nat → ℝ) → D} {d : DynamicsModel ℝ D n}
    (hd : dn.Refines n dim row d) (hi : inv.Refines n dim row d) {cfg : EnvConfig} (hn : cfg.maxNumObjects = n)
    (hc : cfg.controlledObject ≠ .NON_SDC) (hw : cfg.initSteps ≤ T) {S : StateNd ℝ} (hS : S.Shaped pre n T) (hb : ∃ p, InRange pre p)
    (names : List String) (hnames : ∀ k ∈ names, k ∈ builtinMetricsNd.map Prod.fst ∧ S.Supports pre T k) (computeReward : Bool) (rewards : Dict ℝ)
    (hrewards : ∀ e ∈ rewards, e.1 ∈ ["log_divergence", "overlap", "offroad", "kinematic_infeasibility"] ∧ S.Supports pre T e.1)
    {numSteps : Nat} (hk : 1 ≤ numSteps) :
    ∃ o, rolloutLogByExpertSdcNd (baseEnvNd dn cfg builtinMetricsNd names computeReward rewards) inv S numSteps = .ok o := by
  obtain ⟨p, hp⟩ := hb
  have hreset : ∃ s', resetNd cfg S = .ok s' := by
    have h := C105_reset cfg hS
    cases hr : resetNd cfg S with
    | ok s => exact ⟨s, rfl⟩
    | error e =>
      rw [hr] at h
      have h1 := h p hp
      simp only [reset_eq, hn, if_true, hw] at h1
      simp at h1
  have hent : ∃ es, rolloutEntries (baseEnvNd dn cfg builtinMetricsNd names computeReward rewards)
      (expertActorNd inv fun s => s.objectMetadata.isSdc) (fun k : Unit => (k, k)) () ActNd.zerosLike S () numSteps = .ok es := by
    refine rolloutEntries_ok (Gs := fun s => s.Follows S pre n T) (Ga := fun a => a.Shaped pre n dim) ?_ ?_ (fun a h => ⟨h.data, h.valid⟩)
      ?_ ?_ ?_ () hk
    · intro s a h1 h2
      obtain ⟨s', e⟩ := stepNd_exists hd hc h1.shaped h1.time h2 (cfg := cfg)
      exact ⟨s', e, step_follows hd h1 h2 e⟩
    · intro k s x h1
      obtain ⟨o, e, s1, -⟩ := (C120_expert_actor (T := T) (K := Unit) hi (fun s => s.objectMetadata.isSdc) (fun _ _ => true) ()).select k s x
        h1.shaped h1.time
      exact ⟨o, e, s1⟩
    · intro s h1
      obtain ⟨out, e, -⟩ := runMetricsNd_ok builtinMetricsNd s names (by
        intro k hk
        rcases builtin_reads h1.shaped h1.time (h1.supports (hnames k hk).2) with ⟨h2, -⟩ | ⟨f, m, μ, h2, h3, -⟩
        · exact absurd (hnames k hk).1 ((Dict.get?_none _ _).1 h2)
        · exact ⟨f, m, h2, h3⟩) []
      exact ⟨out, e⟩
    · intro s a h1 h2
      rcases reward_cases h1.shaped h1.time hn computeReward (fun e he => ⟨(hrewards e he).1, h1.supports (hrewards e he).2⟩) (D := D) with
        ⟨r, e1, -⟩ | ⟨e, e1, g1⟩
      · exact ⟨r, e1⟩
      · exfalso
        unfold baseRewardNd at e1
        cases computeReward with
        | false => cases e1
        | true =>
          obtain ⟨m, e2, s2, -⟩ := getControlMaskNd_ok h1.shaped hc
          obtain ⟨r, e3, -⟩ := linearRewardNd_ok (reg := builtinMetrics (n := n) (T := T)) (fun e he => builtin_agrees h1.shaped h1.time
            (h1.supports (hrewards e he).2) (hrewards e he).1) s2 (D := Unit) (fun _ => ⟨(), true⟩)
          rw [if_pos rfl, e2, exc_ok_bind, e3] at e1
          cases e1
    · obtain ⟨s', e⟩ := hreset
      exact ⟨s', e, (reset_follows hS e).1⟩
  exact (rollout_core hd (C120_expert_actor hi _ (fun _ _ => true) ()) cfg hS names (fun k hk => (hnames k hk).2) computeReward rewards hrewards _ ()
    numSteps).2 hent

/-- With state dynamics every scenario of the batch follows its own log: at every entry of the rollout, up to the entry's time step, the
simulated pose, velocity and time stamp of every object are the logged ones. -/
theorem C120_log_replay {cfg : EnvConfig} (hw : 1 ≤ cfg.initSteps) {S : StateNd ℝ} (hS : S.Shaped pre n T) {numSteps : Nat}
    (hfit : cfg.initSteps + numSteps ≤ T) (names : List String) (hnames : ∀ k ∈ names, S.Supports pre T k) (computeReward : Bool)
    (rewards : Dict ℝ)
    (hrewards : ∀ e ∈ rewards, e.1 ∈ ["log_divergence", "overlap", "offroad", "kinematic_infeasibility"] ∧ S.Supports pre T e.1)
    {o : RolloutNd} (h : rolloutLogByExpertSdcNd (baseEnvNd (stateNd ℝ) cfg builtinMetricsNd names computeReward rewards) (stateInverseNd ℝ) S
      numSteps = .ok o) {k : Nat} (hk : k ≤ numSteps) {p : List Nat} (hp : InRange pre p) :
    let s := o.state.scenario n T (k :: p)
    s.timestep = cfg.initSteps - 1 + k ∧
    ∀ (i : Fin n) (t : Fin T), (t : Int) ≤ s.timestep →
      (s.simTrajectory i t).x = S.logTrajectory.x.get (p ++ [i.val, t.val]) ∧
      (s.simTrajectory i t).y = S.logTrajectory.y.get (p ++ [i.val, t.val]) ∧
      (s.simTrajectory i t).yaw = S.logTrajectory.yaw.get (p ++ [i.val, t.val]) ∧
      (s.simTrajectory i t).velX = S.logTrajectory.velX.get (p ++ [i.val, t.val]) ∧
      (s.simTrajectory i t).velY = S.logTrajectory.velY.get (p ++ [i.val, t.val]) ∧
      (s.simTrajectory i t).timestampMicros = S.logTrajectory.timestampMicros.get (p ++ [i.val, t.val]) := by
  have hag := C120_expert_rollout (C105_state n) (C120_state_inverse n) cfg hS names hnames computeReward rewards hrewards numSteps
  rw [h] at hag
  obtain ⟨-, -, -, hag⟩ := hag
  obtain ⟨es, h1, h2, h3⟩ := hag p hp
  have hs := (h3 k (by omega)).state
  intro s
  have hse : s = es[k].state := hs
  refine ⟨?_, fun i t ht => ?_⟩
  · rw [hse]
    obtain ⟨-, hlen, hreset, hstep, -⟩ := C14_rollout_spec h1
    have key : ∀ j (hj : j ≤ numSteps), es[j].state.timestep = (cfg.initSteps : Int) - 1 + j := by
      intro j
      induction j with
      | zero => exact fun _ => by rw [(C01_reset_spec hreset).1]; simp
      | succ j ih =>
        intro hj
        have hs := hstep j (by omega)
        obtain ⟨m, -, heq⟩ := step_ok hs
        rw [heq]
        simp only [ih (by omega)]
        push_cast
        ring
    exact key k hk
  · have := C13_expert_rollout_reproduces_log h1 hw hfit k (by omega) i t (by rw [← hse]; exact ht)
    rw [hse]
    exact this

end

/-- Two scenarios with a road and paths, all seven built-in metrics and two reward terms: the hypotheses of the theorems hold, the rollout
of two steps under the expert succeeds, and both scenarios follow their logs. -/
example : ∃ o, rolloutLogByExpertSdcNd (baseEnvNd (stateNd ℝ) { maxNumObjects := 1, initSteps := 1 } builtinMetricsNd
      (builtinMetricsNd.map Prod.fst) true [("overlap", -1), ("kinematic_infeasibility", -1)]) (stateInverseNd ℝ) exTwoMap 2 = .ok o ∧
    o.state.shape = [3, 2] ∧ (o.state.scenario 1 3 [2, 1]).timestep = 2 ∧ ((o.state.scenario 1 3 [2, 1]).simTrajectory 0 2).x = 3 ∧
    ((o.state.scenario 1 3 [1, 0]).simTrajectory 0 1).x = 1 := by
  have hsup : ∀ k, exTwoMap.Supports [2] 3 k := fun k =>
    ⟨fun _ => ⟨1, one_pos, exTwoMap_roadgraph⟩, fun _ => ⟨1, 1, one_pos, one_pos, exTwoMap_paths⟩, fun _ => by omega⟩
  have hrew : ∀ e ∈ ([("overlap", -1), ("kinematic_infeasibility", -1)] : Dict ℝ),
      e.1 ∈ ["log_divergence", "overlap", "offroad", "kinematic_infeasibility"] ∧ exTwoMap.Supports [2] 3 e.1 := by
    intro e he
    refine ⟨?_, hsup _⟩
    simp only [List.mem_cons, List.not_mem_nil, or_false] at he
    rcases he with rfl | rfl <;> simp
  obtain ⟨o, ho⟩ := C120_expert_succeeds (C105_state 1) (C120_state_inverse 1) (cfg := { maxNumObjects := 1, initSteps := 1 }) rfl (by simp)
    (by simp) exTwoMap_shaped ⟨[0], .cons (by omega) .nil⟩ (builtinMetricsNd.map Prod.fst) (fun k hk => ⟨hk, hsup k⟩) true
    [("overlap", -1), ("kinematic_infeasibility", -1)] hrew (numSteps := 2) (by omega)
  have hag := C120_expert_rollout (C105_state 1) (C120_state_inverse 1) { maxNumObjects := 1, initSteps := 1 } exTwoMap_shaped
    (builtinMetricsNd.map Prod.fst) (fun k _ => hsup k) true [("overlap", -1), ("kinematic_infeasibility", -1)] hrew 2
  rw [ho] at hag
  obtain ⟨h1, h2⟩ := C120_log_replay (cfg := { maxNumObjects := 1, initSteps := 1 }) (by simp) exTwoMap_shaped (numSteps := 2) (by simp)
    (builtinMetricsNd.map Prod.fst) (fun k _ => hsup k) true [("overlap", -1), ("kinematic_infeasibility", -1)] hrew ho (k := 2) (by omega)
    (p := [1]) (.cons (by omega) .nil)
  obtain ⟨h3, h4⟩ := C120_log_replay (cfg := { maxNumObjects := 1, initSteps := 1 }) (by simp) exTwoMap_shaped (numSteps := 2) (by simp)
    (builtinMetricsNd.map Prod.fst) (fun k _ => hsup k) true [("overlap", -1), ("kinematic_infeasibility", -1)] hrew ho (k := 1) (by omega)
    (p := [0]) (.cons (by omega) .nil)
  refine ⟨o, ho, hag.1.shape_eq, by rw [h1]; simp, ?_, ?_⟩
  · rw [(h2 0 2 (by rw [h1]; simp)).1]
    simp [exTwoMap, exTwo]
    norm_num
  · rw [(h4 0 1 (by rw [h3]; simp)).1]
    simp [exTwoMap, exTwo]

end Waymax
