import Verif.Props.BatchPlanning
import Verif.Props.BatchRolloutAgrees
import Verif.Props.PlanningGaps
/-
C121, continued: metrics, rewards, inverse and the frozen sim agent in the planning environment on batches.
-/

namespace Waymax

section
variable {pre : List Nat} {n T : Nat}

/-! ### Selecting the SDC -/

theorem fin_range_sum (f : Nat → ℝ) (n : Nat) : ((List.range n).map f).sum = ∑ i : Fin n, f i.val := by
  rw [list_sum_range, Finset.sum_range]

/-- `select_by_onehot` on a batch is `select_by_onehot` on each scenario. -/
theorem select_ok {x : Nd ℝ} {sel : Nd Bool} {rest : List Nat} (hx : x.shape = pre ++ n :: rest) (hs : sel.shape = pre ++ [n]) :
    ∃ r, selectByOnehotNd x sel false = .ok r ∧ r.shape = pre ++ rest ∧ ∀ p q, InRange pre p →
      r.get (p ++ q) = selectByOnehot (fun i : Fin n => x.get (p ++ i.val :: q)) fun i => sel.get (p ++ [i.val]) := by
  have hr : sel.shape.length = pre.length + 1 := by rw [hs]; simp
  have htake : x.shape.take (pre.length + 1) = sel.shape := by
    rw [hx, hs, List.take_append]
    simp
  have hn : sel.shape.getD pre.length 0 = n := by rw [hs]; exact getD_append_cons rfl
  have herase : (pre ++ n :: rest).eraseIdx pre.length = pre ++ rest := by
    rw [List.eraseIdx_append_of_length_le (le_refl _)]
    simp
  unfold selectByOnehotNd
  simp only [hr, htake, if_true, Nat.add_sub_cancel, hn, show ¬ (pre.length + 1 = 0) by omega, if_false]
  refine ⟨_, rfl, ?_, ?_⟩
  · simp only [Bool.false_eq_true, if_false]
    rw [hx, herase]
  · intro p q hp
    simp only [Bool.false_eq_true, if_false]
    rw [hp.length, List.take_left, List.drop_left, fin_range_sum]
    rfl

theorem selectBool_ok {x sel : Nd Bool} {rest : List Nat} (hx : x.shape = pre ++ n :: rest) (hs : sel.shape = pre ++ [n]) :
    ∃ r, selectByOnehotBoolNd x sel = .ok r ∧ r.shape = pre ++ rest ∧ ∀ p q, InRange pre p →
      r.get (p ++ q) = selectByOnehotBool (fun i : Fin n => x.get (p ++ i.val :: q)) fun i => sel.get (p ++ [i.val]) := by
  have hr : sel.shape.length = pre.length + 1 := by rw [hs]; simp
  have htake : x.shape.take (pre.length + 1) = sel.shape := by
    rw [hx, hs, List.take_append]
    simp
  have hn : sel.shape.getD pre.length 0 = n := by rw [hs]; exact getD_append_cons rfl
  have herase : (pre ++ n :: rest).eraseIdx pre.length = pre ++ rest := by
    rw [List.eraseIdx_append_of_length_le (le_refl _)]
    simp
  unfold selectByOnehotBoolNd
  simp only [hr, htake, if_true, Nat.add_sub_cancel, hn, show ¬ (pre.length + 1 = 0) by omega, if_false]
  refine ⟨_, rfl, ?_, ?_⟩
  · dsimp only
    rw [hx, herase]
  · intro p q hp
    dsimp only
    rw [hp.length, List.take_left, List.drop_left]
    unfold selectByOnehotBool
    rw [Bool.eq_iff_iff, List.any_eq_true, decide_eq_true_iff]
    constructor
    · rintro ⟨k, hk, h⟩ h0
      have := (Finset.sum_eq_zero_iff.1 h0) ⟨k, List.mem_range.1 hk⟩ (Finset.mem_univ _)
      simp [h] at this
    · intro h0
      obtain ⟨i, -, h⟩ := Finset.exists_ne_zero_of_sum_ne_zero h0
      exact ⟨i.val, List.mem_range.2 i.isLt, by by_contra hc; simp [hc] at h⟩

theorem selectMetric_reads {m : MetricNd} {a : MetricArr n} {p : List Nat} (hp : InRange pre p) (hm : m.Reads pre n p a) {sel : Nd Bool}
    (hs : sel.shape = pre ++ [n]) :
    ExRel (fun m' r => m'.Reads pre n p (.scalar r)) (selectMetricNd m sel) (selectMetricArr a fun i => sel.get (p ++ [i.val])) := by
  unfold selectMetricNd
  cases a with
  | perObject r =>
    obtain ⟨h1, h2, h3⟩ := hm
    obtain ⟨v, e1, s1, g1⟩ := select_ok (rest := []) h1 hs
    obtain ⟨w, e2, s2, g2⟩ := selectBool_ok (rest := []) h2 hs
    rw [e1, exc_ok_bind, e2, exc_ok_bind]
    refine ⟨by simpa using s1, by simpa using s2, ?_⟩
    have a1 := g1 p [] hp
    have a2 := g2 p [] hp
    rw [List.append_nil] at a1 a2
    unfold selectMetric
    rw [a1, a2]
    simp only [h3]
  | scalar r =>
    rw [C84_mismatch]
    · rfl
    · rw [hs, hm.1]
      intro h
      have := h.length_le
      simp at this

/-! ### Metrics -/

theorem MetricsRead.get? {p : List Nat} {ms : Dict MetricNd} {as : Dict (MetricArr n)} (h : MetricsRead pre n p ms as) (k : String) :
    (ms.get? k = none ∧ as.get? k = none) ∨ ∃ m a, ms.get? k = some m ∧ as.get? k = some a ∧ m.Reads pre n p a := by
  unfold Dict.get?
  induction h with
  | nil => exact .inl ⟨rfl, rfl⟩
  | @cons m a ms as h1 _ ih =>
    simp only [List.find?_cons, h1.1]
    by_cases hk : (a.1 == k) = true
    · simp only [hk]
      exact .inr ⟨_, _, rfl, rfl, h1.2⟩
    · rw [Bool.not_eq_true] at hk
      simp only [hk]
      exact ih

theorem planSelect_reads {p : List Nat} (hp : InRange pre p) {sel : Nd Bool} (hs : sel.shape = pre ++ [n]) (names : List String) :
    ∀ {ms : Dict MetricNd} {as : Dict (MetricArr n)}, MetricsRead pre n p ms as → ExRel (MetricsRead pre n p)
      (names.foldlM (planSelectOneNd sel) ms) (names.foldlM (planSelectOne fun i => sel.get (p ++ [i.val])) as) := by
  induction names with
  | nil => exact fun h => h
  | cons k names ih =>
    intro ms as h
    rw [List.foldlM_cons, List.foldlM_cons]
    refine ExRel.bind (Q := MetricsRead pre n p) ?_ fun ms' as' h' => ih h'
    unfold planSelectOneNd planSelectOne
    rcases h.get? k with ⟨h1, h2⟩ | ⟨m, a, h1, h2, h3⟩
    · simp only [h1, h2]
      exact h
    · simp only [h1, h2]
      exact (selectMetric_reads hp h3 hs).bind fun m' r hr => h.set k hr

theorem kim_reads {p : List Nat} (hp : InRange pre p) {m : MetricNd} {a : MetricArr n} (hm : m.Reads pre n p a) {ok : Nd Bool} (hok : ok.shape = []) :
    ∃ v w, Nd.zip (fun v (b : Bool) => v * if b then (1 : ℝ) else 0) m.value ok = .ok v ∧ Nd.zip (fun a b => a && b) m.valid ok = .ok w ∧
      MetricNd.Reads { value := v, valid := w } pre n p (maskKinematic a (ok.get [])) := by
  have key : ∀ sh, m.value.shape = sh → m.valid.shape = sh → ∃ v w,
      Nd.zip (fun v (b : Bool) => v * if b then (1 : ℝ) else 0) m.value ok = .ok v ∧ Nd.zip (fun a b => a && b) m.valid ok = .ok w ∧
      v.shape = sh ∧ w.shape = sh ∧ ∀ q, InRange sh q → v.get q = m.value.get q * (if ok.get [] then 1 else 0) ∧
        w.get q = (m.valid.get q && ok.get []) := by
    intro sh h1 h2
    obtain ⟨v, e1, s1, g1⟩ := zip_scalar (fun v (b : Bool) => v * if b then (1 : ℝ) else 0) h1 hok
    obtain ⟨w, e2, s2, g2⟩ := zip_scalar (fun a b : Bool => a && b) h2 hok
    exact ⟨v, w, e1, e2, s1, s2, fun q hq => ⟨g1 q hq, g2 q hq⟩⟩
  cases a with
  | perObject r =>
    obtain ⟨h1, h2, h3⟩ := hm
    obtain ⟨v, w, e1, e2, s1, s2, g⟩ := key _ h1 h2
    refine ⟨v, w, e1, e2, s1, s2, fun i => ?_⟩
    rw [(g _ (hp.snoc i.isLt)).1, (g _ (hp.snoc i.isLt)).2]
    beta_reduce
    rw [h3]
  | scalar r =>
    obtain ⟨h1, h2, h3⟩ := hm
    obtain ⟨v, w, e1, e2, s1, s2, g⟩ := key _ h1 h2
    refine ⟨v, w, e1, e2, s1, s2, ?_⟩
    rw [(g _ hp).1, (g _ hp).2, h3]

variable [NeZero T]

/-- The metrics of a batch in the planning environment are the metrics of each scenario; they raise when those do. -/
theorem C121_metrics {S : StateNd ℝ} (hS : S.Shaped pre n T) (ht : S.timestep.shape = []) (cfg : EnvConfig) (names : List String)
    (hk : ∀ k ∈ names, S.Supports pre T k) {p : List Nat} (hp : InRange pre p) :
    ExRel (MetricsRead pre n p) (planMetricsNd builtinMetricsNd cfg names S) (planMetrics builtinMetrics cfg names (S.scenario n T p)) := by
  unfold planMetricsNd planMetrics planSelectLoop
  refine (runMetrics_reads hS ht names hk hp).bind fun ms as h => ?_
  refine (planSelect_reads hp hS.metadata.isSdc _ h).bind fun ms as h => ?_
  split
  swap
  · exact h
  have htime : (S.scenario n T p).timestep = S.timestep.get [] := by simp [StateNd.scenario, ht]
  rcases h.get? "kinematic_infeasibility" with ⟨h1, h2⟩ | ⟨m, a, h1, h2, h3⟩
  · simp only [h1, h2]
    rfl
  · obtain ⟨v, w, e1, e2, hm⟩ := kim_reads hp h3 (ok := S.timestep.map fun t => decide (t > (cfg.initSteps : Int) - 1)) ht
    simp only [h1, h2]
    rw [e1, exc_ok_bind, e2, exc_ok_bind, htime]
    exact (selectMetric_reads hp hm hS.metadata.isSdc).bind fun m' r hr => h.set _ hr

/-- The reward of a batch in the planning environment: one number for each scenario, its reward. -/
theorem C121_reward {D X K P : Type} {S : StateNd ℝ} (hS : S.Shaped pre n T) (ht : S.timestep.shape = []) (computeReward : Bool)
    (dn : DynNd ℝ) (cfg : EnvConfig) (rewards : Dict ℝ)
    (hr : ∀ e ∈ rewards, e.1 ∈ ["log_divergence", "overlap", "offroad", "kinematic_infeasibility"] ∧ S.Supports pre T e.1)
    (E : PlanEnv D X K P n T) (hE : E.cfg = cfg ∧ E.rewards = rewards) {p : List Nat} (hp : InRange pre p) (act : Act D) :
    ExRel (fun r r' => r.data.shape = pre ∧ r' = r.data.get p) (planRewardNd builtinMetricsNd cfg computeReward rewards S)
      (planReward builtinMetrics E computeReward (S.scenario n T p) act) := by
  obtain ⟨hE1, hE2⟩ := hE
  unfold planRewardNd planReward
  rw [hE1, hE2]
  cases computeReward with
  | false =>
    refine ⟨?_, rfl⟩
    show S.shape ++ _ = _
    rw [hS.shape_eq]
    exact List.append_nil _
  | true =>
    rw [if_pos rfl, if_pos rfl]
    by_cases hc : cfg.controlledObject = .NON_SDC
    · rw [hc]
      rfl
    · obtain ⟨m, e1, s1, g1⟩ := getControlMaskNd_ok hS (ct := cfg.controlledObject) hc
      obtain ⟨r, e2, s2, -, g2⟩ := linearRewardNd_ok (fun e he => builtin_agrees hS ht (hr e he).2 (hr e he).1) s1 (fun _ : Fin n => act)
      obtain ⟨q, e3, s3, g3⟩ := select_ok (rest := []) s2 hS.metadata.isSdc
      rw [e1, exc_ok_bind, e2, exc_ok_bind, e3, exc_ok_bind, g1 p, exc_ok_bind, g2 p hp]
      refine ⟨by simpa using s3, ?_⟩
      have a1 := g3 p [] hp
      rw [List.append_nil] at a1
      exact a1.symm

/-! ### Inverse -/

/-- The action that `PlanningAgentDynamics.inverse` infers for a batch: for each scenario, the one of that scenario. -/
theorem C121_inverse {D : Type} {inv : InverseNd ℝ} {dim : Nat} {row : (Nat → ℝ) → D} {d : DynamicsModel ℝ D n} (hi : inv.Refines n dim row d)
    {toRow : D → Fin dim → ℝ} (hrow : ∀ f (k : Fin dim), toRow (row f) k = f k.val) {ofRow : (Fin dim → ℝ) → D}
    (hof : ∀ f, ofRow (fun k => f k.val) = row f) (hT : 2 ≤ T) {t : TrajNd ℝ} (ht : t.HasShape (pre ++ [n, T])) {m : MetaNd}
    (hm : m.isSdc.shape = pre ++ [n]) (ts : Int) :
    ∃ a, planningInverseNd inv t m ts = .ok a ∧ a.OnePerScenario pre dim ∧ ∀ p, InRange pre p →
      a.planner row p = planningInverse d toRow ofRow (fun i (k : Fin T) => t.at_ (p ++ [i.val, k.val])) (fun i => m.at_ (p ++ [i.val])) ts := by
  obtain ⟨a, e1, s1, g1⟩ := hi pre T t m ts hT ht
  obtain ⟨v, e2, s2, g2⟩ := select_ok (rest := [dim]) s1.data hm
  obtain ⟨w, e3, s3, g3⟩ := selectBool_ok (rest := [1]) s1.valid hm
  unfold planningInverseNd
  rw [e1, exc_ok_bind, e2, exc_ok_bind, e3, exc_ok_bind]
  refine ⟨_, rfl, ⟨s2, s3⟩, fun p hp => ?_⟩
  have hg := g1 p hp
  unfold planningInverse ActNd.planner selectAction
  dsimp only
  rw [← hg]
  unfold ActNd.scenario
  dsimp only
  simp only [hrow]
  congr 1
  · rw [← hof]
    congr 1
    funext k
    exact g2 p [k.val] hp
  · exact g3 p [0] hp

/-! ### A sim agent -/

/-- `FrozenSimPolicy`, and any `SimAgentActor` whose update of a batch is the update of each scenario. -/
theorem C121_sim_agent {K P : Type} (params : P) {ctl : StateNd ℝ → Nd Bool} {ctl' : SimState ℝ n T → Fin n → Bool}
    {upd : StateNd ℝ → Except Err (UpdNd ℝ)} {upd' : SimState ℝ n T → Fin n → Upd ℝ}
    (hc : ∀ S : StateNd ℝ, S.Shaped pre n T → S.timestep.shape = [] → (ctl S).shape = pre ++ [n] ∧
      ∀ p, InRange pre p → ∀ i : Fin n, (ctl S).get (p ++ [i.val]) = ctl' (S.scenario n T p) i)
    (hu : ∀ S : StateNd ℝ, S.Shaped pre n T → S.timestep.shape = [] → ∃ u, upd S = .ok u ∧ u.HasShape (pre ++ [n, 1]) ∧
      ∀ p, InRange pre p → ∀ i : Fin n, u.at_ (p ++ [i.val, 0]) = upd' (S.scenario n T p) i) :
    SimAgentNd.Refines (simAgentNd ctl upd : SimAgentNd Unit K P) (fun _ => simAgent ctl' upd') params pre fun _ _ _ => True where
  init := fun _ _ _ _ _ _ => trivial
  select := fun key s x hs ht => by
    obtain ⟨u, e1, s1, g1⟩ := hu s.sim hs ht
    obtain ⟨a, e2, s2, g2⟩ := asAction_ok s1
    obtain ⟨c1, c2⟩ := hc s.sim hs ht
    refine ⟨{ actorState := (), action := a, isControlled := ctl s.sim }, ?_, s2, c1, fun p s' x' hp hsh _ => ⟨?_, fun i => ?_, trivial⟩⟩
    · unfold simAgentNd
      dsimp only
      rw [e1, exc_ok_bind, e2]
      rfl
    · rw [g2 p]
      funext i
      rw [g1 p hp i, ← hsh.sim]
      rfl
    · rw [c2 p hp i, ← hsh.sim]
      rfl

theorem C121_frozen {K P : Type} (params : P) :
    SimAgentNd.Refines (n := n) (T := T) (simAgentNd defaultControlNd frozenUpdateNd : SimAgentNd Unit K P)
      (fun _ => simAgent defaultControlFunc frozenUpdate) params pre fun _ _ _ => True :=
  C121_sim_agent params (fun S hS _ => ⟨hS.metadata.isSdc, fun p _ i => rfl⟩) fun S hS ht => by
    obtain ⟨cur, e1, s1, g1⟩ := slice_traj hS.sim ht
    unfold frozenUpdateNd
    rw [e1, exc_ok_bind]
    refine ⟨_, rfl, ⟨s1.x, s1.y, s1.yaw, s1.velX, s1.velY, s1.valid⟩, fun p hp i => ?_⟩
    have h := g1 p hp i
    unfold frozenUpdate
    have htime : (S.scenario n T p).timestep = S.timestep.get [] := by simp [StateNd.scenario, ht]
    dsimp only
    rw [htime]
    unfold StateNd.scenario
    dsimp only
    rw [← h]
    rfl

end

/-! ### A concrete case -/

/-- Two scenarios with two cars each; in scenario `b`, car `i` is at `x = 10 i + 100 b`. Car 0 is the SDC. -/
noncomputable def exDuo : StateNd ℝ where
  simTrajectory := exDuoTraj
  logTrajectory := exDuoTraj
  logTrafficLight := { shape := [2, 0, 3], get := fun _ => ⟨0, 0, 0, 0, 0, false⟩ }
  objectMetadata :=
    { ids := { shape := [2, 2], get := fun idx => (idx.getD 1 0 : Int) }, objectTypes := { shape := [2, 2], get := fun _ => 1 }
      isSdc := { shape := [2, 2], get := fun idx => decide (idx.getD 1 0 = 0) }, isModeled := { shape := [2, 2], get := fun _ => true }
      isValid := { shape := [2, 2], get := fun _ => true }, objectsOfInterest := { shape := [2, 2], get := fun _ => false }
      isControlled := { shape := [2, 2], get := fun _ => false } }
  timestep := Nd.scalar 0
  sdcPaths := none
  roadgraphPoints := none
where
  exDuoTraj : TrajNd ℝ :=
    { x := { shape := [2, 2, 3], get := fun idx => 10 * (idx.getD 1 0 : ℝ) + 100 * (idx.getD 0 0 : ℝ) }
      y := { shape := [2, 2, 3], get := fun idx => (idx.getD 2 0 : ℝ) }
      z := { shape := [2, 2, 3], get := fun _ => 0 }, velX := { shape := [2, 2, 3], get := fun _ => 0 }
      velY := { shape := [2, 2, 3], get := fun _ => 10 }, yaw := { shape := [2, 2, 3], get := fun _ => 0 }
      valid := { shape := [2, 2, 3], get := fun _ => true }, timestampMicros := { shape := [2, 2, 3], get := fun _ => 0 }
      length := { shape := [2, 2, 3], get := fun _ => 4 }, width := { shape := [2, 2, 3], get := fun _ => 2 }
      height := { shape := [2, 2, 3], get := fun _ => 1 } }

theorem exDuo_shaped : exDuo.Shaped [2] 2 3 :=
  ⟨⟨rfl, rfl, rfl, rfl, rfl, rfl, rfl, rfl, rfl, rfl, rfl⟩, ⟨rfl, rfl, rfl, rfl, rfl, rfl, rfl, rfl, rfl, rfl, rfl⟩,
    ⟨rfl, rfl, rfl, rfl, rfl, rfl, rfl⟩⟩

/-- One state action for each scenario: `x = 7 + b`. -/
noncomputable def exDuoAct : ActNd ℝ where
  data := { shape := [2, 5], get := fun idx => if idx.getD 1 0 = 0 then 7 + (idx.getD 0 0 : ℝ) else 0 }
  valid := { shape := [2, 1], get := fun _ => true }

theorem exDuoAct_shaped : exDuoAct.OnePerScenario [2] 5 := ⟨rfl, rfl⟩

/-- A frozen sim agent for all cars but the SDC. -/
noncomputable def exDuoAgents : List (AgentPair Unit Unit Unit Unit 2 3) :=
  [{ batch := simAgentNd defaultControlNd frozenUpdateNd, single := fun _ => simAgent defaultControlFunc frozenUpdate, params := () }]

theorem exDuoAgents_refine : ∀ g ∈ exDuoAgents, SimAgentNd.Refines g.batch g.single g.params [2] fun _ _ _ => True := by
  intro g hg
  obtain rfl := List.mem_singleton.1 hg
  exact C121_frozen ()

/-- `reset` and a step of the batch succeed, and move the SDC of the second scenario to the place in its action. -/
example : ∃ s0 s1, planResetNd (envOfPairs (stateNd ℝ) { maxNumObjects := 2, initSteps := 2 } [] exDuoAgents) (fun _ m => List.replicate m ())
      exDuo none = .ok s0 ∧
    planStepNd (envOfPairs (stateNd ℝ) { maxNumObjects := 2, initSteps := 2 } [] exDuoAgents) (fun _ m => List.replicate m ()) s0 exDuoAct none =
      .ok s1 ∧ ((s1.sim.scenario 2 3 [1]).simTrajectory 0 2).x = 8 := by
  have hp : InRange [2] [1] := .cons (by omega) .nil
  have hr := C121_reset (stateNd ℝ) stateDynamics { maxNumObjects := 2, initSteps := 2 } [] exDuoAgents_refine
    (fun _ m => List.replicate m ()) none exDuo_shaped hp
  rw [show envOfPairsAt stateDynamics { maxNumObjects := 2, initSteps := 2 } [] exDuoAgents [1] =
    pushEnv [simAgent defaultControlFunc frozenUpdate] from rfl, reset_push] at hr
  rcases hr.cases with ⟨s0, s0', h1, h2, h3⟩ | ⟨e, -, h2⟩
  swap
  · cases h2
  have hst := C121_step (C105_state 2) { maxNumObjects := 2, initSteps := 2 } [] exDuoAgents_refine
    (fun _ m => List.replicate m ()) none exDuoAct_shaped hp h3
  rcases hst.cases with ⟨s1, s1', g1, g2, g3⟩ | ⟨e, -, g2⟩
  · refine ⟨s0, s1, h1, g1, ?_⟩
    obtain rfl := Except.ok.inj h2
    have hm := (C70_planner_moves_sdc_partial g2 (t := 1) (t' := 2) rfl rfl 0 rfl (by
      intro k o ho
      cases k with
      | zero =>
        have := Option.some.inj ho
        rw [← this]
        rfl
      | succ k => cases ho)).1
    rw [g3.sim] at hm
    rw [hm]
    show (7 : ℝ) + ((1 : Nat) : ℝ) = 8
    norm_num
  · obtain rfl := Except.ok.inj h2
    exact absurd ((C45_fails_iff _ _ _ _ _).1 ⟨e, g2⟩) (by simp [envOfPairsAt, exDuoAgents])

/-- Two metrics in the planning environment for this batch: one number for each scenario. -/
example : ∃ d, planMetricsNd builtinMetricsNd { maxNumObjects := 2, initSteps := 2 } ["log_divergence", "overlap"] exDuo = .ok d ∧
    d.map Prod.fst = ["log_divergence", "overlap"] := by
  have hp : InRange [2] [1] := .cons (by omega) .nil
  have h := C121_metrics exDuo_shaped rfl { maxNumObjects := 2, initSteps := 2 } ["log_divergence", "overlap"] (by
    intro k hk
    simp only [List.mem_cons, List.not_mem_nil, or_false] at hk
    rcases hk with rfl | rfl <;> exact ⟨fun h => by simp at h, fun h => by simp [scenarioMetricNames] at h, fun h => by simp at h⟩) hp
  rcases h.cases with ⟨d, d', h1, h2, h3⟩ | ⟨e, -, h2⟩
  · refine ⟨d, h1, ?_⟩
    have hk : d.map Prod.fst = d'.map Prod.fst := by
      clear h1 h2
      unfold MetricsRead at h3
      induction h3 with
      | nil => rfl
      | cons h _ ih => rw [List.map_cons, List.map_cons, h.1, ih]
    rw [hk]
    simp [planMetrics, planSelectLoop, runMetrics, builtinMetrics, Dict.get?, Dict.set, Dict.has, planSelectOne, selectMetricArr, bind, Except.bind,
      pure, Except.pure] at h2
    rw [← h2]
    rfl
  · simp [planMetrics, planSelectLoop, runMetrics, builtinMetrics, Dict.get?, Dict.set, Dict.has, planSelectOne, selectMetricArr, bind, Except.bind,
      pure, Except.pure] at h2

end Waymax
