import Verif.Props.Planning
import Verif.Props.Bicycle
/-
C71, C72: metrics and reward of the planning environment (real arithmetic).
-/

namespace Waymax

section
variable {n T : Nat}

theorem selectMetric_eq {r : Fin n → MetricResult} {sel : Fin n → Bool} {k : Fin n} (h : ∀ i, sel i = true ↔ i = k) :
    selectMetric r sel = r k := by
  unfold selectMetric
  rw [selectByOnehot_eq _ sel k h, selectByOnehotBool_eq _ sel k h]

theorem planSelectOne_spec {sel : Fin n → Bool} {k : Fin n} (hk : ∀ i, sel i = true ↔ i = k) {d d' : Dict (MetricArr n)}
    {name : String} (h : planSelectOne sel d name = .ok d') :
    (∀ q, q ≠ name → d'.get? q = d.get? q) ∧
    (∀ v, d.get? name = some v → ∃ r, v = .perObject r ∧ d'.get? name = some (.scalar (r k))) ∧
    (∀ q, q ∈ d'.map Prod.fst ↔ q ∈ d.map Prod.fst) := by
  unfold planSelectOne at h
  cases hg : d.get? name with
  | none =>
    simp only [hg, Except.ok.injEq] at h
    subst h
    exact ⟨fun _ _ => rfl, fun v hv => by simp at hv, fun _ => Iff.rfl⟩
  | some v =>
    simp only [hg] at h
    cases v with
    | scalar r => simp [selectMetricArr, bind, Except.bind] at h
    | perObject r =>
      simp only [selectMetricArr, bind, Except.bind, pure, Except.pure, Except.ok.injEq, selectMetric_eq hk] at h
      subst h
      refine ⟨fun q hq => by rw [Dict.get?_set, if_neg hq], fun v hv => ?_, fun q => ?_⟩
      · cases hv
        exact ⟨r, rfl, by rw [Dict.get?_set, if_pos rfl]⟩
      · rw [Dict.mem_set]
        refine ⟨fun h => h.elim id fun e => ?_, Or.inl⟩
        rw [e]
        exact (Dict.get?_isSome _ _).1 ⟨_, hg⟩

/-- What the planning environment reports. The configured names are exactly the reported ones. `log_divergence`, `overlap` and
`offroad` are the SDC's entries of the full metrics; `kinematic_infeasibility` too, but it is 0 and invalid until the first
step has been taken; any other metric is reported as it is. -/
theorem C71_planning_metrics {reg : Dict (Metric n T)} {cfg : EnvConfig} {names : List String} {s : SimState ℝ n T}
    {out : Dict (MetricArr n)} {k : Fin n} (hk : OnlySdc s.objectMetadata k)
    (h : planMetrics reg cfg names s = .ok out) :
    (∀ q, q ∈ out.map Prod.fst ↔ q ∈ names) ∧
    ∀ q ∈ names, ∃ m v, reg.get? q = some m ∧ m s = .ok v ∧
      (q = "log_divergence" ∨ q = "overlap" ∨ q = "offroad" →
        ∃ r, v = .perObject r ∧ out.get? q = some (.scalar (r k))) ∧
      (q = "kinematic_infeasibility" → ∃ r, v = .perObject r ∧
        (s.timestep ≥ cfg.initSteps → out.get? q = some (.scalar (r k))) ∧
        (s.timestep < cfg.initSteps → out.get? q = some (.scalar { value := 0, valid := false }))) ∧
      (q ≠ "log_divergence" → q ≠ "overlap" → q ≠ "offroad" → q ≠ "kinematic_infeasibility" → out.get? q = some v) := by
  unfold planMetrics at h
  cases hrun : runMetrics reg s names with
  | error e => simp [hrun, bind, Except.bind] at h
  | ok d0 =>
    obtain ⟨hkeys, hvals⟩ := C42_run_metrics hrun
    simp only [hrun, bind, Except.bind, planSelectLoop, List.foldlM_cons, List.foldlM_nil, pure, Except.pure] at h
    cases h1 : planSelectOne (fun i => (s.objectMetadata i).isSdc) d0 "log_divergence" with
    | error e => simp [h1] at h
    | ok d1 =>
      simp only [h1] at h
      cases h2 : planSelectOne (fun i => (s.objectMetadata i).isSdc) d1 "overlap" with
      | error e => simp [h2] at h
      | ok d2 =>
        simp only [h2] at h
        cases h3 : planSelectOne (fun i => (s.objectMetadata i).isSdc) d2 "offroad" with
        | error e => simp [h3] at h
        | ok d3 =>
          simp only [h3] at h
          obtain ⟨a1, b1, c1⟩ := planSelectOne_spec hk h1
          obtain ⟨a2, b2, c2⟩ := planSelectOne_spec hk h2
          obtain ⟨a3, b3, c3⟩ := planSelectOne_spec hk h3
          -- the dictionary after the loop
          have hk3 : ∀ q, q ∈ d3.map Prod.fst ↔ q ∈ names := fun q => by rw [c3, c2, c1, hkeys]
          have hloop : ∀ q ∈ names, ∃ m v, reg.get? q = some m ∧ m s = .ok v ∧
              (q = "log_divergence" ∨ q = "overlap" ∨ q = "offroad" →
                ∃ r, v = .perObject r ∧ d3.get? q = some (.scalar (r k))) ∧
              (q ≠ "log_divergence" → q ≠ "overlap" → q ≠ "offroad" → d3.get? q = some v) := by
            intro q hq
            obtain ⟨m, v, hm, hv, hg⟩ := hvals q hq
            refine ⟨m, v, hm, hv, ?_, fun n1 n2 n3 => by rw [a3 q n3, a2 q n2, a1 q n1, hg]⟩
            rintro (rfl | rfl | rfl)
            · obtain ⟨r, e, hr⟩ := b1 v hg
              exact ⟨r, e, by rw [a3 _ (by decide), a2 _ (by decide), hr]⟩
            · obtain ⟨r, e, hr⟩ := b2 v (by rw [a1 _ (by decide), hg])
              exact ⟨r, e, by rw [a3 _ (by decide), hr]⟩
            · obtain ⟨r, e, hr⟩ := b3 v (by rw [a2 _ (by decide), a1 _ (by decide), hg])
              exact ⟨r, e, hr⟩
          by_cases hkin : names.contains "kinematic_infeasibility" = true
          · rw [if_pos hkin] at h
            have hkm : "kinematic_infeasibility" ∈ names := by simpa using hkin
            obtain ⟨mk, vk, hmk, hvk, -, hgk⟩ := hloop _ hkm
            have hgk := hgk (by decide) (by decide) (by decide)
            rw [hgk] at h
            cases vk with
            | scalar r => simp [maskKinematic, selectMetricArr] at h
            | perObject r =>
              simp only [maskKinematic, selectMetricArr, Except.ok.injEq] at h
              rw [selectMetric_eq hk] at h
              subst h
              refine ⟨fun q => ?_, fun q hq => ?_⟩
              · rw [Dict.mem_set, hk3]
                exact ⟨fun h => h.elim id fun e => e ▸ hkm, Or.inl⟩
              · obtain ⟨m, v, hm, hv, hsel, hoth⟩ := hloop q hq
                refine ⟨m, v, hm, hv, fun hc => ?_, fun hc => ?_, fun n1 n2 n3 n4 => ?_⟩
                · obtain ⟨r', e, hr'⟩ := hsel hc
                  refine ⟨r', e, ?_⟩
                  rw [Dict.get?_set, if_neg, hr']
                  rcases hc with rfl | rfl | rfl <;> decide
                · subst hc
                  rw [hmk] at hm
                  cases hm
                  rw [hvk] at hv
                  cases hv
                  refine ⟨r, rfl, fun ht => ?_, fun ht => ?_⟩
                  · rw [Dict.get?_set, if_pos rfl, decide_eq_true (by omega)]
                    simp
                  · rw [Dict.get?_set, if_pos rfl, decide_eq_false (by omega)]
                    simp
                · rw [Dict.get?_set, if_neg n4]
                  exact hoth n1 n2 n3
          · rw [if_neg hkin] at h
            simp only [Except.ok.injEq] at h
            subst h
            refine ⟨hk3, fun q hq => ?_⟩
            obtain ⟨m, v, hm, hv, hsel, hoth⟩ := hloop q hq
            refine ⟨m, v, hm, hv, hsel, fun hc => ?_, fun n1 n2 n3 _ => hoth n1 n2 n3⟩
            subst hc
            exact absurd (by simpa using hq) hkin

/-- With the built-in metrics every reported entry is a single number for the SDC, as documented. -/
theorem C71_builtin_single_agent [NeZero T] {cfg : EnvConfig} {names : List String} {s : SimState ℝ n T}
    {out : Dict (MetricArr n)} {k : Fin n} (hk : OnlySdc s.objectMetadata k)
    (h : planMetrics builtinMetrics cfg names s = .ok out) :
    ∀ q v, out.get? q = some v → ∃ r, v = .scalar r := by
  obtain ⟨hkeys, hvals⟩ := C71_planning_metrics hk h
  intro q v hq
  have hmem := (hkeys q).1 ((Dict.get?_isSome _ _).1 ⟨v, hq⟩)
  obtain ⟨m, w, hm, hw, h1, h2, h3⟩ := hvals q hmem
  by_cases hc : q = "log_divergence" ∨ q = "overlap" ∨ q = "offroad"
  · obtain ⟨r, -, hr⟩ := h1 hc
    rw [hq] at hr
    exact ⟨_, Option.some.inj hr⟩
  · push Not at hc
    by_cases hkin : q = "kinematic_infeasibility"
    · obtain ⟨r, -, hr, hr'⟩ := h2 hkin
      by_cases ht : s.timestep ≥ cfg.initSteps
      · rw [hq] at hr; exact ⟨_, Option.some.inj (hr ht)⟩
      · rw [hq] at hr'; exact ⟨_, Option.some.inj (hr' (by omega))⟩
    · have hv := h3 hc.1 hc.2.1 hc.2.2 hkin
      rw [hq] at hv
      cases hv
      -- only the three sdc_* names are left
      have hname := (Dict.get?_isSome _ _).1 ⟨m, hm⟩
      simp only [builtinMetrics, List.map_cons, List.map_nil, List.mem_cons, List.not_mem_nil, or_false] at hname
      have hd : Dict.get? builtinMetrics q = some m := hm
      rcases hname with rfl | rfl | rfl | rfl | rfl | rfl | rfl
      · exact absurd rfl hc.1
      · exact absurd rfl hc.2.1
      · exact absurd rfl hc.2.2
      · exact absurd rfl hkin
      · simp only [builtinMetrics, Dict.get?, List.find?] at hd
        simp at hd
        subst hd
        cases hwm : wrongWayMetric s with
        | error e => simp [hwm, bind, Except.bind] at hw
        | ok r => simp only [hwm] at hw; exact ⟨r, (Except.ok.inj hw).symm⟩
      · simp only [builtinMetrics, Dict.get?, List.find?] at hd
        simp at hd
        subst hd
        cases hwm : progressionMetric s with
        | error e => simp [hwm, bind, Except.bind] at hw
        | ok r => simp only [hwm] at hw; exact ⟨r, (Except.ok.inj hw).symm⟩
      · simp only [builtinMetrics, Dict.get?, List.find?] at hd
        simp at hd
        subst hd
        cases hwm : offRouteMetric s with
        | error e => simp [hwm, bind, Except.bind] at hw
        | ok r => simp only [hwm] at hw; exact ⟨r, (Except.ok.inj hw).symm⟩

/-- The documented claim for all registered metrics: one number per scenario. -/
def SingleAgentMetrics (n T : Nat) : Prop :=
  ∀ (reg : Dict (Metric n T)) (cfg : EnvConfig) (names : List String) (s : SimState ℝ n T) (out : Dict (MetricArr n))
    (k : Fin n) (_ : OnlySdc s.objectMetadata k) (_ : planMetrics reg cfg names s = .ok out) (q : String) (v : MetricArr n),
    out.get? q = some v → ∃ r, v = .scalar r

/-- A user metric with one entry per object is reported for all objects, not for the SDC. -/
theorem C71_violated : ¬ SingleAgentMetrics 2 1 := by
  intro h
  have := h [("mine", oneMetric)] {} ["mine"] exPair [("mine", .perObject fun _ => { value := 1, valid := true })] 0
    (by intro i; simp [exPair]) rfl "mine" _ rfl
  obtain ⟨r, hr⟩ := this
  exact absurd hr (by simp)

/-! ### C72: the reward of the planning environment -/

variable {D X K P : Type}

/-- The reward is the SDC's weighted sum of metric values (invalid entries count 0), or 0 when rewards are switched off. -/
theorem C72_planning_reward {reg : Dict (Metric n T)} {E : PlanEnv D X K P n T} (hE : E.cfg.controlledObject = .SDC)
    {computeReward : Bool} {s : SimState ℝ n T} {a : Act D} {r : ℝ} {k : Fin n} (hk : OnlySdc s.objectMetadata k)
    (h : planReward reg E computeReward s a = .ok r) :
    (computeReward = false → r = 0) ∧
    (computeReward = true → ∃ vals : String → MetricArr n,
      (∀ e ∈ E.rewards, ∃ m, reg.get? e.1 = some m ∧ m s = .ok (vals e.1)) ∧
      r = (E.rewards.map fun e => e.2 * contribution (vals e.1) k).sum) := by
  unfold planReward at h
  cases computeReward with
  | false =>
    simp only [Bool.false_eq_true, if_false, Except.ok.injEq] at h
    exact ⟨fun _ => h.symm, fun hc => absurd hc (by decide)⟩
  | true =>
    refine ⟨fun hc => absurd hc (by decide), fun _ => ?_⟩
    simp only [if_true, hE, getControlMask, bind, Except.bind] at h
    cases hl : linearReward reg E.rewards s (fun _ => a) fun i => (s.objectMetadata i).isSdc with
    | error e => simp [hl] at h
    | ok f =>
      simp only [hl, pure, Except.pure, Except.ok.injEq] at h
      obtain ⟨vals, h1, h2, -⟩ := C41_linear_reward hl
      refine ⟨vals, h1, ?_⟩
      rw [← h, selectByOnehot_eq _ _ k hk]
      exact h2 k ((hk k).2 rfl)

/-- The claim that the reward agrees with the reported metrics: it is the weighted sum of the reported values, invalid ones
counting 0. -/
def RewardMatchesMetrics (n T : Nat) [NeZero T] : Prop :=
  ∀ (E : PlanEnv Unit Unit Unit Unit n T) (_ : E.cfg.controlledObject = .SDC) (names : List String) (s : SimState ℝ n T)
    (a : Act Unit) (k : Fin n) (_ : OnlySdc s.objectMetadata k) (out : Dict (MetricArr n)) (r : ℝ)
    (_ : ∀ e ∈ E.rewards, e.1 ∈ names) (_ : planMetrics builtinMetrics E.cfg names s = .ok out)
    (_ : planReward builtinMetrics E true s a = .ok r),
    r = (E.rewards.map fun e => e.2 * ((out.get? e.1).elim 0 fun v => contribution v k)).sum

/-- The reward agrees with the reported metrics from the first step on, and always if the reward does not use the kinematic
metric. Any registry. -/
theorem C72_matches_metrics_partial {reg : Dict (Metric n T)} {E : PlanEnv D X K P n T} (hE : E.cfg.controlledObject = .SDC)
    {names : List String} {s : SimState ℝ n T} {a : Act D} {k : Fin n} (hk : OnlySdc s.objectMetadata k)
    {out : Dict (MetricArr n)} {r : ℝ} (hnames : ∀ e ∈ E.rewards, e.1 ∈ names)
    (hm : planMetrics reg E.cfg names s = .ok out) (hr : planReward reg E true s a = .ok r)
    (hstep : s.timestep ≥ E.cfg.initSteps ∨ ∀ e ∈ E.rewards, e.1 ≠ "kinematic_infeasibility") :
    r = (E.rewards.map fun e => e.2 * ((out.get? e.1).elim 0 fun v => contribution v k)).sum := by
  obtain ⟨vals, hv, hsum⟩ := (C72_planning_reward hE hk hr).2 rfl
  obtain ⟨-, hout⟩ := C71_planning_metrics hk hm
  rw [hsum]
  congr 1
  apply List.map_congr_left
  intro e he
  congr 1
  obtain ⟨m, v, h1, h2, h3, h4, h5⟩ := hout e.1 (hnames e he)
  obtain ⟨m', h1', h2'⟩ := hv e he
  rw [h1] at h1'
  cases h1'
  rw [h2] at h2'
  have hve : vals e.1 = v := (Except.ok.inj h2').symm
  rw [hve]
  by_cases hc : e.1 = "log_divergence" ∨ e.1 = "overlap" ∨ e.1 = "offroad"
  · obtain ⟨f, rfl, hf⟩ := h3 hc
    rw [hf]; rfl
  · push Not at hc
    by_cases hkin : e.1 = "kinematic_infeasibility"
    · obtain ⟨f, rfl, hf, -⟩ := h4 hkin
      rcases hstep with ht | hne
      · rw [hf ht]; rfl
      · exact absurd hkin (hne e he)
    · rw [h5 hc.1 hc.2.1 hc.2.2 hkin]; rfl

/-- A log that jumps from standstill to 10 m/s inside the warm-up. -/
def jumpScen : SimState ℝ 1 3 :=
  { simTrajectory := fun _ t => ptAt 0 0 0 (10 * t.val) 0, logTrajectory := fun _ t => ptAt 0 0 0 (10 * t.val) 0
    logTrafficLight := [], objectMetadata := soloMeta, timestep := 1, sdcPaths := none, roadgraphPoints := none }

/-- An environment with two warm-up steps that penalises kinematic infeasibility. -/
def jumpEnv : PlanEnv Unit Unit Unit Unit 1 3 :=
  { dynamics := { computeUpdate := fun _ _ _ => ⟨0, 0, 0, 0, 0, true⟩, inverse := fun _ _ _ _ => ⟨(), true⟩ }
    cfg := { maxNumObjects := 1, initSteps := 2 }, rewards := [("kinematic_infeasibility", -1)], actors := [], params := [] }

theorem jump_infeasible : kinematicsInfeasibilityMetric {} jumpScen 0 = { value := 1, valid := true } := by
  obtain ⟨-, hv, h1⟩ := C32_metric_iff {} (by norm_num) (by norm_num) (by norm_num) jumpScen (t := 0) (t' := 1) (by decide)
    (by simp [jumpScen]) 0
  have hval := hv.2 ⟨rfl, rfl⟩
  have hone := h1.2 ⟨⟨rfl, rfl⟩, Or.inl (by
    have h10 : √(100 : ℝ) = 10 := by rw [show (100 : ℝ) = 10 ^ 2 by norm_num]; exact Real.sqrt_sq (by norm_num)
    simp only [jumpScen, ptAt, norm2]
    norm_num [h10])⟩
  generalize kinematicsInfeasibilityMetric {} jumpScen 0 = m at hval hone
  cases m
  cases hval
  cases hone
  rfl

/-- In the state right after reset the reported metric is 0 and invalid, but the reward charges it. -/
theorem C72_violated : ¬ RewardMatchesMetrics 1 3 := by
  intro h
  have hk : OnlySdc jumpScen.objectMetadata 0 := by
    intro i; simp only [jumpScen, soloMeta, true_iff]; exact Subsingleton.elim _ _
  have hm : planMetrics builtinMetrics jumpEnv.cfg ["kinematic_infeasibility"] jumpScen =
      .ok [("kinematic_infeasibility", .scalar { value := 0, valid := false })] := by
    simp [planMetrics, runMetrics, builtinMetrics, Dict.get?, Dict.set, Dict.has, bind, Except.bind, pure, Except.pure,
      planSelectLoop, planSelectOne, maskKinematic, selectMetricArr, selectMetric, selectByOnehot, selectByOnehotBool, jumpEnv,
      jumpScen, List.foldlM]
  have hr : planReward builtinMetrics jumpEnv true jumpScen { data := (), valid := true } = .ok (-1) := by
    have hsdc : ∀ i, (jumpScen.objectMetadata i).isSdc = true := fun _ => rfl
    simp [planReward, jumpEnv, getControlMask, linearReward, runMetrics, builtinMetrics, Dict.get?, Dict.set, Dict.has, bind,
      Except.bind, pure, Except.pure, List.foldlM, MetricArr.masked, MetricResult.maskedValue, jump_infeasible, selectByOnehot,
      hsdc]
  have := h jumpEnv rfl ["kinematic_infeasibility"] jumpScen { data := (), valid := true } 0 hk _ (-1) (by simp [jumpEnv]) hm hr
  simp [jumpEnv, Dict.get?, contribution] at this

/-- That state is the one `reset` produces. -/
example : ∃ s0, planReset jumpEnv (fun _ _ => []) { jumpScen with timestep := 0 } none = .ok s0 ∧ s0.sim.timestep = 1 ∧
    ∀ t : Fin 3, t.val < 2 → s0.sim.simTrajectory 0 t = jumpScen.simTrajectory 0 t := by
  have hr := reset_eq jumpEnv.cfg { jumpScen with timestep := 0 }
  unfold reset at hr
  refine ⟨_, by unfold planReset; rw [hr]; rfl, rfl, fun t ht => ?_⟩
  simp [jumpEnv, jumpScen, ht]

end

end Waymax
