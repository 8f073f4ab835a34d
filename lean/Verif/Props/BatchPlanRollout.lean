import Verif.Spec.BatchPlanRollout
import Verif.Props.BatchPlanningMetrics
import Verif.Props.BatchLogReplay
/-
C122: a rollout of a batch in the planning environment is, scenario by scenario, the rollout of the scenario.
-/

namespace Waymax

section
variable {pre : List Nat} {n T : Nat}

/-- Stacked metrics of entries with the same names and shapes show, at entry `t`, the metrics of entry `t`. -/
theorem stack_metrics {es : List RolloutNd} {e : RolloutNd} {t : Nat} (ht : t < es.length)
    (hkeys : e.metrics.map Prod.fst = es[t].metrics.map Prod.fst) (hnd : (es[t].metrics.map Prod.fst).Nodup)
    (hshape : ∀ i (h : i < e.metrics.length) (h' : i < es[t].metrics.length), e.metrics[i].2.value.shape = es[t].metrics[i].2.value.shape ∧
      e.metrics[i].2.valid.shape = es[t].metrics[i].2.valid.shape) {p : List Nat} {as : Dict (MetricArr n)}
    (h : MetricsRead pre n p es[t].metrics as) : MetricsRead (es.length :: pre) n (t :: p) (stackRollout es e).metrics as := by
  have hlm : e.metrics.length = es[t].metrics.length := by simpa using congrArg List.length hkeys
  have hll := h.length_eq
  unfold MetricsRead
  rw [List.forall₂_iff_get]
  refine ⟨by simp [stackRollout, hlm, hll], fun i hi hi' => ?_⟩
  have hi0 : i < e.metrics.length := by simpa [stackRollout] using hi
  obtain ⟨q1, q2, q3⟩ := forall₂_nodup_get h hnd i (by omega) hi'
  have hname : e.metrics[i].1 = es[t].metrics[i].1 := by
    have := congrArg (fun l => l[i]?) hkeys
    simpa [hi0, hlm ▸ hi0] using this
  have hsame := hshape i hi0 (by omega)
  simp only [List.get_eq_getElem, stackRollout, List.getElem_map]
  refine ⟨hname.trans q1, ?_⟩
  have v1 : ∀ rest, (Nd.stack (es.map fun y => ((y.metrics.get? e.metrics[i].1).getD e.metrics[i].2).value) e.metrics[i].2.value).get (t :: rest) =
      es[t].metrics[i].2.value.get rest := by
    intro rest
    rw [stackAt_get ht, hname, q2]
    rfl
  have v2 : ∀ rest, (Nd.stack (es.map fun y => ((y.metrics.get? e.metrics[i].1).getD e.metrics[i].2).valid) e.metrics[i].2.valid).get (t :: rest) =
      es[t].metrics[i].2.valid.get rest := by
    intro rest
    rw [stackAt_get ht, hname, q2]
    rfl
  cases hk : as[i].2 with
  | perObject r =>
    rw [hk] at q3
    refine ⟨?_, ?_, fun j => ?_⟩
    · rw [stackAt_shape, hsame.1, q3.1]; rfl
    · rw [stackAt_shape, hsame.2, q3.2.1]; rfl
    · rw [List.cons_append, v1, v2]; exact q3.2.2 j
  | scalar r =>
    rw [hk] at q3
    refine ⟨?_, ?_, ?_⟩
    · rw [stackAt_shape, hsame.1, q3.1]
    · rw [stackAt_shape, hsame.2, q3.2.1]
    · rw [v1, v2]; exact q3.2.2

/-! ### Shapes of the metrics in the planning environment -/

theorem set_shapes {d : Dict MetricNd} {f : String → List Nat} {k : String} {m : MetricNd} {s : List Nat}
    (hd : ∀ e ∈ d, e.2.value.shape = f e.1 ∧ e.2.valid.shape = f e.1) (hm : m.value.shape = s ∧ m.valid.shape = s) (hk : k ∈ d.map Prod.fst) :
    (d.set k m).map Prod.fst = d.map Prod.fst ∧ ∀ e ∈ d.set k m, e.2.value.shape = (if e.1 = k then s else f e.1) ∧
      e.2.valid.shape = if e.1 = k then s else f e.1 := by
  refine ⟨by rw [set_keys, if_pos hk], fun e he => ?_⟩
  unfold Dict.set at he
  rw [if_pos ((Dict.has_iff d k).2 hk)] at he
  obtain ⟨e', he', rfl⟩ := List.mem_map.1 he
  by_cases h : e'.1 = k
  · simp [h, hm]
  · simpa [h] using hd e' he'

theorem selectMetric_shapes {m m' : MetricNd} {sel : Nd Bool} (hs : sel.shape = pre ++ [n]) (hm : m.value.shape = pre ++ [n] ∧ m.valid.shape = pre ++ [n])
    (h : selectMetricNd m sel = .ok m') : m'.value.shape = pre ∧ m'.valid.shape = pre := by
  obtain ⟨v, e1, s1, -⟩ := select_ok (rest := []) hm.1 hs
  obtain ⟨w, e2, s2, -⟩ := selectBool_ok (rest := []) hm.2 hs
  unfold selectMetricNd at h
  rw [e1, exc_ok_bind, e2, exc_ok_bind] at h
  rw [← Except.ok.inj h]
  exact ⟨by simpa using s1, by simpa using s2⟩

theorem get?_mem {β : Type} {d : Dict β} {k : String} {v : β} (h : d.get? k = some v) : (k, v) ∈ d := by
  unfold Dict.get? at h
  rw [Option.map_eq_some_iff] at h
  obtain ⟨e, h1, h2⟩ := h
  have := List.find?_some h1
  rw [beq_iff_eq] at this
  rw [← this, ← h2]
  exact List.mem_of_find?_eq_some h1

theorem planSelect_shapes {sel : Nd Bool} (hs : sel.shape = pre ++ [n]) (names : List String) (hn : names.Nodup)
    (hobj : ∀ k ∈ names, k ∉ scenarioMetricNames) : ∀ (done : List String) (d out : Dict MetricNd), (∀ k ∈ names, k ∉ done) →
    (∀ e ∈ d, e.2.value.shape = (if e.1 ∈ done then pre else pre ++ metricTail n e.1) ∧
      e.2.valid.shape = if e.1 ∈ done then pre else pre ++ metricTail n e.1) →
    names.foldlM (planSelectOneNd sel) d = .ok out → out.map Prod.fst = d.map Prod.fst ∧
      ∀ e ∈ out, e.2.value.shape = (if e.1 ∈ done ++ names then pre else pre ++ metricTail n e.1) ∧
        e.2.valid.shape = if e.1 ∈ done ++ names then pre else pre ++ metricTail n e.1 := by
  induction names with
  | nil =>
    intro done d out _ hd h
    obtain rfl := Except.ok.inj h
    simpa using hd
  | cons k names ih =>
    intro done d out hdone hd h
    rw [List.nodup_cons] at hn
    rw [List.foldlM_cons] at h
    obtain ⟨d1, h1, h⟩ := bind_eq_ok.1 h
    have hd1 : d1.map Prod.fst = d.map Prod.fst ∧ ∀ e ∈ d1, e.2.value.shape = (if e.1 ∈ done ++ [k] then pre else pre ++ metricTail n e.1) ∧
        e.2.valid.shape = if e.1 ∈ done ++ [k] then pre else pre ++ metricTail n e.1 := by
      unfold planSelectOneNd at h1
      cases hg : d.get? k with
      | none =>
        rw [hg] at h1
        obtain rfl := Except.ok.inj h1
        refine ⟨rfl, fun e he => ?_⟩
        have hne : e.1 ≠ k := fun hc => (Dict.get?_none _ _).1 hg (List.mem_map.2 ⟨e, he, hc⟩)
        simpa [hne] using hd e he
      | some m =>
        rw [hg] at h1
        obtain ⟨m', h2, h1⟩ := bind_eq_ok.1 h1
        obtain rfl := Except.ok.inj h1
        have hmem := get?_mem hg
        have hmsh := hd _ hmem
        rw [if_neg (hdone k (by simp)), metricTail, if_neg (hobj k (by simp))] at hmsh
        obtain ⟨a1, a2⟩ := set_shapes (f := fun k => if k ∈ done then pre else pre ++ metricTail n k) hd (selectMetric_shapes hs hmsh h2) (List.mem_map.2 ⟨_, hmem, rfl⟩)
        refine ⟨a1, fun e he => ?_⟩
        have := a2 e he
        by_cases hc : e.1 = k
        · simpa [hc] using this
        · simpa [hc] using this
    obtain ⟨b1, b2⟩ := ih hn.2 (fun k hk => hobj k (by simp [hk])) (done ++ [k]) d1 out (by
      intro k' hk' hc
      rcases List.mem_append.1 hc with hc | hc
      · exact hdone k' (by simp [hk']) hc
      · rw [List.mem_singleton.1 hc] at hk'
        exact hn.1 hk') hd1.2 h
    refine ⟨b1.trans hd1.1, ?_⟩
    simpa using b2

variable [NeZero T]

theorem keysOf_mem (names : List String) : ∀ (acc : List String), ∀ k ∈ keysOf acc names, k ∈ acc ∨ k ∈ names := by
  induction names with
  | nil => exact fun acc k h => .inl h
  | cons a names ih =>
    intro acc k h
    have h' : k ∈ keysOf (if a ∈ acc then acc else acc ++ [a]) names := h
    rcases ih _ k h' with h | h
    · split at h
      · exact .inl h
      · rcases List.mem_append.1 h with h | h
        · exact .inl h
        · exact .inr (by simp [List.mem_singleton.1 h])
    · exact .inr (by simp [h])

theorem runMetrics_registered {reg : Dict (StateNd ℝ → Except Err MetricNd)} {S : StateNd ℝ} (names : List String) :
    ∀ {acc out : Dict MetricNd}, (names.foldlM (fun results name => match reg.get? name with
        | some m => do return results.set name (← m S)
        | none => (Except.error .valueError : Except Err (Dict MetricNd))) acc) = .ok out → ∀ k ∈ names, k ∈ reg.map Prod.fst := by
  induction names with
  | nil => simp
  | cons a names ih =>
    intro acc out h k hk
    rw [List.foldlM_cons] at h
    obtain ⟨d, h1, h2⟩ := bind_eq_ok.1 h
    rcases List.mem_cons.1 hk with rfl | hk
    · by_contra hc
      rw [(Dict.get?_none _ _).2 hc] at h1
      cases h1
    · exact ih h2 k hk

theorem planMetrics_shapes {S : StateNd ℝ} (hS : S.Shaped pre n T) (ht : S.timestep.shape = []) (cfg : EnvConfig) (names : List String)
    (hk : ∀ k ∈ names, S.Supports pre T k) {out : Dict MetricNd} (h : planMetricsNd builtinMetricsNd cfg names S = .ok out) :
    out.map Prod.fst = keysOf [] names ∧ ∀ e ∈ out, e.2.value.shape = pre ∧ e.2.valid.shape = pre := by
  unfold planMetricsNd at h
  obtain ⟨d, h1, h⟩ := bind_eq_ok.1 h
  obtain ⟨d1, h2, h⟩ := bind_eq_ok.1 h
  obtain ⟨k1, s1⟩ := runMetrics_shapes hS ht names hk h1
  obtain ⟨k2, s2⟩ := planSelect_shapes hS.metadata.isSdc ["log_divergence", "overlap", "offroad"] (by decide) (by
    intro k hk
    fin_cases hk <;> simp [scenarioMetricNames]) [] d d1 (by simp) (by simpa using s1) h2
  have hreg := runMetrics_registered names h1
  have hin : ∀ e ∈ d1, e.1 ∈ names := fun e he =>
    (keysOf_mem names [] e.1 (by rw [← k1, ← k2]; exact List.mem_map.2 ⟨e, he, rfl⟩)).resolve_left (by simp)
  have hrest : ∀ k ∈ names, k ≠ "kinematic_infeasibility" → (if k ∈ [] ++ ["log_divergence", "overlap", "offroad"] then pre else pre ++ metricTail n k) = pre := by
    intro k hkn hne
    have := hreg k hkn
    simp only [builtinMetricsNd, List.map_cons, List.map_nil, List.mem_cons, List.not_mem_nil, or_false] at this
    rcases this with rfl | rfl | rfl | rfl | rfl | rfl | rfl <;> first | exact absurd rfl hne | simp [metricTail, scenarioMetricNames]
  split at h
  swap
  · rename_i hc
    obtain rfl := Except.ok.inj h
    refine ⟨k2.trans k1, fun e he => ?_⟩
    have := s2 e he
    rw [hrest e.1 (hin e he) (fun h => hc (by rw [← h]; simpa using hin e he))] at this
    exact this
  · cases hg : d1.get? "kinematic_infeasibility" with
    | none =>
      simp only [hg] at h
      cases h
    | some kim =>
      simp only [hg] at h
      obtain ⟨v, e1, h⟩ := bind_eq_ok.1 h
      obtain ⟨w, e2, h⟩ := bind_eq_ok.1 h
      obtain ⟨m, e3, h⟩ := bind_eq_ok.1 h
      obtain rfl := Except.ok.inj h
      have hmem := get?_mem hg
      have hsh := s2 _ hmem
      dsimp only at hsh
      rw [if_neg (by decide), metricTail, if_neg (by decide)] at hsh
      obtain ⟨v', a1, b1, -⟩ := zip_scalar (fun v (b : Bool) => v * if b then (1 : ℝ) else 0) hsh.1
        (y := S.timestep.map fun t => decide (t > (cfg.initSteps : Int) - 1)) ht
      obtain ⟨w', a2, b2, -⟩ := zip_scalar (fun a b : Bool => a && b) hsh.2
        (y := S.timestep.map fun t => decide (t > (cfg.initSteps : Int) - 1)) ht
      obtain rfl := Except.ok.inj (a1.symm.trans e1)
      obtain rfl := Except.ok.inj (a2.symm.trans e2)
      obtain ⟨c1, c2⟩ := set_shapes (f := fun k => if k ∈ [] ++ ["log_divergence", "overlap", "offroad"] then pre else pre ++ metricTail n k)
        s2 (selectMetric_shapes hS.metadata.isSdc ⟨b1, b2⟩ e3) (List.mem_map.2 ⟨_, hmem, rfl⟩)
      refine ⟨c1.trans (k2.trans k1), fun e he => ?_⟩
      have := c2 e he
      by_cases hc : e.1 = "kinematic_infeasibility"
      · rw [if_pos hc] at this
        exact this
      · rw [if_neg hc] at this
        have hmem' : e.1 ∈ d1.map Prod.fst := by
          rw [← c1]
          exact List.mem_map.2 ⟨e, he, rfl⟩
        obtain ⟨e', he', hee⟩ := List.mem_map.1 hmem'
        beta_reduce at this
        rw [hrest e.1 (by rw [← hee]; exact hin e' he') hc] at this
        exact this

/-! ### C122 -/

section
variable {D X X' Y Y' K J P P' C C' : Type} {Q : List Nat → X → X' → Prop} {R : List Nat → Y → Y' → Prop}

theorem planReward_shape {S : StateNd ℝ} (hS : S.Shaped pre n T) (ht : S.timestep.shape = []) {computeReward : Bool} {cfg : EnvConfig}
    {rewards : Dict ℝ}
    (hr : ∀ e ∈ rewards, e.1 ∈ ["log_divergence", "overlap", "offroad", "kinematic_infeasibility"] ∧ S.Supports pre T e.1) {r : TypedNd}
    (h : planRewardNd builtinMetricsNd cfg computeReward rewards S = .ok r) : r.data.shape = pre := by
  unfold planRewardNd at h
  cases computeReward with
  | false =>
    rw [← Except.ok.inj h]
    show S.shape ++ _ = _
    rw [hS.shape_eq]
    exact List.append_nil _
  | true =>
    rw [if_pos rfl] at h
    by_cases hc : cfg.controlledObject = .NON_SDC
    · rw [hc] at h
      cases h
    · obtain ⟨m, e1, s1, g1⟩ := getControlMaskNd_ok hS (ct := cfg.controlledObject) hc
      obtain ⟨r', e2, s2, -, g2⟩ := linearRewardNd_ok (reg := builtinMetrics (n := n) (T := T))
        (fun e he => builtin_agrees hS ht (hr e he).2 (hr e he).1) s1 (fun _ : Fin n => (⟨(), true⟩ : Act Unit))
      obtain ⟨q, e3, s3, -⟩ := select_ok (rest := []) s2 hS.metadata.isSdc
      rw [e1, exc_ok_bind, e2, exc_ok_bind, e3, exc_ok_bind] at h
      rw [← Except.ok.inj h]
      simpa using s3

theorem planReset_follows {E : PlanEnvNd X K P} {split : K → Nat → List K} {S : StateNd ℝ} (hS : S.Shaped pre n T) {rng : Option K}
    {s : PlanStateNd X} (h : planResetNd E split S rng = .ok s) : s.sim.Follows S pre n T := by
  unfold planResetNd at h
  obtain ⟨s0, h1, h⟩ := bind_eq_ok.1 h
  obtain rfl := Except.ok.inj h
  exact (reset_follows hS h1).1

theorem planStep_follows {dn : DynNd ℝ} {dim : Nat} {row : (Nat → ℝ) → D} {d : DynamicsModel ℝ D n} (hd : dn.Refines n dim row d)
    {cfg : EnvConfig} {rewards : Dict ℝ} {agents : List (AgentPair X X' K P n T)}
    (hg : ∀ g ∈ agents, SimAgentNd.Refines g.batch g.single g.params pre Q) {split : K → Nat → List K} {rng : Option K} {S : StateNd ℝ}
    {s s1 : PlanStateNd X} (hs : s.sim.Follows S pre n T) {a : ActNd ℝ} (ha : a.OnePerScenario pre dim)
    (h : planStepNd (envOfPairs dn cfg rewards agents) split s a rng = .ok s1) : s1.sim.Follows S pre n T := by
  obtain ⟨cur, e1, t1, -⟩ := slice_traj hs.shaped.sim hs.time
  obtain ⟨u, e2, t2, -⟩ := planningUpdate_ok hd ha t1
  obtain ⟨pa, e3, t3, -⟩ := asAction_ok t2
  obtain ⟨ov, e4, t4, -⟩ := initializedOverlap_ok hs.shaped.log
  unfold planStepNd envOfPairs at h
  rw [e1, exc_ok_bind] at h
  dsimp only at h
  rw [e2, exc_ok_bind, e3, exc_ok_bind, e4, exc_ok_bind, List.length_map] at h
  obtain ⟨-, -, h⟩ := bind_eq_ok.1 h
  obtain ⟨m, e5, t5, -⟩ := loop_ok hg hs.shaped hs.time (ok := ov.map fun b => !b) t4 s.actorStates (planKeys split rng agents.length)
    { action := pa, controlled := s.sim.objectMetadata.isSdc, actorStates := [] } ⟨t3, hs.shaped.metadata.isSdc⟩
  rw [e5, exc_ok_bind] at h
  obtain ⟨tr, e6, t6, -⟩ := forward_batch (C105_state n) t5.action hs.shaped.sim hs.shaped.log t5.controlled hs.time
    cfg.allowNewObjectsAfterWarmup
  rw [e6, exc_ok_bind] at h
  obtain rfl := Except.ok.inj h
  exact ⟨⟨t6, hs.shaped.log, hs.shaped.metadata⟩, hs.time, hs.lights, hs.paths, hs.map⟩

theorem planRollout_core {dn : DynNd ℝ} {dim : Nat} {row : (Nat → ℝ) → D} {d : DynamicsModel ℝ D n} (hd : dn.Refines n dim row d)
    (cfg : EnvConfig) {agents : List (AgentPair X X' K P n T)} (hg : ∀ g ∈ agents, SimAgentNd.Refines g.batch g.single g.params pre Q)
    {act : RaisingActor (PlanStateNd X) (ActNd ℝ) Y J P' C} {single : List Nat → Actor (PlanState X' n T) (Act D) Y' J P' C'} {params : P'}
    (hact : PlannerRefines act single params pre dim row Q R) {S : StateNd ℝ} (hS : S.Shaped pre n T) (names : List String)
    (hnames : ∀ k ∈ names, S.Supports pre T k) (computeReward : Bool) (rewards : Dict ℝ)
    (hrewards : ∀ e ∈ rewards, e.1 ∈ ["log_divergence", "overlap", "offroad", "kinematic_infeasibility"] ∧ S.Supports pre T e.1)
    (splitEnv : K → Nat → List K) (split : J → J × J) (rng : J) (numSteps : Nat) :
    (PlanRolloutAgrees pre n T dim row (numSteps + 1)
      (planRolloutNd (envOfPairs dn cfg rewards agents) splitEnv builtinMetricsNd names computeReward act split params S rng numSteps)
      fun p => rollout (planEnv (envOfPairsAt d cfg rewards agents p) splitEnv builtinMetrics names computeReward) (single p) split params
        (zeroAction row) { sim := S.scenario n T p, actorStates := [] } rng numSteps) ∧
    ((∃ es, rolloutEntries (planEnvNd (envOfPairs dn cfg rewards agents) splitEnv builtinMetricsNd names computeReward) act split params
        ActNd.zerosLike { sim := S, actorStates := [] } rng numSteps = .ok es) →
      ∃ o, planRolloutNd (envOfPairs dn cfg rewards agents) splitEnv builtinMetricsNd names computeReward act split params S rng numSteps =
        .ok o) := by
  have hrel : ∀ p, InRange pre p → ExRel _ _ _ := fun p hp =>
    rollout_rel (E := planEnvNd (envOfPairs dn cfg rewards agents) splitEnv builtinMetricsNd names computeReward)
      (e := planEnv (envOfPairsAt d cfg rewards agents p) splitEnv builtinMetrics names computeReward)
      (act := act) (act' := single p) (split := split) (params := params) (z := ActNd.zerosLike) (z' := zeroAction row)
      (Qs := fun s s' => s.sim.Follows S pre n T ∧ s.Shows pre n T Q p s')
      (Qa := fun a a' => a.OnePerScenario pre dim ∧ a' = a.planner row p)
      (Qo := fun o o' => o'.sim = o.sim.scenario n T p)
      (Qm := fun m m' => MetricsRead pre n p m m')
      (Qr := fun r r' => r.data.shape = pre ∧ r' = r.data.get p) (Qx := R p)
      (by
        rintro s s' a a' ⟨h1, h2⟩ ⟨h3, rfl⟩
        have hb := C121_step hd cfg rewards hg splitEnv none h3 hp h2
        show ExRel _ (planStepNd (envOfPairs dn cfg rewards agents) splitEnv s a)
          (planStep (envOfPairsAt d cfg rewards agents p) splitEnv s' (a.planner row p))
        rcases hb.cases with ⟨x, y, g1, g2, g3⟩ | ⟨e, g1, g2⟩
        · rw [g1, g2]
          exact ⟨planStep_follows hd hg h1 h3 g1, g3⟩
        · rw [g1, g2]
          rfl)
      (by rintro s s' ⟨-, h⟩; exact h.sim)
      (by
        rintro s s' ⟨h1, h2⟩
        show ExRel _ (planMetricsNd builtinMetricsNd cfg names s.sim) (planMetrics builtinMetrics cfg names s'.sim)
        rw [h2.sim]
        exact C121_metrics h1.shaped h1.time cfg names (fun k hk => h1.supports (hnames k hk)) hp)
      (by
        rintro s s' a a' ⟨h1, h2⟩ ⟨h3, rfl⟩
        show ExRel _ (planRewardNd builtinMetricsNd cfg computeReward rewards s.sim)
          (planReward builtinMetrics (envOfPairsAt d cfg rewards agents p) computeReward s'.sim (a.planner row p))
        rw [h2.sim]
        exact C121_reward h1.shaped h1.time computeReward dn cfg rewards (fun e he => ⟨(hrewards e he).1, h1.supports (hrewards e he).2⟩)
          _ ⟨rfl, rfl⟩ hp _)
      (by
        rintro k s s' ⟨-, h2⟩
        exact hact.init k s p s' hp h2)
      (by
        rintro k s s' x x' ⟨h1, h2⟩ hx
        obtain ⟨o, e1, s1, g1⟩ := hact.select k s x h1.shaped h1.time
        exact ⟨o, e1, ⟨s1, (g1 p s' x' hp h2 hx).1.symm⟩, (g1 p s' x' hp h2 hx).2⟩)
      (by
        rintro a a' ⟨h1, rfl⟩
        exact ⟨⟨h1.data, h1.valid⟩, rfl⟩)
      (s := { sim := S, actorStates := [] }) (s' := { sim := S.scenario n T p, actorStates := [] })
      (by
        have hb := C121_reset dn d cfg rewards hg splitEnv none hS hp
        show ExRel _ (planResetNd (envOfPairs dn cfg rewards agents) splitEnv S)
          (planReset (envOfPairsAt d cfg rewards agents p) splitEnv (S.scenario n T p))
        rcases hb.cases with ⟨x, y, g1, g2, g3⟩ | ⟨e, g1, g2⟩
        · rw [g1, g2]
          exact ⟨planReset_follows hS g1, g3⟩
        · rw [g1, g2]
          rfl) rng numSteps
  unfold planRolloutNd
  cases hes : rolloutEntries (planEnvNd (envOfPairs dn cfg rewards agents) splitEnv builtinMetricsNd names computeReward) act split params
      ActNd.zerosLike { sim := S, actorStates := [] } rng numSteps with
  | error e =>
    refine ⟨?_, fun ⟨es, h⟩ => nomatch h⟩
    intro p hp
    have := hrel p hp
    rw [hes] at this
    rcases this.cases with ⟨x, y, h1, -⟩ | ⟨e', h1, h2⟩
    · cases h1
    · beta_reduce
      rw [h2, ← Except.error.inj h1]
  | ok es0 =>
    obtain ⟨hlen0, hall0⟩ := rolloutEntries_all (Gs := fun s => s.sim.Follows S pre n T)
      (Ga := fun a => a.OnePerScenario pre dim) (fun s a s' h1 h2 h3 => planStep_follows hd hg h1 h2 h3)
      (fun k s x o h1 h2 => by
        obtain ⟨o', e1, s1, -⟩ := hact.select k s x h1.shaped h1.time
        rw [e1] at h2
        rw [← Except.ok.inj h2]
        exact s1)
      (fun a h => ⟨h.data, h.valid⟩) (fun s' h => planReset_follows hS h) hes
    rw [exc_ok_bind]
    let g : RolloutEntry (PlanStateNd X) (ActNd ℝ) (PlanStateNd X) (Dict MetricNd) TypedNd → RolloutNd := fun e =>
      { action := e.action, state := e.state.sim, observation := e.observation.sim, metrics := e.metrics, reward := e.reward }
    have hall : ∀ y ∈ es0.map g, y.state.Follows S pre n T ∧ y.action.OnePerScenario pre dim ∧ y.observation = y.state ∧
        planMetricsNd builtinMetricsNd cfg names y.state = .ok y.metrics ∧
        planRewardNd builtinMetricsNd cfg computeReward rewards y.state = .ok y.reward := by
      intro y hy
      obtain ⟨y0, hy0, rfl⟩ := List.mem_map.1 hy
      obtain ⟨h1, h2, h3, h4, h5⟩ := hall0 y0 hy0
      exact ⟨h1, h2, congrArg PlanStateNd.sim h3, h4, h5⟩
    have hlen : (es0.map g).length = numSteps + 1 := by rw [List.length_map, hlen0]
    have hrel' : ∀ p, InRange pre p → ∃ ys, rollout (planEnv (envOfPairsAt d cfg rewards agents p) splitEnv builtinMetrics names computeReward)
        (single p) split params (zeroAction row) { sim := S.scenario n T p, actorStates := [] } rng numSteps = .ok ys ∧
        List.Forall₂ (fun (y : RolloutNd) y' => y'.state.sim = y.state.scenario n T p ∧ y'.action = y.action.planner row p ∧
          y'.observation.sim = y.observation.scenario n T p ∧ MetricsRead pre n p y.metrics y'.metrics ∧
          y'.reward = y.reward.data.get p) (es0.map g) ys := by
      intro p hp
      have h := hrel p hp
      rw [hes] at h
      rcases h.cases with ⟨x, ys, h1, h2, h3⟩ | ⟨e', h1, -⟩
      swap
      · cases h1
      obtain rfl := Except.ok.inj h1
      refine ⟨ys, h2, ?_⟩
      rw [List.forall₂_map_left_iff]
      refine h3.imp ?_
      rintro a b ⟨⟨-, a1⟩, ⟨-, a2⟩, a3, a4, -, a5⟩
      exact ⟨a1.sim, a2, a3, a4, a5⟩
    show PlanRolloutAgrees pre n T dim row (numSteps + 1) (match es0.map g with
      | [] => .error .typeError
      | e :: rest => do
        let out := stackRollout (e :: rest) e
        RolloutNd.validate out
        return out) _ ∧ (_ → ∃ o, (match es0.map g with
      | [] => (.error .typeError : Except Err RolloutNd)
      | e :: rest => do
        let out := stackRollout (e :: rest) e
        RolloutNd.validate out
        return out) = .ok o)
    generalize es0.map g = es at hlen hall hrel'
    clear hrel hall0 hlen0 hes g
    cases es with
    | nil => simp at hlen
    | cons e es' =>
      generalize hE : e :: es' = es at *
      have he : e ∈ es := by rw [← hE]; simp
      obtain ⟨f1, fa, fo, fm, fr⟩ := hall e he
      have hsh : ∀ y ∈ es, y.reward.data.shape = pre := by
        intro y hy
        obtain ⟨h1, -, -, -, h3⟩ := hall y hy
        exact planReward_shape h1.shaped h1.time (fun e he => ⟨(hrewards e he).1, h1.supports (hrewards e he).2⟩) h3
      have hst : (stackRollout es e).state.Shaped ((numSteps + 1) :: pre) n T := by
        rw [← hlen, ← List.length_map (f := RolloutEntry.state)]
        exact stackAt_shaped f1.shaped
      have hob : (stackRollout es e).observation.Shaped ((numSteps + 1) :: pre) n T := by
        rw [← hlen, ← List.length_map (f := RolloutEntry.observation)]
        refine stackAt_shaped ?_
        rw [fo]
        exact f1.shaped
      have hac : (stackRollout es e).action.OnePerScenario ((numSteps + 1) :: pre) dim := by
        rw [← hlen]
        exact ⟨(stackAt_shape es (fun e => e.action.data) _).trans (congrArg _ fa.data),
          (stackAt_shape es (fun e => e.action.valid) _).trans (congrArg _ fa.valid)⟩
      have hre : (stackRollout es e).reward.data.shape = (numSteps + 1) :: pre := by
        rw [← hlen]
        exact (stackAt_shape es (fun e => e.reward.data) _).trans (congrArg _ (hsh e he))
      have hval : RolloutNd.validate (stackRollout es e) = .ok () := by
        unfold RolloutNd.validate
        refine assertThat_ok ?_
        have hact' : (stackRollout es e).action.shape = (numSteps + 1) :: pre := by
          unfold ActNd.shape
          rw [hac.valid, List.dropLast_concat]
        rw [hact', hst.shape_eq, hob.shape_eq, hre]
        intro sh hsh
        simp only [List.mem_cons, List.not_mem_nil, or_false] at hsh
        rcases hsh with rfl | rfl | rfl <;> rfl
      rw [← hE]
      dsimp only
      rw [hE, hval, exc_ok_bind]
      refine ⟨⟨hst, hac, hre, fun p hp => ?_⟩, fun _ => ⟨_, rfl⟩⟩
      obtain ⟨ys, h2, h3⟩ := hrel' p hp
      have hl := h3.length_eq
      refine ⟨ys, h2, by rw [← hl, hlen], fun t ht => ?_⟩
      have ht' : t < es.length := by rw [hl]; exact ht
      have hy := (List.forall₂_iff_get.1 h3).2 t ht' ht
      simp only [List.get_eq_getElem] at hy
      obtain ⟨g2, g4, g5, g6, g7⟩ := hy
      have hyt := hall es[t] (List.getElem_mem ht')
      refine ⟨?_, ?_, ?_, ?_, ?_⟩
      · rw [g2]
        have := stackAt_scenario (ss := es.map RolloutEntry.state) (s := e.state) (S := S) f1 (by
          intro r hr
          obtain ⟨y, hy, rfl⟩ := List.mem_map.1 hr
          exact (hall y hy).1) (t := t) (by simpa using ht') p
        rw [List.getElem_map] at this
        exact this
      · rw [g5]
        have := stackAt_scenario (ss := es.map RolloutEntry.observation) (s := e.observation) (S := S) (by rw [fo]; exact f1) (by
          intro r hr
          obtain ⟨y, hy, rfl⟩ := List.mem_map.1 hr
          rw [(hall y hy).2.2.1]
          exact (hall y hy).1) (t := t) (by simpa using ht') p
        rw [List.getElem_map] at this
        exact this
      · rw [g4]
        unfold ActNd.planner stackRollout
        simp only [List.cons_append, stackAt_get ht']
      · have k0 := planMetrics_shapes f1.shaped f1.time cfg names (fun k hk => f1.supports (hnames k hk)) fm
        have kt := planMetrics_shapes hyt.1.shaped hyt.1.time cfg names (fun k hk => hyt.1.supports (hnames k hk)) hyt.2.2.2.1
        rw [← hlen]
        refine stack_metrics ht' (k0.1.trans kt.1.symm) (by rw [kt.1]; exact keysOf_nodup _ _ List.nodup_nil) (fun i h h' => ?_) g6
        have a1 := k0.2 e.metrics[i] (List.getElem_mem _)
        have a2 := kt.2 es[t].metrics[i] (List.getElem_mem _)
        rw [a1.1, a1.2, a2.1, a2.2]
        exact ⟨rfl, rfl⟩
      · rw [g7]
        exact stackAt_get ht' (fun e => e.reward.data) _ _

end

end

end Waymax
