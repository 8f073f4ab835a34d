import Verif.Props.BatchRollout
import Verif.Props.BatchExpert
import Verif.Props.BatchRoute
/-
C120, continued: the multi-agent environment with the built-in metrics.
-/

namespace Waymax

section
variable {pre : List Nat} {n T : Nat}

/-! ### Stacking -/

theorem stackAt_get {β γ : Type} {ss : List γ} {t : Nat} (ht : t < ss.length) (g : γ → Nd β) (x : Nd β) (rest : List Nat) :
    (Nd.stack (ss.map g) x).get (t :: rest) = (g ss[t]).get rest := by
  show ((ss.map g).getD t x).get rest = _
  rw [List.getD_eq_getElem?_getD]
  simp [ht]

theorem stackAt_shape {β γ : Type} (ss : List γ) (g : γ → Nd β) (x : Nd β) : (Nd.stack (ss.map g) x).shape = ss.length :: x.shape := by
  show (ss.map g).length :: x.shape = _
  simp

/-- The parts of a state that no step changes, and shapes that are kept. -/
structure StateNd.Follows (s S : StateNd ℝ) (pre : List Nat) (n T : Nat) : Prop where
  shaped : s.Shaped pre n T
  time : s.timestep.shape = []
  lights : s.logTrafficLight = S.logTrafficLight
  paths : s.sdcPaths = S.sdcPaths
  map : s.roadgraphPoints = S.roadgraphPoints

theorem stackAt_shaped {ss : List (StateNd ℝ)} {s : StateNd ℝ} (h : s.Shaped pre n T) :
    (StateNd.stack ss s).Shaped (ss.length :: pre) n T := by
  refine ⟨?_, ?_, ?_⟩
  · have := h.sim
    exact ⟨(stackAt_shape ss (fun s => s.simTrajectory.x) _).trans (congrArg _ this.x), (stackAt_shape ss (fun s => s.simTrajectory.y) _).trans (congrArg _ this.y),
      (stackAt_shape ss (fun s => s.simTrajectory.z) _).trans (congrArg _ this.z), (stackAt_shape ss (fun s => s.simTrajectory.velX) _).trans (congrArg _ this.velX),
      (stackAt_shape ss (fun s => s.simTrajectory.velY) _).trans (congrArg _ this.velY), (stackAt_shape ss (fun s => s.simTrajectory.yaw) _).trans (congrArg _ this.yaw),
      (stackAt_shape ss (fun s => s.simTrajectory.valid) _).trans (congrArg _ this.valid),
      (stackAt_shape ss (fun s => s.simTrajectory.timestampMicros) _).trans (congrArg _ this.timestampMicros),
      (stackAt_shape ss (fun s => s.simTrajectory.length) _).trans (congrArg _ this.length), (stackAt_shape ss (fun s => s.simTrajectory.width) _).trans (congrArg _ this.width),
      (stackAt_shape ss (fun s => s.simTrajectory.height) _).trans (congrArg _ this.height)⟩
  · have := h.log
    exact ⟨(stackAt_shape ss (fun s => s.logTrajectory.x) _).trans (congrArg _ this.x), (stackAt_shape ss (fun s => s.logTrajectory.y) _).trans (congrArg _ this.y),
      (stackAt_shape ss (fun s => s.logTrajectory.z) _).trans (congrArg _ this.z), (stackAt_shape ss (fun s => s.logTrajectory.velX) _).trans (congrArg _ this.velX),
      (stackAt_shape ss (fun s => s.logTrajectory.velY) _).trans (congrArg _ this.velY), (stackAt_shape ss (fun s => s.logTrajectory.yaw) _).trans (congrArg _ this.yaw),
      (stackAt_shape ss (fun s => s.logTrajectory.valid) _).trans (congrArg _ this.valid),
      (stackAt_shape ss (fun s => s.logTrajectory.timestampMicros) _).trans (congrArg _ this.timestampMicros),
      (stackAt_shape ss (fun s => s.logTrajectory.length) _).trans (congrArg _ this.length), (stackAt_shape ss (fun s => s.logTrajectory.width) _).trans (congrArg _ this.width),
      (stackAt_shape ss (fun s => s.logTrajectory.height) _).trans (congrArg _ this.height)⟩
  · have := h.metadata
    exact ⟨(stackAt_shape ss (fun s => s.objectMetadata.ids) _).trans (congrArg _ this.ids),
      (stackAt_shape ss (fun s => s.objectMetadata.objectTypes) _).trans (congrArg _ this.objectTypes),
      (stackAt_shape ss (fun s => s.objectMetadata.isSdc) _).trans (congrArg _ this.isSdc),
      (stackAt_shape ss (fun s => s.objectMetadata.isModeled) _).trans (congrArg _ this.isModeled),
      (stackAt_shape ss (fun s => s.objectMetadata.isValid) _).trans (congrArg _ this.isValid),
      (stackAt_shape ss (fun s => s.objectMetadata.objectsOfInterest) _).trans (congrArg _ this.objectsOfInterest),
      (stackAt_shape ss (fun s => s.objectMetadata.isControlled) _).trans (congrArg _ this.isControlled)⟩

/-- Scenario `t, p` of states next to each other is scenario `p` of state `t`. -/
theorem stackAt_scenario {S : StateNd ℝ} {ss : List (StateNd ℝ)} {s : StateNd ℝ} (hs : s.Follows S pre n T)
    (h : ∀ r ∈ ss, r.Follows S pre n T) {t : Nat} (ht : t < ss.length) (p : List Nat) :
    (StateNd.stack ss s).scenario n T (t :: p) = ss[t].scenario n T p := by
  have hk := h ss[t] (List.getElem_mem ht)
  unfold StateNd.scenario
  congr 1
  · funext i j
    unfold StateNd.stack TrajNd.at_
    simp only [List.cons_append, stackAt_get ht]
  · funext i j
    unfold StateNd.stack TrajNd.at_
    simp only [List.cons_append, stackAt_get ht]
  · rw [show (StateNd.stack ss s).logTrafficLight.shape = ss.length :: s.logTrafficLight.shape from stackAt_shape ss _ _,
      List.length_cons, List.getD_cons_succ, hk.lights, hs.lights]
    apply List.map_congr_left
    intro l _
    funext j
    refine (stackAt_get ht StateNd.logTrafficLight _ _).trans ?_
    rw [hk.lights]
    rfl
  · funext i
    unfold StateNd.stack MetaNd.at_
    simp only [List.cons_append, stackAt_get ht]
  · rw [show (StateNd.stack ss s).timestep.shape = ss.length :: s.timestep.shape from stackAt_shape ss _ _, hs.time, hk.time]
    exact stackAt_get ht StateNd.timestep _ _
  · show (s.sdcPaths.map _).map _ = _
    have e := hk.paths.trans hs.paths.symm
    rw [e]
    cases hq : s.sdcPaths with
    | none => rfl
    | some q =>
      have hqt : ss[t].sdcPaths = some q := e.trans hq
      simp only [Option.map_some, Option.some.injEq]
      rw [stackAt_shape, List.length_cons, List.getD_cons_succ]
      apply List.map_congr_left
      intro j _
      congr 1
      · unfold Nd.rows
        rw [stackAt_shape, List.cons_append, List.length_cons, List.getD_cons_succ]
        refine List.map_congr_left fun x _ => ?_
        rw [List.cons_append, stackAt_get ht, hqt]
        rfl
      · rw [List.cons_append, stackAt_get ht, hqt]
        rfl
  · show (s.roadgraphPoints.map _).map _ = _
    have e := hk.map.trans hs.map.symm
    rw [e]
    cases hq : s.roadgraphPoints with
    | none => rfl
    | some q =>
      have hqt : ss[t].roadgraphPoints = some q := e.trans hq
      simp only [Option.map_some, Option.some.injEq]
      unfold Nd.rows
      rw [stackAt_shape, List.length_cons, List.getD_cons_succ]
      refine List.map_congr_left fun x _ => ?_
      rw [List.cons_append, stackAt_get ht, hqt]
      rfl

/-! ### Metrics -/

theorem MetricsRead.has {p : List Nat} {ms : Dict MetricNd} {as : Dict (MetricArr n)} (h : MetricsRead pre n p ms as) (k : String) :
    ms.has k = as.has k := by
  unfold Dict.has
  induction h with
  | nil => rfl
  | cons h1 _ ih => simp only [List.any_cons, h1.1, ih]

theorem MetricsRead.set {p : List Nat} {ms : Dict MetricNd} {as : Dict (MetricArr n)} (h : MetricsRead pre n p ms as) (k : String)
    {m : MetricNd} {a : MetricArr n} (hm : m.Reads pre n p a) : MetricsRead pre n p (ms.set k m) (as.set k a) := by
  unfold Dict.set
  rw [h.has k]
  split
  · rename_i hh
    clear hh
    unfold MetricsRead at h ⊢
    induction h with
    | nil => exact .nil
    | cons h1 _ ih =>
      refine .cons ?_ ih
      beta_reduce
      rw [h1.1]
      split
      · exact ⟨rfl, hm⟩
      · exact h1
  · exact List.rel_append h (.cons ⟨rfl, hm⟩ .nil)

/-- The shape of a metric, after the batch axes. -/
def metricTail (n : Nat) (name : String) : List Nat := if name ∈ scenarioMetricNames then [] else [n]

variable [NeZero T]

/-- The built-in metrics on a batch and on its scenarios. -/
theorem builtin_reads {S : StateNd ℝ} (hS : S.Shaped pre n T) (ht : S.timestep.shape = []) {k : String} (hk : S.Supports pre T k) :
    (builtinMetricsNd.get? k = none ∧ (builtinMetrics (n := n) (T := T)).get? k = none) ∨
    ∃ f m μ, builtinMetricsNd.get? k = some f ∧ f S = .ok m ∧ (builtinMetrics (n := n) (T := T)).get? k = some μ ∧
      m.value.shape = pre ++ metricTail n k ∧ m.valid.shape = pre ++ metricTail n k ∧
      ∀ p, InRange pre p → ∃ a, μ (S.scenario n T p) = .ok a ∧ m.Reads pre n p a := by
  by_cases hin : k ∈ ["log_divergence", "overlap", "offroad", "kinematic_infeasibility", "sdc_wrongway", "sdc_progression", "sdc_off_route"]
  · right
    have hobj : ∀ {m : MetricNd} {r : List Nat → Except Err (Fin n → MetricResult)}, m.PerObject pre n r →
        ∀ p, InRange pre p → ∃ q, r p = .ok q ∧ m.Reads pre n p (.perObject q) :=
      fun h p hp => ⟨_, h.2.2 p hp, h.1, h.2.1, fun _ => rfl⟩
    have hsc : ∀ {m : MetricNd} {r : List Nat → Except Err MetricResult}, m.PerScenario pre r →
        ∀ p, InRange pre p → ∃ q, r p = .ok q ∧ m.Reads pre n p (.scalar q) :=
      fun h p hp => ⟨_, h.2.2 p hp, h.1, h.2.1, rfl⟩
    simp only [List.mem_cons, List.not_mem_nil, or_false] at hin
    rcases hin with rfl | rfl | rfl | rfl | rfl | rfl | rfl
    · obtain ⟨m, e, h⟩ := C108_log_divergence hS (.inl ht)
      refine ⟨_, m, _, rfl, e, rfl, h.1, h.2.1, fun p hp => ?_⟩
      obtain ⟨q, e1, e2⟩ := hobj h p hp
      exact ⟨_, congrArg (fun r => Except.ok (MetricArr.perObject r)) (Except.ok.inj e1), e2⟩
    · obtain ⟨m, e, h⟩ := C108_overlap hS (.inl ht)
      refine ⟨_, m, _, rfl, e, rfl, h.1, h.2.1, fun p hp => ?_⟩
      obtain ⟨q, e1, e2⟩ := hobj h p hp
      exact ⟨_, congrArg (fun r => Except.ok (MetricArr.perObject r)) (Except.ok.inj e1), e2⟩
    · obtain ⟨M, hM, hr⟩ := hk.1 rfl
      obtain ⟨m, e, h⟩ := C108_offroad hS (.inl ht) hr hM
      refine ⟨_, m, _, rfl, e, rfl, h.1, h.2.1, fun p hp => ?_⟩
      obtain ⟨q, e1, e2⟩ := hobj h p hp
      exact ⟨_, by simp only [e1, bind, Except.bind, pure, Except.pure], e2⟩
    · obtain ⟨m, e, h⟩ := C108_kinematic {} hS ht (hk.2.2 rfl)
      refine ⟨_, m, _, rfl, e, rfl, h.1, h.2.1, fun p hp => ?_⟩
      obtain ⟨q, e1, e2⟩ := hobj h p hp
      exact ⟨_, congrArg (fun r => Except.ok (MetricArr.perObject r)) (Except.ok.inj e1), e2⟩
    · obtain ⟨P, M, hP, hM, hr⟩ := hk.2.1 (by simp [scenarioMetricNames])
      obtain ⟨m, e, h⟩ := C108_wrong_way hS (.inl ht) hr hP hM
      refine ⟨_, m, _, rfl, e, rfl, h.1.trans (List.append_nil _).symm, h.2.1.trans (List.append_nil _).symm, fun p hp => ?_⟩
      obtain ⟨q, e1, e2⟩ := hsc h p hp
      exact ⟨_, by simp only [e1, bind, Except.bind, pure, Except.pure], e2⟩
    · obtain ⟨P, M, hP, hM, hr⟩ := hk.2.1 (by simp [scenarioMetricNames])
      obtain ⟨m, e, h⟩ := C108_progression hS (.inl ht) hr hP hM
      refine ⟨_, m, _, rfl, e, rfl, h.1.trans (List.append_nil _).symm, h.2.1.trans (List.append_nil _).symm, fun p hp => ?_⟩
      obtain ⟨q, e1, e2⟩ := hsc h p hp
      exact ⟨_, by simp only [e1, bind, Except.bind, pure, Except.pure], e2⟩
    · obtain ⟨P, M, hP, hM, hr⟩ := hk.2.1 (by simp [scenarioMetricNames])
      obtain ⟨m, e, h⟩ := C108_off_route hS (.inl ht) hr hP hM
      refine ⟨_, m, _, rfl, e, rfl, h.1.trans (List.append_nil _).symm, h.2.1.trans (List.append_nil _).symm, fun p hp => ?_⟩
      obtain ⟨q, e1, e2⟩ := hsc h p hp
      exact ⟨_, by simp only [e1, bind, Except.bind, pure, Except.pure], e2⟩
  · left
    constructor
    · rw [Dict.get?_none]; exact hin
    · rw [Dict.get?_none]; exact hin

theorem runMetrics_reads {S : StateNd ℝ} (hS : S.Shaped pre n T) (ht : S.timestep.shape = []) (names : List String)
    (hk : ∀ k ∈ names, S.Supports pre T k) {p : List Nat} (hp : InRange pre p) :
    ExRel (MetricsRead pre n p) (runMetricsNd builtinMetricsNd S names) (runMetrics builtinMetrics (S.scenario n T p) names) := by
  unfold runMetricsNd runMetrics
  suffices h : ∀ names : List String, (∀ k ∈ names, S.Supports pre T k) → ∀ ms as, MetricsRead pre n p ms as → ExRel (MetricsRead pre n p)
      (names.foldlM (fun results name => match builtinMetricsNd.get? name with
        | some m => do return results.set name (← m S)
        | none => (Except.error .valueError : Except Err (Dict MetricNd))) ms)
      (names.foldlM (fun results name => match (builtinMetrics (n := n) (T := T)).get? name with
        | some m => do return results.set name (← m (S.scenario n T p))
        | none => (Except.error .valueError : Except Err (Dict (MetricArr n)))) as) from h names hk [] [] .nil
  intro names
  induction names with
  | nil => exact fun _ ms as h => h
  | cons k names ih =>
    intro hk ms as h
    rw [List.foldlM_cons, List.foldlM_cons]
    refine ExRel.bind (Q := MetricsRead pre n p) ?_ fun ms' as' h' => ih (fun k hk' => hk k (by simp [hk'])) ms' as' h'
    rcases builtin_reads hS ht (hk k (by simp)) with ⟨h1, h2⟩ | ⟨f, m, μ, h1, h2, h3, -, -, h4⟩
    · simp only [h1, h2]; rfl
    · obtain ⟨a, h5, h6⟩ := h4 p hp
      simp only [h1, h2, h3, h5, exc_ok_bind]
      exact h.set k h6

/-- The keys of a dictionary that is filled in the order of `names`. -/
def keysOf (acc names : List String) : List String := names.foldl (fun ks k => if k ∈ ks then ks else ks ++ [k]) acc

theorem keysOf_nodup (names acc : List String) (h : acc.Nodup) : (keysOf acc names).Nodup := by
  unfold keysOf
  induction names generalizing acc with
  | nil => exact h
  | cons k names ih =>
    rw [List.foldl_cons]
    apply ih
    split
    · exact h
    · rename_i hk
      rw [List.nodup_append]
      exact ⟨h, by simp, fun a ha b hb e => hk (by rw [List.mem_singleton.1 hb] at e; exact e ▸ ha)⟩

omit [NeZero T] in
theorem set_keys {β : Type} (d : Dict β) (k : String) (v : β) :
    (d.set k v).map Prod.fst = if k ∈ d.map Prod.fst then d.map Prod.fst else d.map Prod.fst ++ [k] := by
  unfold Dict.set
  by_cases h : k ∈ d.map Prod.fst
  · rw [if_pos ((Dict.has_iff d k).2 h), if_pos h, List.map_map]
    refine List.map_congr_left fun e _ => ?_
    by_cases he : e.1 = k <;> simp [he]
  · rw [if_neg (fun h' => h ((Dict.has_iff d k).1 h')), if_neg h]
    simp

/-- The names in the results, and the shape of each. -/
theorem runMetrics_shapes {S : StateNd ℝ} (hS : S.Shaped pre n T) (ht : S.timestep.shape = []) (names : List String)
    (hk : ∀ k ∈ names, S.Supports pre T k) {out : Dict MetricNd} (h : runMetricsNd builtinMetricsNd S names = .ok out) :
    out.map Prod.fst = keysOf [] names ∧
      ∀ e ∈ out, e.2.value.shape = pre ++ metricTail n e.1 ∧ e.2.valid.shape = pre ++ metricTail n e.1 := by
  unfold runMetricsNd at h
  suffices hs : ∀ names : List String, (∀ k ∈ names, S.Supports pre T k) → ∀ ms : Dict MetricNd,
      (∀ e ∈ ms, e.2.value.shape = pre ++ metricTail n e.1 ∧ e.2.valid.shape = pre ++ metricTail n e.1) →
      names.foldlM (fun results name => match builtinMetricsNd.get? name with
        | some m => do return results.set name (← m S)
        | none => (Except.error .valueError : Except Err (Dict MetricNd))) ms = .ok out →
      out.map Prod.fst = keysOf (ms.map Prod.fst) names ∧
        ∀ e ∈ out, e.2.value.shape = pre ++ metricTail n e.1 ∧ e.2.valid.shape = pre ++ metricTail n e.1 from
    hs names hk [] (by simp) h
  clear h hk
  intro names
  induction names with
  | nil =>
    intro _ ms hms h
    obtain rfl := Except.ok.inj h
    exact ⟨rfl, hms⟩
  | cons k names ih =>
    intro hk ms hms h
    rw [List.foldlM_cons] at h
    rcases builtin_reads hS ht (hk k (by simp)) with ⟨h1, -⟩ | ⟨f, m, μ, h1, h2, -, h3, h4, -⟩
    · simp only [h1] at h
      cases h
    · simp only [h1, h2, exc_ok_bind] at h
      obtain ⟨g1, g2⟩ := ih (fun k hk' => hk k (by simp [hk'])) (ms.set k m) (by
        intro e he
        unfold Dict.set at he
        split at he
        · obtain ⟨e', he', rfl⟩ := List.mem_map.1 he
          split
          · exact ⟨h3, h4⟩
          · exact hms e' he'
        · rcases List.mem_append.1 he with he | he
          · exact hms e he
          · obtain rfl := List.mem_singleton.1 he
            exact ⟨h3, h4⟩) h
      refine ⟨?_, g2⟩
      rw [g1, set_keys]
      rfl

/-! ### The environment -/

theorem StateNd.Follows.supports {s S : StateNd ℝ} (h : s.Follows S pre n T) {k : String} (hk : S.Supports pre T k) : s.Supports pre T k := by
  refine ⟨fun e => ?_, fun e => ?_, hk.2.2⟩
  · obtain ⟨M, h1, h2⟩ := hk.1 e
    exact ⟨M, h1, by unfold StateNd.HasRoadgraph; rw [h.map]; exact h2⟩
  · obtain ⟨P, M, h1, h2, h3⟩ := hk.2.1 e
    exact ⟨P, M, h1, h2, by unfold StateNd.HasPaths; rw [h.paths]; exact h3⟩

/-- A built-in metric with one number for each object. -/
theorem builtin_agrees {S : StateNd ℝ} (hS : S.Shaped pre n T) (ht : S.timestep.shape = []) {k : String} (hk : S.Supports pre T k)
    (hin : k ∈ ["log_divergence", "overlap", "offroad", "kinematic_infeasibility"]) :
    MetricAgrees builtinMetricsNd (builtinMetrics (n := n) (T := T)) pre S k := by
  simp only [List.mem_cons, List.not_mem_nil, or_false] at hin
  rcases hin with rfl | rfl | rfl | rfl
  · obtain ⟨m, e, s1, s2, g⟩ := C108_log_divergence hS (.inl ht)
    exact ⟨_, m, _, rfl, e, rfl, s1, s2, fun p hp => congrArg (fun r => Except.ok (MetricArr.perObject r)) (Except.ok.inj (g p hp))⟩
  · obtain ⟨m, e, s1, s2, g⟩ := C108_overlap hS (.inl ht)
    exact ⟨_, m, _, rfl, e, rfl, s1, s2, fun p hp => congrArg (fun r => Except.ok (MetricArr.perObject r)) (Except.ok.inj (g p hp))⟩
  · obtain ⟨M, hM, hr⟩ := hk.1 rfl
    obtain ⟨m, e, s1, s2, g⟩ := C108_offroad hS (.inl ht) hr hM
    refine ⟨_, m, _, rfl, e, rfl, s1, s2, fun p hp => ?_⟩
    have := g p hp
    simp only [this, bind, Except.bind, pure, Except.pure]
  · obtain ⟨m, e, s1, s2, g⟩ := C108_kinematic {} hS ht (hk.2.2 rfl)
    exact ⟨_, m, _, rfl, e, rfl, s1, s2, fun p hp => congrArg (fun r => Except.ok (MetricArr.perObject r)) (Except.ok.inj (g p hp))⟩

theorem reward_cases {S : StateNd ℝ} (hS : S.Shaped pre n T) (ht : S.timestep.shape = []) {cfg : EnvConfig} (hn : cfg.maxNumObjects = n)
    (computeReward : Bool) {rewards : Dict ℝ}
    (hr : ∀ e ∈ rewards, e.1 ∈ ["log_divergence", "overlap", "offroad", "kinematic_infeasibility"] ∧ S.Supports pre T e.1) {D : Type} :
    (∃ r, baseRewardNd builtinMetricsNd cfg computeReward rewards S = .ok r ∧ r.data.shape = pre ++ [n] ∧
      ∀ p, InRange pre p → ∀ act : Fin n → Act D, envReward builtinMetrics cfg computeReward rewards (S.scenario n T p) act =
        .ok fun i => r.data.get (p ++ [i.val])) ∨
    ∃ e, baseRewardNd builtinMetricsNd cfg computeReward rewards S = .error e ∧
      ∀ p (act : Fin n → Act D), envReward builtinMetrics cfg computeReward rewards (S.scenario n T p) act = .error e := by
  by_cases hc : cfg.controlledObject = .NON_SDC ∧ computeReward = true
  · right
    refine ⟨.valueError, ?_, fun p act => ?_⟩
    · unfold baseRewardNd
      rw [if_pos hc.2, hc.1]
      rfl
    · unfold envReward
      rw [if_pos hc.2, hc.1]
      rfl
  · left
    by_cases hc' : cfg.controlledObject = .NON_SDC
    · have hf : computeReward = false := by simpa [hc'] using hc
      subst hf
      refine ⟨_, rfl, ?_, fun p _ act => rfl⟩
      show S.shape ++ [cfg.maxNumObjects] = _
      rw [hS.shape_eq, hn]
    · have hagr := fun e he => builtin_agrees hS ht (hr e he).2 (hr e he).1
      by_cases hD : Nonempty (Fin n → Act D)
      · obtain ⟨act0⟩ := hD
        obtain ⟨r, e1, s1, g1⟩ := C112_reward hS hn hc' computeReward (reg := builtinMetrics (n := n) (T := T)) hagr act0
        refine ⟨r, e1, by rw [s1, ← hn]; rfl, fun p hp act => ?_⟩
        rw [← g1 p hp]
        rfl
      · obtain ⟨r, e1, s1, g1⟩ := C112_reward hS hn hc' computeReward (reg := builtinMetrics (n := n) (T := T)) hagr (D := Unit)
          fun _ => ⟨(), true⟩
        exact ⟨r, e1, by rw [s1, ← hn]; rfl, fun p hp act => absurd ⟨act⟩ hD⟩

theorem reset_follows {cfg : EnvConfig} {S s : StateNd ℝ} (h : S.Shaped pre n T) (hr : resetNd cfg S = .ok s) :
    s.Follows S pre n T ∧ cfg.maxNumObjects = n := by
  have hb := C105_reset cfg h
  rw [hr] at hb
  have hn : S.logTrajectory.numObjects = .ok n := by
    unfold TrajNd.numObjects TrajNd.shape
    rw [h.log.x]
    simp
  unfold resetNd at hr
  rw [hn, exc_ok_bind] at hr
  obtain ⟨u, h1, hr⟩ := bind_eq_ok.1 hr
  unfold updateStateByLogNd at hr
  obtain ⟨t, -, hr⟩ := bind_eq_ok.1 hr
  refine ⟨⟨hb.1, hb.2.1, ?_, ?_, ?_⟩, ?_⟩
  · rw [← Except.ok.inj hr]
  · rw [← Except.ok.inj hr]
  · rw [← Except.ok.inj hr]
  · by_contra hc
    rw [assertThat_error hc] at h1
    cases h1

theorem step_follows {D : Type} {dn : DynNd ℝ} {dim : Nat} {row : (Nat → ℝ) → D} {d : DynamicsModel ℝ D n} (hd : dn.Refines n dim row d)
    {cfg : EnvConfig} {S s s' : StateNd ℝ} (h : s.Follows S pre n T) {a : ActNd ℝ} (ha : a.Shaped pre n dim)
    (hr : stepNd dn cfg s a = .ok s') : s'.Follows S pre n T := by
  have hb := C105_step hd cfg h.shaped h.time ha
  rw [hr] at hb
  unfold stepNd at hr
  obtain ⟨m, -, hr⟩ := bind_eq_ok.1 hr
  obtain ⟨t, -, hr⟩ := bind_eq_ok.1 hr
  refine ⟨hb.1, hb.2.1, ?_, ?_, ?_⟩
  · rw [← Except.ok.inj hr]; exact h.lights
  · rw [← Except.ok.inj hr]; exact h.paths
  · rw [← Except.ok.inj hr]; exact h.map

theorem forall₂_nodup_get {ms : Dict MetricNd} {as : Dict (MetricArr n)} {p : List Nat} (h : MetricsRead pre n p ms as)
    (hn : (ms.map Prod.fst).Nodup) : ∀ (i : Nat) (hi : i < ms.length) (hi' : i < as.length), ms[i].1 = as[i].1 ∧
      ms.get? ms[i].1 = some ms[i].2 ∧ ms[i].2.Reads pre n p as[i].2 := by
  intro i hi hi'
  have h1 : ms[i].1 = as[i].1 ∧ ms[i].2.Reads pre n p as[i].2 := (List.forall₂_iff_get.1 h).2 i hi hi'
  refine ⟨h1.1, ?_, h1.2⟩
  clear h1 h hi' as
  induction ms generalizing i with
  | nil => simp at hi
  | cons m ms ih =>
    rw [List.map_cons, List.nodup_cons] at hn
    unfold Dict.get?
    cases i with
    | zero => simp
    | succ i =>
      have hlt : i < ms.length := by simpa using hi
      simp only [List.getElem_cons_succ]
      rw [List.find?_cons_of_neg]
      · exact ih hn.2 i hlt
      · intro he
        apply hn.1
        rw [beq_iff_eq.1 he]
        exact List.mem_map.2 ⟨_, List.getElem_mem hlt, rfl⟩

theorem rollout_core {X X' K P C C' D : Type} {dn : DynNd ℝ} {dim : Nat} {row : (Nat → ℝ) → D} {d : DynamicsModel ℝ D n}
    (hd : dn.Refines n dim row d) {act : RaisingActor (StateNd ℝ) (ActNd ℝ) X K P C}
    {single : List Nat → Actor (SimState ℝ n T) (Fin n → Act D) X' K P C'} {params : P} {Q : List Nat → X → X' → Prop}
    (hact : act.Refines single params pre dim row Q) (cfg : EnvConfig) {S : StateNd ℝ} (hS : S.Shaped pre n T)
    (names : List String) (hnames : ∀ k ∈ names, S.Supports pre T k) (computeReward : Bool) (rewards : Dict ℝ)
    (hrewards : ∀ e ∈ rewards, e.1 ∈ ["log_divergence", "overlap", "offroad", "kinematic_infeasibility"] ∧ S.Supports pre T e.1)
    (split : K → K × K) (rng : K) (numSteps : Nat) :
    (RolloutAgrees pre n T dim row (numSteps + 1)
        (rolloutNd (baseEnvNd dn cfg builtinMetricsNd names computeReward rewards) act split params S rng numSteps)
        fun p => rollout (baseEnv d cfg (envMetrics builtinMetrics names) (envReward builtinMetrics cfg computeReward rewards)) (single p)
          split params (zeroActions row n) (S.scenario n T p) rng numSteps) ∧
    ((∃ es, rolloutEntries (baseEnvNd dn cfg builtinMetricsNd names computeReward rewards) act split params ActNd.zerosLike S rng numSteps =
        .ok es) →
      ∃ o, rolloutNd (baseEnvNd dn cfg builtinMetricsNd names computeReward rewards) act split params S rng numSteps = .ok o) := by
  have hrel : ∀ p, InRange pre p → ExRel _ _ _ := fun p hp =>
    rollout_rel (E := baseEnvNd dn cfg builtinMetricsNd names computeReward rewards)
      (e := baseEnv d cfg (envMetrics builtinMetrics names) (envReward builtinMetrics cfg computeReward rewards))
      (act := act) (act' := single p) (split := split) (params := params) (z := ActNd.zerosLike) (z' := zeroActions row n)
      (Qs := fun s s' => (s.Follows S pre n T ∧ cfg.maxNumObjects = n) ∧ s' = s.scenario n T p)
      (Qa := fun a a' => a.Shaped pre n dim ∧ a' = a.scenario row n p)
      (Qo := fun o o' => o' = o.scenario n T p)
      (Qm := fun m m' => MetricsRead pre n p m m')
      (Qr := fun r r' => r' = fun i => r.data.get (p ++ [i.val])) (Qx := Q p)
      (by
        rintro s s' a a' ⟨⟨h1, h2⟩, rfl⟩ ⟨h3, rfl⟩
        have hb := C105_step hd cfg h1.shaped h1.time h3
        show ExRel _ (stepNd dn cfg s a) (step d cfg (s.scenario n T p) (a.scenario row n p))
        cases hr : stepNd dn cfg s a with
        | ok s1 =>
          rw [hr] at hb
          have hb2 := hb.2.2 p hp
          beta_reduce at hb2
          rw [hb2]
          exact ⟨⟨step_follows hd h1 h3 hr, h2⟩, rfl⟩
        | error e =>
          rw [hr] at hb
          have hb2 := hb p hp
          beta_reduce at hb2
          rw [hb2]
          rfl)
      (by rintro s s' ⟨-, rfl⟩; rfl)
      (by
        rintro s s' ⟨⟨h1, -⟩, rfl⟩
        exact runMetrics_reads h1.shaped h1.time names (fun k hk => h1.supports (hnames k hk)) hp)
      (by
        rintro s s' a a' ⟨⟨h1, h2⟩, rfl⟩ ⟨h3, rfl⟩
        show ExRel _ (baseRewardNd builtinMetricsNd cfg computeReward rewards s)
          (envReward builtinMetrics cfg computeReward rewards (s.scenario n T p) (a.scenario row n p))
        rcases reward_cases h1.shaped h1.time h2 computeReward (fun e he => ⟨(hrewards e he).1, h1.supports (hrewards e he).2⟩) (D := D) with
          ⟨r, e1, -, g1⟩ | ⟨e, e1, g1⟩
        · rw [e1, g1 p hp]; rfl
        · rw [e1, g1 p]; rfl)
      (by
        rintro k s s' ⟨⟨h1, -⟩, rfl⟩
        exact hact.init k s h1.shaped h1.time p hp)
      (by
        rintro k s s' x x' ⟨⟨h1, -⟩, rfl⟩ hx
        obtain ⟨o, e1, s1, g1⟩ := hact.select k s x h1.shaped h1.time
        exact ⟨o, e1, ⟨s1, (g1 p hp x' hx).1.symm⟩, (g1 p hp x' hx).2⟩)
      (by
        rintro a a' ⟨h1, rfl⟩
        exact ⟨⟨h1.data, h1.valid⟩, rfl⟩)
      (s := S) (s' := S.scenario n T p)
      (by
        have hb := C105_reset cfg hS
        show ExRel _ (resetNd cfg S) (reset cfg (S.scenario n T p))
        cases hr : resetNd cfg S with
        | ok s1 =>
          rw [hr] at hb
          have hb2 := hb.2.2 p hp
          beta_reduce at hb2
          rw [hb2]
          exact ⟨reset_follows hS hr, rfl⟩
        | error e =>
          rw [hr] at hb
          have hb2 := hb p hp
          beta_reduce at hb2
          rw [hb2]
          rfl) rng numSteps
  unfold rolloutNd
  cases hes : rolloutEntries (baseEnvNd dn cfg builtinMetricsNd names computeReward rewards) act split params ActNd.zerosLike S rng numSteps with
  | error e =>
    refine ⟨?_, fun ⟨es, h⟩ => nomatch h⟩
    intro p hp
    have := hrel p hp
    rw [hes] at this
    rcases this.cases with ⟨x, y, h1, -⟩ | ⟨e', h1, h2⟩
    · cases h1
    · beta_reduce
      rw [h2, ← Except.error.inj h1]
  | ok es =>
    obtain ⟨hlen, hall⟩ := rolloutEntries_all (Gs := fun s => s.Follows S pre n T ∧ cfg.maxNumObjects = n)
      (Ga := fun a => a.Shaped pre n dim) (fun s a s' h1 h2 h3 => ⟨step_follows hd h1.1 h2 h3, h1.2⟩)
      (fun k s x o h1 h2 => by
        obtain ⟨o', e1, s1, -⟩ := hact.select k s x h1.1.shaped h1.1.time
        rw [e1] at h2
        rw [← Except.ok.inj h2]
        exact s1)
      (fun a h => ⟨h.data, h.valid⟩) (fun s' h => reset_follows hS h) hes
    rw [exc_ok_bind]
    cases es with
    | nil => simp at hlen
    | cons e es' =>
      generalize hE : e :: es' = es at *
      have he : e ∈ es := by rw [← hE]; simp
      obtain ⟨⟨f1, f2⟩, fa, fo, fm, fr⟩ := hall e he
      have hsh : ∀ y ∈ es, y.reward.data.shape = pre ++ [n] := by
        intro y hy
        obtain ⟨⟨h1, h2⟩, -, -, -, h3⟩ := hall y hy
        rcases reward_cases h1.shaped h1.time h2 computeReward (fun e he => ⟨(hrewards e he).1, h1.supports (hrewards e he).2⟩) (D := D) with
          ⟨r, e1, s1, -⟩ | ⟨e, e1, -⟩
        · have : Except.ok r = Except.ok y.reward := e1.symm.trans h3
          rw [← Except.ok.inj this]
          exact s1
        · cases e1.symm.trans h3
      have hst : (stackRollout es e).state.Shaped ((numSteps + 1) :: pre) n T := by
        rw [← hlen, ← List.length_map (f := RolloutEntry.state)]
        exact stackAt_shaped f1.shaped
      have hob : (stackRollout es e).observation.Shaped ((numSteps + 1) :: pre) n T := by
        rw [← hlen, ← List.length_map (f := RolloutEntry.observation)]
        refine stackAt_shaped ?_
        rw [fo]
        exact f1.shaped
      have hac : (stackRollout es e).action.Shaped ((numSteps + 1) :: pre) n dim := by
        rw [← hlen]
        exact ⟨(stackAt_shape es (fun e => e.action.data) _).trans (congrArg _ fa.data),
          (stackAt_shape es (fun e => e.action.valid) _).trans (congrArg _ fa.valid)⟩
      have hre : (stackRollout es e).reward.data.shape = (numSteps + 1) :: (pre ++ [n]) := by
        rw [← hlen]
        exact (stackAt_shape es (fun e => e.reward.data) _).trans (congrArg _ (hsh e he))
      have hval : RolloutNd.validate (stackRollout es e) = .ok () := by
        unfold RolloutNd.validate
        refine assertThat_ok ?_
        have hact' : (stackRollout es e).action.shape = ((numSteps + 1) :: pre) ++ [n] := by
          unfold ActNd.shape
          rw [hac.valid, snoc2, List.dropLast_concat]
        rw [hact', hst.shape_eq, hob.shape_eq, hre]
        intro sh hsh
        simp only [List.mem_cons, List.not_mem_nil, or_false] at hsh
        rw [List.take_left]
        rcases hsh with rfl | rfl | rfl
        · rw [List.take_length]
        · rw [List.take_length]
        · rw [← List.cons_append, List.take_left]
      rw [← hE]
      dsimp only
      rw [hE, hval, exc_ok_bind]
      refine ⟨⟨hst, hac, hre, fun p hp => ?_⟩, fun _ => ⟨_, rfl⟩⟩
      have h := hrel p hp
      rw [hes] at h
      rcases h.cases with ⟨x, ys, h1, h2, h3⟩ | ⟨e', h1, -⟩
      swap
      · cases h1
      obtain rfl := Except.ok.inj h1
      have hl := h3.length_eq
      refine ⟨ys, h2, by rw [← hl, hlen], fun t ht => ?_⟩
      have ht' : t < es.length := by rw [hl]; exact ht
      have hy := (List.forall₂_iff_get.1 h3).2 t ht' ht
      simp only [List.get_eq_getElem] at hy
      obtain ⟨⟨⟨g1, -⟩, g2⟩, ⟨g3, g4⟩, g5, g6, g7⟩ := hy
      have hyt := hall es[t] (List.getElem_mem ht')
      refine ⟨?_, ?_, ?_, ?_, ?_⟩
      · rw [g2]
        have := stackAt_scenario (ss := es.map RolloutEntry.state) (s := e.state) (S := S) f1 (by
          intro r hr
          obtain ⟨y, hy, rfl⟩ := List.mem_map.1 hr
          exact (hall y hy).1.1) (t := t) (by simpa using ht') p
        rw [List.getElem_map] at this
        exact this
      · rw [g5]
        have := stackAt_scenario (ss := es.map RolloutEntry.observation) (s := e.observation) (S := S) (by rw [fo]; exact f1) (by
          intro r hr
          obtain ⟨y, hy, rfl⟩ := List.mem_map.1 hr
          rw [(hall y hy).2.2.1]
          exact (hall y hy).1.1) (t := t) (by simpa using ht') p
        rw [List.getElem_map] at this
        exact this
      · rw [g4]
        funext i
        unfold ActNd.scenario stackRollout
        simp only [List.cons_append, stackAt_get ht']
      · have k0 := runMetrics_shapes f1.shaped f1.time names (fun k hk => f1.supports (hnames k hk)) fm
        have kt := runMetrics_shapes hyt.1.1.shaped hyt.1.1.time names (fun k hk => hyt.1.1.supports (hnames k hk)) hyt.2.2.2.1
        have hkeys : e.metrics.map Prod.fst = es[t].metrics.map Prod.fst := k0.1.trans kt.1.symm
        have hnd : (es[t].metrics.map Prod.fst).Nodup := by rw [kt.1]; exact keysOf_nodup _ _ List.nodup_nil
        have hlm : e.metrics.length = es[t].metrics.length := by simpa using congrArg List.length hkeys
        have hll := g6.length_eq
        unfold MetricsRead
        rw [List.forall₂_iff_get]
        refine ⟨by simp [stackRollout, hlm, hll], fun i hi hi' => ?_⟩
        have hi0 : i < e.metrics.length := by simpa [stackRollout] using hi
        obtain ⟨q1, q2, q3⟩ := forall₂_nodup_get g6 hnd i (by omega) hi'
        have hname : e.metrics[i].1 = es[t].metrics[i].1 := by
          have := congrArg (fun l => l[i]?) hkeys
          simpa [hi0, hlm ▸ hi0] using this
        have hsame : e.metrics[i].2.value.shape = es[t].metrics[i].2.value.shape ∧ e.metrics[i].2.valid.shape = es[t].metrics[i].2.valid.shape := by
          have a1 := k0.2 e.metrics[i] (List.getElem_mem _)
          have a2 := kt.2 es[t].metrics[i] (List.getElem_mem _)
          rw [a1.1, a1.2, a2.1, a2.2, hname]
          exact ⟨rfl, rfl⟩
        simp only [List.get_eq_getElem, stackRollout, List.getElem_map]
        refine ⟨hname.trans q1, ?_⟩
        have v1 : ∀ rest, (Nd.stack (es.map fun y => ((y.metrics.get? e.metrics[i].1).getD e.metrics[i].2).value) e.metrics[i].2.value).get (t :: rest) =
            es[t].metrics[i].2.value.get rest := by
          intro rest
          rw [stackAt_get ht', hname, q2]
          rfl
        have v2 : ∀ rest, (Nd.stack (es.map fun y => ((y.metrics.get? e.metrics[i].1).getD e.metrics[i].2).valid) e.metrics[i].2.valid).get (t :: rest) =
            es[t].metrics[i].2.valid.get rest := by
          intro rest
          rw [stackAt_get ht', hname, q2]
          rfl
        cases hk : ys[t].metrics[i].2 with
        | perObject r =>
          rw [hk] at q3
          refine ⟨?_, ?_, fun j => ?_⟩
          · rw [stackAt_shape, hsame.1, q3.1, hlen]; rfl
          · rw [stackAt_shape, hsame.2, q3.2.1, hlen]; rfl
          · rw [List.cons_append, v1, v2]; exact q3.2.2 j
        | scalar r =>
          rw [hk] at q3
          refine ⟨?_, ?_, ?_⟩
          · rw [stackAt_shape, hsame.1, q3.1, hlen]
          · rw [stackAt_shape, hsame.2, q3.2.1, hlen]
          · rw [v1, v2]; exact q3.2.2
      · intro i
        rw [g7]
        exact stackAt_get ht' (fun e => e.reward.data) _ _

/-- The rollout of a batch in the multi-agent environment with the built-in metrics, for any dynamics and actor that refine their
one-scenario versions: it fails when the rollouts of the scenarios fail, with the same error, and otherwise entry `t` of scenario `p` is
entry `t` of the rollout of scenario `p`: state, observation, action, metrics and rewards. -/
theorem C120_rollout {X X' K P C C' D : Type} {dn : DynNd ℝ} {dim : Nat} {row : (Nat → ℝ) → D} {d : DynamicsModel ℝ D n}
    (hd : dn.Refines n dim row d) {act : RaisingActor (StateNd ℝ) (ActNd ℝ) X K P C}
    {single : List Nat → Actor (SimState ℝ n T) (Fin n → Act D) X' K P C'} {params : P} {Q : List Nat → X → X' → Prop}
    (hact : act.Refines single params pre dim row Q) (cfg : EnvConfig) {S : StateNd ℝ} (hS : S.Shaped pre n T)
    (names : List String) (hnames : ∀ k ∈ names, S.Supports pre T k) (computeReward : Bool) (rewards : Dict ℝ)
    (hrewards : ∀ e ∈ rewards, e.1 ∈ ["log_divergence", "overlap", "offroad", "kinematic_infeasibility"] ∧ S.Supports pre T e.1)
    (split : K → K × K) (rng : K) (numSteps : Nat) :
    RolloutAgrees pre n T dim row (numSteps + 1)
      (rolloutNd (baseEnvNd dn cfg builtinMetricsNd names computeReward rewards) act split params S rng numSteps)
      fun p => rollout (baseEnv d cfg (envMetrics builtinMetrics names) (envReward builtinMetrics cfg computeReward rewards)) (single p)
        split params (zeroActions row n) (S.scenario n T p) rng numSteps :=
  (rollout_core hd hact cfg hS names hnames computeReward rewards hrewards split rng numSteps).1

end

end Waymax
