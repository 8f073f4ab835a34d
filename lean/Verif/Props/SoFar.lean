import Verif.Spec.SoFar
import Verif.Spec.Batch
import Verif.Model.BatchMetrics
import Verif.Lemmas.Env
import Verif.Lemmas.Batch
import Verif.Props.PlanningMetrics
import Verif.Props.Window
import Verif.Props.ObservationSpec
/-
C182: metrics judge what has been simulated so far. At the very first step of a scenario the kinematic metric does not.
-/

namespace Waymax

section
variable {n T : Nat} [NeZero T]

theorem SameSoFar.current {s s' : SimState ℝ n T} (h : SameSoFar s s') (h0 : 0 ≤ s.timestep) (h1 : s.timestep < T) (i : Fin n) :
    dynIndex (s'.simTrajectory i) s.timestep = dynIndex (s.simTrajectory i) s.timestep := by
  rw [dynIndex_of_eq _ (t := ⟨s.timestep.toNat, by omega⟩) (by simp only; omega),
    dynIndex_of_eq _ (t := ⟨s.timestep.toNat, by omega⟩) (by simp only; omega)]
  exact h.sim i _ (by simp only; omega)

/-- C182: six of the seven metrics judge what has been simulated so far. -/
theorem C182_metrics : SoFar (logDivergenceMetric (n := n) (T := T)) ∧ SoFar (overlapMetric (n := n) (T := T)) ∧
    SoFar (offroadMetric (n := n) (T := T)) ∧ SoFar (wrongWayMetric (n := n) (T := T)) ∧ SoFar (offRouteMetric (n := n) (T := T)) ∧
    SoFar (progressionMetric (n := n) (T := T)) := by
  have hsdc : ∀ {s s' : SimState ℝ n T}, SameSoFar s s' → 0 ≤ s.timestep → s.timestep < T →
      sdcXyCurrent s' = sdcXyCurrent s ∧ sdcValidCurrent s' = sdcValidCurrent s := by
    intro s s' h h0 h1
    have hc := h.current h0 h1
    rw [h.rest]
    simp only [sdcXyCurrent, sdcValidCurrent, hc]
    constructor <;> trivial
  refine ⟨fun s s' h h0 h1 => ?_, fun s s' h h0 h1 => ?_, fun s s' h h0 h1 => ?_, fun s s' h h0 h1 => ?_, fun s s' h h0 h1 => ?_,
    fun s s' h h0 h1 => ?_⟩
  · have hc := h.current h0 h1
    rw [h.rest]
    funext i
    simp only [logDivergenceMetric, hc]
  · have hc := h.current h0 h1
    rw [h.rest]
    simp only [overlapMetric, hc]
  · have hc := h.current h0 h1
    rw [h.rest]
    unfold offroadMetric
    simp only
    split
    · rfl
    · rfl
    · refine congrArg Except.ok (funext fun i => ?_)
      rw [hc i]
  · have hp : s'.sdcPaths = s.sdcPaths := by rw [h.rest]
    unfold wrongWayMetric
    rw [hp, (hsdc h h0 h1).1]
  · have hp : s'.sdcPaths = s.sdcPaths := by rw [h.rest]
    unfold offRouteMetric
    rw [hp, (hsdc h h0 h1).1, (hsdc h h0 h1).2]
  · have hp : s'.sdcPaths = s.sdcPaths := by rw [h.rest]
    have hl : ∀ t, sdcXyLog s' t = sdcXyLog s t := fun t => by
      rw [h.rest]
      rfl
    unfold progressionMetric
    rw [hp, (hsdc h h0 h1).1, (hsdc h h0 h1).2, hl, hl]

theorem SameSoFar.last_two {s s' : SimState ℝ n T} (h : SameSoFar s s') (h0 : 1 ≤ s.timestep) (h1 : s.timestep < T) (i : Fin n) :
    window2 (s'.simTrajectory i) (s.timestep - 1) = window2 (s.simTrajectory i) (s.timestep - 1) := by
  unfold window2
  rw [dif_pos (by omega), dif_pos (by omega)]
  have b : startIdx T 2 (s.timestep - 1) = (s.timestep - 1).toNat := startIdx_of_inRange (by omega) (by omega)
  unfold dynSlice
  refine Prod.ext (h.sim i _ ?_) (h.sim i _ ?_)
  · simp only [b, Fin.val_zero]
    omega
  · simp only [b, Fin.val_one]
    omega

/-- C182: from the second step on the kinematic metric does so too. Missing: the first step, see `C182_first_step_exact`. -/
theorem C182_kinematic_partial (K : KimParams) {s s' : SimState ℝ n T} (h : SameSoFar s s') (h0 : 1 ≤ s.timestep) (h1 : s.timestep < T) :
    kinematicsInfeasibilityMetric K s' = kinematicsInfeasibilityMetric K s := by
  have hw := h.last_two h0 h1
  have ht : s'.timestep = s.timestep := by rw [h.rest]
  funext i
  unfold kinematicsInfeasibilityMetric bicycleComputeInverse
  rw [ht, hw]

omit [NeZero T] in
theorem envMetrics_congr {reg : Dict (Metric n T)} {names : List String} {s s' : SimState ℝ n T}
    (hreg : ∀ name ∈ names, ∀ m, reg.get? name = some m → m s' = m s) : envMetrics reg names s' = envMetrics reg names s := by
  unfold envMetrics runMetrics
  have : ∀ (ns : List String) (d : Dict (MetricArr n)), (∀ x ∈ ns, x ∈ names) →
      (ns.foldlM (init := d) fun results name =>
        match reg.get? name with
        | some m => do return results.set name (← m s')
        | none => (.error .valueError : Except Err _)) =
      ns.foldlM (init := d) fun results name =>
        match reg.get? name with
        | some m => do return results.set name (← m s)
        | none => .error .valueError := by
    intro ns
    induction ns with
    | nil => exact fun _ _ => rfl
    | cons a ns ih =>
      intro d hn
      rw [List.foldlM_cons, List.foldlM_cons]
      cases hm : reg.get? a with
      | none => rfl
      | some m =>
        simp only [hreg a (hn a List.mem_cons_self) m hm]
        congr 1
        funext x
        exact ih x fun y hy => hn y (List.mem_cons_of_mem _ hy)
  exact this names [] fun _ hx => hx

/-- C182: so all that the environment reports judges what has been simulated so far: at every step but the first, and there too for lists of
metrics without the kinematic one. -/
theorem C182_env_metrics {names : List String} {s s' : SimState ℝ n T} (h : SameSoFar s s') (h0 : 0 ≤ s.timestep) (h1 : s.timestep < T)
    (hk : 1 ≤ s.timestep ∨ "kinematic_infeasibility" ∉ names) :
    envMetrics builtinMetrics names s' = envMetrics builtinMetrics names s := by
  obtain ⟨m1, m2, m3, m4, m5, m6⟩ := C182_metrics (n := n) (T := T)
  refine envMetrics_congr fun name hname m hm => ?_
  unfold Dict.get? at hm
  rw [Option.map_eq_some_iff] at hm
  obtain ⟨e, he, rfl⟩ := hm
  have hkey := List.find?_some he
  have hmem := List.mem_of_find?_eq_some he
  simp only [beq_iff_eq] at hkey
  simp only [builtinMetrics, List.mem_cons, List.not_mem_nil, or_false] at hmem
  rcases hmem with rfl | rfl | rfl | rfl | rfl | rfl | rfl
  · simp only [m1 s s' h h0 h1]
  · simp only [m2 s s' h h0 h1]
  · simp only [m3 s s' h h0 h1]
  · rcases hk with hk | hk
    · simp only [C182_kinematic_partial _ h hk h1]
    · exact absurd (by rw [← hkey] at hname; exact hname) hk
  · simp only [m4 s s' h h0 h1]
  · simp only [m6 s s' h h0 h1]
  · simp only [m5 s s' h h0 h1]

/-- C182: at the first step of a scenario there is no transition to judge, and the kinematic metric judges the last one stored in the
simulated trajectory. -/
theorem C182_first_step_exact (K : KimParams) {s : SimState ℝ n T} (h0 : s.timestep = 0) (hT : 2 ≤ T) :
    kinematicsInfeasibilityMetric K s = kinematicsInfeasibilityMetric K { s with timestep := (T : Int) - 1 } := by
  funext i
  have e1 : startIdx T 2 (0 - 1) = T - 2 := by
    unfold startIdx
    simp only
    omega
  have e2 : startIdx T 2 ((T : Int) - 1 - 1) = T - 2 := by
    unfold startIdx
    simp only
    split <;> omega
  have hw : window2 (s.simTrajectory i) (s.timestep - 1) = window2 (s.simTrajectory i) ((T : Int) - 1 - 1) := by
    unfold window2 dynSlice
    rw [dif_pos hT, dif_pos hT]
    simp only [h0, e1, e2]
  unfold kinematicsInfeasibilityMetric bicycleComputeInverse
  rw [hw]

/-- C182: after a reset with one warm-up step nothing is stored there, so the metric is 0 and marked invalid. -/
theorem C182_after_reset {K : KimParams} (hK : 0 ≤ K.maxAcc ∧ 0 ≤ K.maxSteering) {cfg : EnvConfig} (hc : cfg.initSteps = 1) (hT : 2 ≤ T)
    {s s' : SimState ℝ n T} (h : reset cfg s = .ok s') (i : Fin n) :
    s'.timestep = 0 ∧ kinematicsInfeasibilityMetric K s' i = { value := 0, valid := false } := by
  rw [reset_eq] at h
  split at h
  · split at h
    · injection h with h
      subst h
      refine ⟨by simp [hc], ?_⟩
      have e1 : startIdx T 2 ((cfg.initSteps : Int) - 1 - 1) = T - 2 := by
        unfold startIdx
        simp only [hc]
        omega
      have hi : (invalidPt : Pt ℝ).valid = false := rfl
      simp only [kinematicsInfeasibilityMetric, bicycleComputeInverse, window2, hT, dif_pos, dynSlice, e1, Fin.val_one, Fin.val_zero,
        if_neg (show ¬ T - 2 + 1 < cfg.initSteps by omega), hi, Bool.and_false, Bool.false_eq_true, if_false, abs_zero]
      rw [if_neg]
      rintro (h | h)
      · linarith [hK.1]
      · linarith [hK.2]
    · exact nomatch h
  · exact nomatch h

end

/-- C182: a scenario with a single step has no kinematic metric, whatever its other axes are: JAX rejects the window of two steps. -/
theorem C182_single_step (K : KimParams) {s : StateNd ℝ} {pre : List Nat} {n : Nat} (h : s.Shaped pre n 1) (hc : s.timestep.shape = []) :
    kinematicsNd K s = .error .typeError := by
  have hx := h.sim
  unfold kinematicsNd computeInverseNd
  have h1 : (s.timestep.map fun t => t - 1).shape = [] := hc
  have h2 : ∀ (i : Int), s.simTrajectory.x.sliceInDim i 2 (-1) = .error .typeError := fun i => by
    have hl : Nd.normAxis (pre ++ [n, 1]).length (-1) = .ok (pre.length + 1) := by
      unfold Nd.normAxis
      simp only [List.length_append, List.length_cons, List.length_nil]
      rw [if_pos (by omega), if_pos (by omega)]
      exact congrArg Except.ok (by omega)
    have hd : (pre ++ [n, 1]).getD (pre.length + 1) 0 = 1 := by simp [List.getD]
    unfold Nd.sliceInDim
    rw [hx.x, hl, exc_ok_bind]
    simp only [hd]
    rfl
  simp only [h1, hx.x, hx.y, hx.yaw, hx.velX, hx.velY, TrajNd.mapLeaves, h2]
  rfl

/-- The scenario that jumps from standstill to 10 m/s, at its first step; what is stored for the last step is up to `v`. -/
def firstStep (v : ℝ) : SimState ℝ 1 3 :=
  { jumpScen with timestep := 0, simTrajectory := fun _ t => ptAt 0 0 0 (if t.val = 2 then v else 0) 0 }

theorem firstStep_same (v w : ℝ) : SameSoFar (firstStep v) (firstStep w) where
  sim := fun i t ht => by
    have : t.val = 0 := by
      simp only [firstStep] at ht
      omega
    simp [firstStep, this]
  rest := rfl

/-- The same at its last step. -/
def lastStep (v : ℝ) : SimState ℝ 1 3 := { firstStep v with timestep := 2 }

theorem lastStep_infeasible : (kinematicsInfeasibilityMetric {} (lastStep 10) 0).value = 1 := by
  obtain ⟨-, -, ha⟩ := C32_metric_iff {} (by norm_num) (by norm_num) (by norm_num) (lastStep 10) (t := 1) (t' := 2) (by decide) rfl 0
  have h10 : √(100 : ℝ) = 10 := by rw [show (100 : ℝ) = 10 ^ 2 by norm_num]; exact Real.sqrt_sq (by norm_num)
  refine ha.2 ⟨⟨rfl, rfl⟩, .inl ?_⟩
  simp only [lastStep, firstStep, ptAt, norm2]
  norm_num [h10]

theorem lastStep_feasible : (kinematicsInfeasibilityMetric {} (lastStep 0) 0).value ≠ 1 := by
  obtain ⟨-, -, ha⟩ := C32_metric_iff {} (by norm_num) (by norm_num) (by norm_num) (lastStep 0) (t := 1) (t' := 2) (by decide) rfl 0
  intro h
  obtain ⟨-, h | ⟨h, -⟩⟩ := ha.1 h
  · simp only [lastStep, firstStep, ptAt, norm2] at h
    norm_num at h
  · simp only [lastStep, firstStep, ptAt, norm2] at h
    norm_num at h

/-- C182: the full expectation fails for the kinematic metric. An object that stands still at the first step is reported to move in an
infeasible way if the speeds stored for the last two steps differ much. -/
theorem C182_violated : ¬ SoFar (kinematicsInfeasibilityMetric {} (n := 1) (T := 3)) := by
  intro h
  have h1 := congrFun (h (firstStep 0) (firstStep 10) (firstStep_same _ _) (by simp [firstStep]) (by simp [firstStep])) 0
  rw [C182_first_step_exact {} rfl (by norm_num), C182_first_step_exact {} (s := firstStep 0) rfl (by norm_num)] at h1
  have h2 := congrArg MetricResult.value h1
  exact lastStep_feasible (h2.symm.trans lastStep_infeasible)

/-! ### The hypotheses can be met -/

/-- Two states at the second step that differ in what is stored for the third. -/
example : kinematicsInfeasibilityMetric {} { firstStep 10 with timestep := 1 } = kinematicsInfeasibilityMetric {} { firstStep 0 with timestep := 1 } :=
  C182_kinematic_partial {} (s := { firstStep 0 with timestep := 1 }) ⟨fun i t ht => by
    have : t.val ≠ 2 := by
      simp only at ht
      omega
    simp [firstStep, this], rfl⟩ (by norm_num) (by norm_num)

/-- At the first step these two are the same for all metrics but the kinematic one. -/
example : overlapMetric (firstStep 10) = overlapMetric (firstStep 0) ∧ logDivergenceMetric (firstStep 10) = logDivergenceMetric (firstStep 0) ∧
    envMetrics builtinMetrics ["overlap", "log_divergence"] (firstStep 10) = envMetrics builtinMetrics ["overlap", "log_divergence"] (firstStep 0) :=
  ⟨C182_metrics.2.1 _ _ (firstStep_same _ _) (by simp [firstStep]) (by simp [firstStep]),
   C182_metrics.1 _ _ (firstStep_same _ _) (by simp [firstStep]) (by simp [firstStep]),
   C182_env_metrics (firstStep_same _ _) (by simp [firstStep]) (by simp [firstStep]) (.inr (by decide))⟩

/-- After a reset of that scenario the metric is marked invalid. -/
example : ∃ s', reset { maxNumObjects := 1, initSteps := 1 } jumpScen = .ok s' ∧ kinematicsInfeasibilityMetric {} s' 0 = { value := 0, valid := false } := by
  have h : ∃ s', reset { maxNumObjects := 1, initSteps := 1 } jumpScen = .ok s' := by
    rw [reset_eq, if_pos rfl, if_pos (by norm_num)]
    exact ⟨_, rfl⟩
  obtain ⟨s', hs⟩ := h
  exact ⟨s', hs, (C182_after_reset ⟨by norm_num, by norm_num⟩ rfl (by norm_num) hs 0).2⟩

/-- Two scenarios of one step with three objects each. -/
example : kinematicsNd {} { plainBatch [2] 3 1 with timestep := { shape := [], get := fun _ => 0 } } = .error .typeError :=
  C182_single_step {} (pre := [2]) (n := 3) ⟨⟨rfl, rfl, rfl, rfl, rfl, rfl, rfl, rfl, rfl, rfl, rfl⟩, ⟨rfl, rfl, rfl, rfl, rfl, rfl, rfl, rfl, rfl, rfl, rfl⟩,
    ⟨rfl, rfl, rfl, rfl, rfl, rfl, rfl⟩⟩ rfl

end Waymax
