import Verif.Spec.Drivable
import Verif.Props.Bicycle
/-
C163: transitions rated as feasible by the kinematic infeasibility metric (real arithmetic).
-/

namespace Waymax

open Real

section
variable {n T : Nat} [NeZero T]

/-- Update of the vehicle of the metric for an action within its limits. -/
theorem vehicle_update {K : KimParams} {a : AccelSteer} (h : WithinLimits K a) (p : Pt ℝ) :
    let u := bicycleUpdate (vehicleOf K) { data := a, valid := true } p
    let v := norm2 (p.velX, p.velY)
    u.yaw = wrapYaws (p.yaw + a.steering * (v * K.dt + 0.5 * a.accel * K.dt ^ 2)) ∧
      u.velX = (v + a.accel * K.dt) * cos u.yaw ∧ u.velY = (v + a.accel * K.dt) * sin u.yaw := by
  have hc : bicyclePhysical (vehicleOf K) a = a := by
    simp only [bicyclePhysical, bicycleClip, vehicleOf, BicycleParams.accelBound, BicycleParams.steeringBound, Bool.false_eq_true, if_false]
    rw [clip_id (abs_le.1 h.1).1 (abs_le.1 h.1).2, clip_id (abs_le.1 h.2).1 (abs_le.1 h.2).2]
  simp only [bicycleUpdate, hc]
  exact ⟨rfl, rfl, rfl⟩

/-- The part that holds: for a transition rated as feasible some action within the limits gives the new speed, and if the vehicle is
faster than 0.6 m/s before and after, one gives the new velocity, in size and direction. -/
theorem C163_velocity_partial {K : KimParams} (hdt : 0 < K.dt) (ha : 0 ≤ K.maxAcc) (hs : 0 ≤ K.maxSteering) {s : SimState ℝ n T}
    {t t' : Fin T} {i : Fin n} (ht : (t' : Nat) = t + 1) (hnow : (t' : Int) = s.timestep)
    (hvalid : (kinematicsInfeasibilityMetric K s i).valid = true) (h0 : (kinematicsInfeasibilityMetric K s i).value = 0) :
    let p := s.simTrajectory i t
    let q := s.simTrajectory i t'
    (∃ a, WithinLimits K a ∧
      let u := bicycleUpdate (vehicleOf K) { data := a, valid := true } p
      norm2 (u.velX, u.velY) = norm2 (q.velX, q.velY)) ∧
    (0.6 ≤ norm2 (p.velX, p.velY) → 0.6 < norm2 (q.velX, q.velY) → ∃ a, WithinLimits K a ∧
      let u := bicycleUpdate (vehicleOf K) { data := a, valid := true } p
      u.velX = q.velX ∧ u.velY = q.velY) := by
  intro p q
  obtain ⟨-, hval, hiff⟩ := C32_metric_iff K hdt ha hs s ht hnow i
  have hpq := hval.1 hvalid
  have hne : ¬ (kinematicsInfeasibilityMetric K s i).value = 1 := by rw [h0]; norm_num
  have hok := fun h => hne (hiff.2 ⟨hpq, h⟩)
  set v := norm2 (p.velX, p.velY) with hv
  set w := norm2 (q.velX, q.velY) with hw
  have hv0 : 0 ≤ v := norm2_nonneg _
  have hw0 : 0 ≤ w := norm2_nonneg _
  have hacc : |(w - v) / K.dt| ≤ K.maxAcc + 0.001 := by
    rw [abs_div, abs_of_pos hdt, div_le_iff₀ hdt]
    exact not_lt.1 fun h => hok (.inl h)
  have hspeed : v + (w - v) / K.dt * K.dt = w := by field_simp; ring
  refine ⟨⟨⟨(w - v) / K.dt, 0⟩, ⟨hacc, by simp; linarith⟩, ?_⟩, fun h1 h2 => ?_⟩
  · obtain ⟨-, e1, e2⟩ := vehicle_update (K := K) (a := ⟨(w - v) / K.dt, 0⟩) ⟨hacc, by simp; linarith⟩ p
    simp only [← hv, hspeed] at e1 e2
    simp only [e1, e2, norm2_heading, abs_of_nonneg hw0]
  · obtain ⟨q1, q2⟩ := arctan2_heading q.velX q.velY
    set ψ := arctan2 q.velY q.velX
    set δ := wrapYaws (ψ - p.yaw) with hδ
    obtain ⟨d1, d2⟩ := C21_wrap_range (ψ - p.yaw)
    obtain ⟨k, hk⟩ := wrap_agrees (ψ - p.yaw)
    have hagree : AnglesAgree (p.yaw + δ) ψ := ⟨k, by rw [hδ, hk]; ring⟩
    have hmean : 0 < (v + w) / 2 * K.dt := by
      have : 0 < v + w := by linarith
      positivity
    have hste : |δ / ((v + w) / 2 * K.dt)| ≤ K.maxSteering + 0.001 := by
      rw [abs_div, abs_of_pos hmean, div_le_iff₀ hmean]
      refine not_lt.1 fun h => hok (.inr ⟨h1, h2.le, ψ, δ, ?_, d1, d2, hagree, h⟩)
      rw [if_neg h2.ne']
      exact ⟨q1, q2⟩
    refine ⟨⟨(w - v) / K.dt, δ / ((v + w) / 2 * K.dt)⟩, ⟨hacc, hste⟩, ?_⟩
    obtain ⟨e0, e1, e2⟩ := vehicle_update (K := K) (a := ⟨(w - v) / K.dt, δ / ((v + w) / 2 * K.dt)⟩) ⟨hacc, hste⟩ p
    have hturn : δ / ((v + w) / 2 * K.dt) * (v * K.dt + 0.5 * ((w - v) / K.dt) * K.dt ^ 2) = δ := by
      have : v * K.dt + 0.5 * ((w - v) / K.dt) * K.dt ^ 2 = (v + w) / 2 * K.dt := by field_simp; ring
      rw [this, div_mul_cancel₀ _ hmean.ne']
    simp only [← hv, hspeed, hturn] at e0 e1 e2
    have hh : heading (wrapYaws (p.yaw + δ)) = heading ψ := by
      rw [← AnglesAgree.heading_iff]
      obtain ⟨k1, e1⟩ := wrap_agrees (p.yaw + δ)
      obtain ⟨k2, e2⟩ := hagree
      exact ⟨k1 + k2, by rw [e1, e2]; push_cast; ring⟩
    simp only [heading, Prod.mk.injEq] at hh
    simp only [e0] at e1 e2
    refine ⟨?_, ?_⟩
    · rw [e1, hh.1, ← q1]
    · rw [e2, hh.2, ← q2]

/-- The metric never looks at positions or sizes: it depends on validity, heading and velocity only. An object may be moved to any place
between two steps, the rating does not change. -/
theorem C163_ignores_position (K : KimParams) {s s' : SimState ℝ n T} (ht : s'.timestep = s.timestep) {i : Fin n}
    (h : ∀ t, (s'.simTrajectory i t).valid = (s.simTrajectory i t).valid ∧ (s'.simTrajectory i t).yaw = (s.simTrajectory i t).yaw ∧
      (s'.simTrajectory i t).velX = (s.simTrajectory i t).velX ∧ (s'.simTrajectory i t).velY = (s.simTrajectory i t).velY) :
    kinematicsInfeasibilityMetric K s' i = kinematicsInfeasibilityMetric K s i := by
  have hpair : ∀ t u : Fin T, bicycleInversePair K.dt true (s'.simTrajectory i t) (s'.simTrajectory i u) =
      bicycleInversePair K.dt true (s.simTrajectory i t) (s.simTrajectory i u) := by
    intro t u
    obtain ⟨-, a1, a2, a3⟩ := h t
    obtain ⟨-, b1, b2, b3⟩ := h u
    simp only [bicycleInversePair, a1, a2, a3, b1, b2, b3]
  have hc : bicycleComputeInverse (s'.simTrajectory i) (s'.timestep - 1) K.dt =
      bicycleComputeInverse (s.simTrajectory i) (s.timestep - 1) K.dt := by
    rw [ht]
    unfold bicycleComputeInverse window2
    by_cases h2 : 2 ≤ T
    · simp only [h2, dite_true, dynSlice, hpair, (h _).1]
    · simp only [h2, dite_false, dynIndex, dynSlice, hpair, (h _).1]
  unfold kinematicsInfeasibilityMetric
  rw [hc]

end

/-! ### Cases -/

/-- A car at a steady 10 m/s that is 1 km further on after 0.1 s. -/
noncomputable def teleport (x : ℝ) : SimState ℝ 1 2 :=
  { simTrajectory := fun _ t => if t = 0 then ptAt 0 0 0 10 0 else ptAt x 0 0 10 0
    logTrajectory := fun _ _ => ptAt 0 0 0 10 0
    logTrafficLight := [], objectMetadata := soloMeta, timestep := 1, sdcPaths := none, roadgraphPoints := none }

theorem teleport_feasible (x : ℝ) : (kinematicsInfeasibilityMetric {} (teleport x) 0).valid = true ∧
    (kinematicsInfeasibilityMetric {} (teleport x) 0).value = 0 := by
  have hn : norm2 ((10 : ℝ), (0 : ℝ)) = 10 := by simp [norm2]
  have hs : (bicycleInversePair 0.1 true (ptAt 0 0 0 10 0) (ptAt x 0 0 10 0)).steering = 0 := by
    rw [inversePair_steering (by norm_num) (ptAt 0 0 0 10 0) (ptAt x 0 0 10 0) 0 0 (by simp only [ptAt]; rw [hn]; norm_num)
      (by simp only [ptAt]; rw [hn]; norm_num)
      (by simp only [ptAt]; rw [hn]; norm_num) (by linarith [pi_pos]) pi_pos ⟨0, by simp [ptAt]⟩]
    simp
  have ha : (bicycleInversePair 0.1 true (ptAt 0 0 0 10 0) (ptAt x 0 0 10 0)).accel = 0 := by
    simp [bicycleInversePair, ptAt]
  have hw : window2 ((teleport x).simTrajectory 0) ((teleport x).timestep - 1) = (ptAt 0 0 0 10 0, ptAt x 0 0 10 0) := by
    have : (teleport x).timestep - 1 = (((0 : Fin 2) : Nat) : Int) := rfl
    rw [this, window2_eq (t' := 1) _ rfl]
    rfl
  have hc : bicycleComputeInverse ((teleport x).simTrajectory 0) ((teleport x).timestep - 1) 0.1 =
      { data := bicycleInversePair 0.1 true (ptAt 0 0 0 10 0) (ptAt x 0 0 10 0), valid := true } := by
    simp only [bicycleComputeInverse, hw]
    rfl
  constructor
  · simp only [kinematicsInfeasibilityMetric, hc]
  · simp only [kinematicsInfeasibilityMetric, hc, hs, ha]
    norm_num

/-- The code violates the claim: a car that jumps by 1 km within 0.1 s is rated as feasible. -/
theorem C163_full_violated : ¬ C163_full 1 2 {} := by
  intro h
  obtain ⟨a, ⟨h1, -⟩, hx, -⟩ := h (teleport 1000) 0 1 0 rfl rfl (teleport_feasible 1000).1 (teleport_feasible 1000).2
  obtain ⟨hb, -⟩ := bicyclePhysical_bounds (vehicleOf {}) (by norm_num [vehicleOf]) (by norm_num [vehicleOf]) a
  simp only [bicycleUpdate, teleport, ptAt, if_true, Fin.one_eq_zero_iff] at hx
  rw [show (vehicleOf {}).dt = 0.1 from rfl] at hx
  generalize (bicyclePhysical (vehicleOf {}) a).accel = b at hb hx
  have h2 : b ≤ 11 := by
    have := (abs_le.1 hb).2
    norm_num [vehicleOf] at this ⊢
    linarith
  norm_num at hx
  linarith

/-- The hypotheses of the partial theorem are met: the steady car, with both speeds above 0.6 m/s. -/
example : ∃ a, WithinLimits {} a ∧ (bicycleUpdate (vehicleOf {}) { data := a, valid := true } (ptAt 0 0 0 10 0)).velX = 10 := by
  have hn : norm2 ((10 : ℝ), (0 : ℝ)) = 10 := by simp [norm2]
  obtain ⟨a, h1, h2, -⟩ := (C163_velocity_partial (K := {}) (by norm_num) (by norm_num) (by norm_num) (s := teleport 1) (t := 0) (t' := 1)
    (i := 0) rfl rfl (teleport_feasible 1).1 (teleport_feasible 1).2).2 (by change 0.6 ≤ norm2 ((10 : ℝ), (0 : ℝ)); rw [hn]; norm_num)
    (by change 0.6 < norm2 ((10 : ℝ), (0 : ℝ)); rw [hn]; norm_num)
  exact ⟨a, h1, h2⟩

end Waymax
