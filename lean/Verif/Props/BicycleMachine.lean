import Verif.Props.BicycleMachineSteps
/-
C136, C137: the bicycle model in machine arithmetic, and the kinematic infeasibility metric on its transitions.
-/

namespace Waymax

open Real

section
variable {φ : Format} {L : Libm φ} {n T : Nat} [NeZero T]

/-- The metric in terms of the last two steps. -/
theorem metric_of_pair {K : KimParamsFl} {s : SimState (Flt φ) n T} {i : Fin n} {t t' : Fin T} (ht : (t : Int) = s.timestep - 1)
    (ht' : (t' : Nat) = t + 1) :
    ((kinematicsInfeasibilityMetricFl L K s i).valid = true ↔
      (s.simTrajectory i t).valid = true ∧ (s.simTrajectory i t').valid = true) ∧
    ((kinematicsInfeasibilityMetricFl L K s i).valid = false → 0 ≤ (kimThreshold φ K.maxAcc).val →
      0 ≤ (kimThreshold φ K.maxSteering).val → (kinematicsInfeasibilityMetricFl L K s i).value = 0) ∧
    ((kinematicsInfeasibilityMetricFl L K s i).valid = true → (kinematicsInfeasibilityMetricFl L K s i).value =
      if |(bicycleInversePairFl L K.dt (s.simTrajectory i t) (s.simTrajectory i t')).accel.val| > (kimThreshold φ K.maxAcc).val ∨
        |(bicycleInversePairFl L K.dt (s.simTrajectory i t) (s.simTrajectory i t')).steering.val| >
          (kimThreshold φ K.maxSteering).val then 1 else 0) := by
  have hw := window2_eq (s.simTrajectory i) ht'
  rw [show ((t : Nat) : Int) = s.timestep - 1 from ht] at hw
  have hv : (kinematicsInfeasibilityMetricFl L K s i).valid =
      ((s.simTrajectory i t).valid && (s.simTrajectory i t').valid) := by
    unfold kinematicsInfeasibilityMetricFl bicycleComputeInverseFl
    simp only [hw]
  refine ⟨by rw [hv, Bool.and_eq_true_iff], fun h0 h1 h2 => ?_, fun h0 => ?_⟩
  · rw [hv] at h0
    unfold kinematicsInfeasibilityMetricFl bicycleComputeInverseFl
    simp only [hw, h0, Bool.false_eq_true, if_false]
    rw [if_neg]
    rintro (hc | hc)
    · have : (kimThreshold φ K.maxAcc).val < |(0 : ℝ)| := hc
      rw [abs_zero] at this
      linarith
    · have : (kimThreshold φ K.maxSteering).val < |(0 : ℝ)| := hc
      rw [abs_zero] at this
      linarith
  · rw [hv] at h0
    unfold kinematicsInfeasibilityMetricFl bicycleComputeInverseFl
    simp only [hw, h0, if_true]
    rfl

/-! ### C137 -/

/-- Limits for which rounding is accounted for: the default time step, an acceleration limit up to 11 m/s² and a steering limit up to
1 in the model, and limits of the metric that are not below those of the model. -/
structure ComparableLimits (P : BicycleParamsFl) (K : KimParamsFl) : Prop where
  dt : P.dt = Flt.round _ 0.1
  metricDt : K.dt = Flt.round _ 0.1
  accel : 0 ≤ P.maxAccel.val ∧ P.maxAccel.val ≤ 11
  steering : 0 ≤ P.maxSteering.val ∧ P.maxSteering.val ≤ K.maxSteering.val
  metricSteering : K.maxSteering.val ≤ 1
  metricAccel : 0 ≤ K.maxAcc.val ∧ K.maxAcc.val ≤ 100

/-- C137: a transition made by `step` with the bicycle model in machine arithmetic is never flagged for a controlled object: whatever
the action, the rounding errors stay below the tolerance of the metric. At speed `v` the acceleration limit of the model may exceed that
of the metric by at most `8e-4 - 3e-5 * v`. -/
theorem C137_bicycle_feasible (hL : L.Accurate (2 ^ (-22 : ℤ))) {P : BicycleParamsFl} {K : KimParamsFl} (hPK : ComparableLimits P K)
    {cfg : EnvConfig} {s s' : SimState (Flt φ) n T} {act : Fin n → Act (AccelSteerFl φ)}
    (h : step (bicycleFl L P) cfg s act = .ok s') (hw : 1 ≤ cfg.initSteps) (hT : cfg.initSteps ≤ T)
    {t t' : Fin T} (ht : (t : Int) = s.timestep) (ht' : (t' : Int) = s.timestep + 1) (i : Fin n) (hc : IsControlled cfg s i)
    (hyaw : |(s.simTrajectory i t).yaw.val| ≤ 4)
    (hv : norm2 ((s.simTrajectory i t).velX.val, (s.simTrajectory i t).velY.val) ≤ 99)
    (hacc : P.maxAccel.val + 3e-5 * norm2 ((s.simTrajectory i t).velX.val, (s.simTrajectory i t).velY.val) ≤ K.maxAcc.val + 8e-4) :
    (kinematicsInfeasibilityMetricFl L K s' i).value = 0 := by
  rw [← singleError_eq] at hL
  obtain ⟨hts, -, hmove, -⟩ := C06_step_moves h hw hT ht ht' i
  obtain ⟨-, -, hy, hvx, hvy⟩ := hmove hc
  have hsucc : (t' : Nat) = t + 1 := by omega
  have hold : s'.simTrajectory i t = s.simTrajectory i t := by
    obtain ⟨m, -, rfl⟩ := step_ok h
    simp only
    rw [forward_apply _ act _ _ m _ ht ht', if_neg]
    intro e
    rw [e] at hsucc
    omega
  obtain ⟨-, h1, h2⟩ := metric_of_pair (L := L) (K := K) (s := s') (i := i) (t := t) (t' := t') (by omega) hsucc
  have hA := threshold_ge hL hPK.metricAccel.1 hPK.metricAccel.2
  have hS := threshold_ge hL (hPK.steering.1.trans hPK.steering.2) (hPK.metricSteering.trans (by norm_num))
  cases hvd : (kinematicsInfeasibilityMetricFl L K s' i).valid with
  | false => exact h1 hvd (by linarith [hPK.metricAccel.1]) (by linarith [hPK.steering.1.trans hPK.steering.2])
  | true =>
    rw [h2 hvd, hold]
    obtain ⟨ra, rs⟩ := inverse_within_limits hL hPK.dt hPK.metricDt hPK.accel.1 hPK.accel.2 hPK.steering.1 hPK.steering.2
      hPK.metricSteering hPK.metricAccel.1 hPK.metricAccel.2 (p := s.simTrajectory i t) (q := s'.simTrajectory i t') hyaw hv hacc
      (act := act i) hy hvx hvy
    rw [if_neg]
    rintro (hh | hh) <;> linarith

/-- One step of an episode, for an object the model controls. -/
theorem Episode.bicycle_step {P : BicycleParamsFl} {cfg : EnvConfig} {scen s0 s1 : SimState (Flt φ) n T}
    {acts : List (Fin n → Act (AccelSteerFl φ))} (E : Episode (bicycleFl L P) cfg scen s0 acts s1) {i : Fin n}
    (hc : IsControlled cfg s0 i) {k : Nat} (hk : k < acts.length) {t t' : Fin T} (ht : t.val + 1 = cfg.initSteps + k)
    (ht' : t'.val = cfg.initSteps + k) :
    let p := s1.simTrajectory i t'
    let u := bicycleUpdateFl L P (acts[k] i) (s1.simTrajectory i t)
    p.x = u.x ∧ p.y = u.y ∧ p.yaw = u.yaw ∧ p.velX = u.velX ∧ p.velY = u.velY := by
  obtain ⟨c, hcc, he⟩ := E.recurrence hk ht ht' i
  have : c = true := hcc.2 hc
  subst this
  simp only [he, updatedPt, newField, bicycleFl, DynamicsModel.ofSingle]
  exact ⟨rfl, rfl, rfl, rfl, rfl⟩

/-- The logged pose at the last warm-up step is where an episode starts. -/
theorem Episode.bicycle_start {P : BicycleParamsFl} {cfg : EnvConfig} {scen s0 s1 : SimState (Flt φ) n T}
    {acts : List (Fin n → Act (AccelSteerFl φ))} (E : Episode (bicycleFl L P) cfg scen s0 acts s1) (i : Fin n)
    {t : Fin T} (ht : t.val + 1 = cfg.initSteps) : s1.simTrajectory i t = scen.logTrajectory i t := by
  have h0 : s0.timestep = (cfg.initSteps : Int) - 1 := by rw [E.reset_data]
  have hw := E.warm
  have hf := E.fits
  rw [stepMany_frame E.run (by omega) (by omega) i t (Or.inl (by omega)), E.reset_data]
  simp only
  rw [if_pos (by omega)]

/-- C136: the speed of a controlled object grows by at most a tenth of the acceleration limit per step, plus a millimetre per second;
its heading is in [-π, π] from the first step on. -/
theorem C136_episode (hL : L.Accurate (2 ^ (-22 : ℤ))) {P : BicycleParamsFl} (hdt : P.dt = Flt.round _ 0.1)
    (ha : 0 ≤ P.maxAccel.val ∧ P.maxAccel.val ≤ 11) (hs : 0 ≤ P.maxSteering.val) {cfg : EnvConfig}
    {scen s0 s1 : SimState (Flt φ) n T} {acts : List (Fin n → Act (AccelSteerFl φ))}
    (E : Episode (bicycleFl L P) cfg scen s0 acts s1) {i : Fin n} (hc : IsControlled cfg s0 i) {t0 : Fin T}
    (ht0 : t0.val + 1 = cfg.initSteps) {v0 : ℝ}
    (hv0 : norm2 ((scen.logTrajectory i t0).velX.val, (scen.logTrajectory i t0).velY.val) ≤ v0)
    (hlen : v0 + acts.length * (P.maxAccel.val / 10 + 1e-3) ≤ 99) {k : Nat} (hk : k ≤ acts.length) {t : Fin T}
    (ht : t.val + 1 = cfg.initSteps + k) :
    norm2 ((s1.simTrajectory i t).velX.val, (s1.simTrajectory i t).velY.val) ≤ v0 + k * (P.maxAccel.val / 10 + 1e-3) ∧
    (1 ≤ k → |(s1.simTrajectory i t).yaw.val| ≤ (Flt.pi φ).val) := by
  rw [← singleError_eq] at hL
  induction k generalizing t with
  | zero =>
    have : t = t0 := Fin.ext (by omega)
    subst this
    rw [E.bicycle_start i ht0]
    refine ⟨by simpa using hv0, fun h => absurd h (by omega)⟩
  | succ k ih =>
    have hw := E.warm
    have hpos : 0 < t.val := by omega
    obtain ⟨u, hu⟩ : ∃ u : Fin T, u.val + 1 = t.val := ⟨⟨t.val - 1, by omega⟩, by simp; omega⟩
    obtain ⟨hs', -⟩ := ih (by omega) (t := u) (by omega)
    obtain ⟨-, -, h3, h4, h5⟩ := E.bicycle_step hc (k := k) (by omega) (t := u) (t' := t) (by omega) (by omega)
    have hg : (0 : ℝ) ≤ P.maxAccel.val / 10 + 1e-3 := by
      have := ha.1
      positivity
    have hkk : ((k : ℝ) + 1) * (P.maxAccel.val / 10 + 1e-3) ≤ acts.length * (P.maxAccel.val / 10 + 1e-3) := by
      apply mul_le_mul_of_nonneg_right _ hg
      exact_mod_cast hk
    have hst := speed_step hL hdt ha.1 ha.2 hs (p := s1.simTrajectory i u) (by linarith) (acts[k] i)
    constructor
    · rw [h4, h5]
      have := (abs_le.1 hst).2
      push_cast
      linarith
    · intro _
      rw [h3]
      exact abs_le.2 (C132_range _)

/-- C137 for whole episodes: whatever the actions, no step of an episode driven by the bicycle model in machine arithmetic is flagged
for a controlled object, if the object starts with a heading in [-4, 4] and a speed `v0` from which it cannot exceed 99 m/s in the episode.
-/
theorem C137_episode (hL : L.Accurate (2 ^ (-22 : ℤ))) {P : BicycleParamsFl} {K : KimParamsFl} (hPK : ComparableLimits P K)
    (hacc : P.maxAccel.val + 3e-3 ≤ K.maxAcc.val) {cfg : EnvConfig} {scen s0 s1 : SimState (Flt φ) n T}
    {acts : List (Fin n → Act (AccelSteerFl φ))} (E : Episode (bicycleFl L P) cfg scen s0 acts s1) (hne : acts ≠ [])
    {i : Fin n} (hc : IsControlled cfg s0 i) {t0 : Fin T} (ht0 : t0.val + 1 = cfg.initSteps)
    (hyaw : |(scen.logTrajectory i t0).yaw.val| ≤ 4) {v0 : ℝ}
    (hv0 : norm2 ((scen.logTrajectory i t0).velX.val, (scen.logTrajectory i t0).velY.val) ≤ v0)
    (hlen : v0 + acts.length * (P.maxAccel.val / 10 + 1e-3) ≤ 99) :
    (kinematicsInfeasibilityMetricFl L K s1 i).value = 0 := by
  have hlen0 : 0 < acts.length := List.length_pos_of_ne_nil hne
  have hf := E.fits
  have hw := E.warm
  obtain ⟨k, hk⟩ : ∃ k, acts.length = k + 1 := ⟨acts.length - 1, by omega⟩
  obtain ⟨t', ht'⟩ : ∃ t' : Fin T, t'.val = cfg.initSteps + k := ⟨⟨cfg.initSteps + k, by omega⟩, rfl⟩
  obtain ⟨t, ht⟩ : ∃ t : Fin T, t.val + 1 = t'.val := ⟨⟨t'.val - 1, by omega⟩, by simp; omega⟩
  have hts := E.timestep_eq
  obtain ⟨hsp, hya⟩ := C136_episode hL hPK.dt hPK.accel hPK.steering.1 E hc ht0 hv0 hlen (k := k) (by omega) (t := t) (by omega)
  have hg : (0 : ℝ) ≤ P.maxAccel.val / 10 + 1e-3 := by
    have := hPK.accel.1
    positivity
  have hspeed : norm2 ((s1.simTrajectory i t).velX.val, (s1.simTrajectory i t).velY.val) ≤ 99 := by
    rw [hk] at hlen
    push_cast at hlen
    linarith
  rw [← singleError_eq] at hL
  have hyaw' : |(s1.simTrajectory i t).yaw.val| ≤ 4 := by
    rcases Nat.eq_zero_or_pos k with h0 | h0
    · have : t = t0 := Fin.ext (by omega)
      rw [this, E.bicycle_start i ht0]
      exact hyaw
    · refine (hya h0).trans ?_
      have h1 := pi_close hL
      have h4 := Real.pi_lt_d4
      unfold singleError at h1
      rw [abs_le] at h1
      norm_num at *
      linarith [h1.2]
  obtain ⟨-, -, h3, h4, h5⟩ := E.bicycle_step hc (k := k) (by omega) (t := t) (t' := t') (by omega) (by omega)
  obtain ⟨-, h1, h2⟩ := metric_of_pair (L := L) (K := K) (s := s1) (i := i) (t := t) (t' := t') (by omega) (by omega)
  have hA := threshold_ge hL hPK.metricAccel.1 hPK.metricAccel.2
  have hS := threshold_ge hL (hPK.steering.1.trans hPK.steering.2) (hPK.metricSteering.trans (by norm_num))
  cases hvd : (kinematicsInfeasibilityMetricFl L K s1 i).valid with
  | false => exact h1 hvd (by linarith [hPK.metricAccel.1]) (by linarith [hPK.steering.1.trans hPK.steering.2])
  | true =>
    rw [h2 hvd]
    obtain ⟨ra, rs⟩ := inverse_within_limits hL hPK.dt hPK.metricDt hPK.accel.1 hPK.accel.2 hPK.steering.1 hPK.steering.2
      hPK.metricSteering hPK.metricAccel.1 hPK.metricAccel.2 (p := s1.simTrajectory i t) (q := s1.simTrajectory i t') hyaw' hspeed
      (by
        have : norm2 ((s1.simTrajectory i t).velX.val, (s1.simTrajectory i t).velY.val) =
          √((s1.simTrajectory i t).velX.val ^ 2 + (s1.simTrajectory i t).velY.val ^ 2) := rfl
        rw [← this]
        linarith)
      (act := acts[k] i) h3 h4 h5
    rw [if_neg]
    rintro (hh | hh) <;> linarith

theorem threshold_le (h : L.Accurate singleError) {x : Flt float64} (h0 : 0 ≤ x.val) (h1 : x.val ≤ 100) :
    (kimThreshold φ x).val ≤ x.val + 103 / 100000 := by
  have e0 := float64_err 1e-3
  rw [abs_of_pos (by norm_num : (0 : ℝ) < 1e-3)] at e0
  have e1 := float64_err (x.val + (Flt.round float64 1e-3).val)
  have e2 := pyFloat_close h (x.add (Flt.round _ 1e-3))
  have e3 : (x.add (Flt.round _ 1e-3)).val = (Flt.round float64 (x.val + (Flt.round float64 1e-3).val)).val := rfl
  unfold kimThreshold
  rw [e3] at e2
  generalize (pyFloat φ (x.add (Flt.round _ 1e-3))).val = R at *
  generalize (Flt.round float64 (x.val + (Flt.round float64 1e-3).val)).val = S at *
  generalize (Flt.round float64 1e-3).val = r at *
  have r0 : 0 ≤ r ∧ r ≤ 10001 / 10000000 := by
    rw [abs_le] at e0
    norm_num at *
    refine ⟨?_, ?_⟩ <;> linarith [e0.1, e0.2]
  rw [abs_of_nonneg (by linarith : 0 ≤ x.val + r)] at e1
  have hS : |S| ≤ 101 := by
    rw [abs_le] at e1 ⊢
    norm_num at *
    constructor <;> linarith [e1.1, e1.2, r0.1, r0.2]
  unfold singleError at *
  rw [abs_le] at e1 e2
  norm_num at *
  linarith [e1.2, e2.2, r0.2]

/-- C137, the other side: in machine arithmetic too, a change of speed over one step that exceeds the limit by 4 mm/s² is flagged, for an
object that is valid at both steps. -/
theorem C137_detects_jump (hL : L.Accurate (2 ^ (-22 : ℤ))) {K : KimParamsFl} (hdt : K.dt = Flt.round _ 0.1)
    (hK : 0 ≤ K.maxAcc.val ∧ K.maxAcc.val ≤ 100) {s : SimState (Flt φ) n T} {i : Fin n} {t t' : Fin T}
    (ht : (t : Int) = s.timestep - 1) (ht' : (t' : Nat) = t + 1) (hval : (s.simTrajectory i t).valid = true)
    (hval' : (s.simTrajectory i t').valid = true)
    (hv : norm2 ((s.simTrajectory i t).velX.val, (s.simTrajectory i t).velY.val) ≤ 99)
    (hv' : norm2 ((s.simTrajectory i t').velX.val, (s.simTrajectory i t').velY.val) ≤ 99)
    (hjump : K.maxAcc.val + 4e-3 ≤ |norm2 ((s.simTrajectory i t').velX.val, (s.simTrajectory i t').velY.val) -
      norm2 ((s.simTrajectory i t).velX.val, (s.simTrajectory i t).velY.val)| / 0.1) :
    kinematicsInfeasibilityMetricFl L K s i = { value := 1, valid := true } := by
  rw [← singleError_eq] at hL
  obtain ⟨h1, -, h3⟩ := metric_of_pair (L := L) (K := K) (s := s) (i := i) ht ht'
  have hvd := h1.2 ⟨hval, hval'⟩
  have hone : (kinematicsInfeasibilityMetricFl L K s i).value = 1 := by
    rw [h3 hvd, if_pos]
    left
    refine lt_of_le_of_lt (threshold_le hL hK.1 hK.2) ?_
    generalize s.simTrajectory i t = p at *
    generalize s.simTrajectory i t' = q at *
    obtain ⟨v, hv1⟩ : ∃ v, v = speedFl L p.velX p.velY := ⟨_, rfl⟩
    obtain ⟨w, hw1⟩ : ∃ w, w = speedFl L q.velX q.velY := ⟨_, rfl⟩
    obtain ⟨t, ht⟩ : ∃ t, t = pyFloat φ tenth := ⟨_, rfl⟩
    obtain ⟨d, hd⟩ : ∃ d, d = w.sub v := ⟨_, rfl⟩
    obtain ⟨a', ha'⟩ : ∃ a', a' = L.div d t := ⟨_, rfl⟩
    have hd2 : K.dt = tenth := hdt
    have inv_accel : (bicycleInversePairFl L K.dt p q).accel = a' := by
      rw [ha', hd, hv1, hw1, ht, hd2]
      rfl
    rw [inv_accel]
    have sN := speed_norm hL p.velX p.velY
    have sN' := speed_norm hL q.velX q.velY
    rw [← hv1] at sN
    rw [← hw1] at sN'
    have k40 : (2 : ℝ) ^ (-40 : ℤ) ≤ 1 / 10 ^ 12 := by norm_num
    unfold norm2 at hv hv' hjump
    simp only at hv hv' hjump
    generalize √(p.velX.val ^ 2 + p.velY.val ^ 2) = N at *
    generalize √(q.velX.val ^ 2 + q.velY.val ^ 2) = N' at *
    generalize (2 : ℝ) ^ (-40 : ℤ) = k at *
    obtain ⟨t1, -⟩ := dt_close hL
    rw [← ht] at t1
    have ta : 0 < t.val ∧ t.val ≤ 1 / 10 + 3 / 10 ^ 8 := by
      rw [abs_le] at t1
      norm_num at t1 ⊢
      refine ⟨?_, ?_⟩ <;> linarith [t1.1, t1.2]
    have e4 := hL.sub w v
    rw [← hd] at e4
    have e5 := hL.div d t ta.1.ne'
    rw [← ha'] at e5
    have i1 : |N' - N| ≤ |w.val - N'| + |w.val - v.val| + |v.val - N| := by
      rw [show N' - N = -(w.val - N') + (w.val - v.val) + (v.val - N) by ring]
      refine (abs_add_three _ _ _).trans ?_
      rw [abs_neg]
    have i2 : |w.val - v.val| ≤ |d.val| + |d.val - (w.val - v.val)| := by
      have := abs_le_add_sub (w.val - v.val) d.val
      rwa [abs_sub_comm _ d.val] at this
    have i3 : |d.val / t.val| ≤ |a'.val| + |a'.val - d.val / t.val| := by
      have := abs_le_add_sub (d.val / t.val) a'.val
      rwa [abs_sub_comm _ a'.val] at this
    have i4 : |d.val| ≤ |d.val / t.val| * (1 / 10 + 3 / 10 ^ 8) := by
      have : |d.val / t.val| * t.val = |d.val| := by
        rw [abs_div, abs_of_pos ta.1, div_mul_cancel₀ _ ta.1.ne']
      rw [← this]
      exact mul_le_mul_of_nonneg_left ta.2 (abs_nonneg _)
    have hj : K.maxAcc.val + 4e-3 ≤ |N' - N| * 10 := by
      rw [show |N' - N| / 0.1 = |N' - N| * 10 by norm_num; ring] at hjump
      exact hjump
    generalize |N' - N| = X at *
    generalize |w.val - v.val| = Y at *
    generalize |d.val / t.val| = Z at *
    generalize |d.val| = D at *
    unfold singleError at *
    norm_num at *
    linarith
  cases hr : kinematicsInfeasibilityMetricFl L K s i with
  | mk value valid =>
    rw [hr] at hone hvd
    simp only at hone hvd
    rw [hone, hvd]

/-! ### C136 -/

/-- One coordinate of the position after one step. -/
theorem coordinate_step (hL : L.Accurate singleError) {P : BicycleParamsFl} (hdt : P.dt = Flt.round _ 0.1)
    (ha : 0 ≤ P.maxAccel.val ∧ P.maxAccel.val ≤ 11) (hs : 0 ≤ P.maxSteering.val) (act : AccelSteerFl φ) {x v c : Flt φ}
    (hc : |c.val| ≤ 1 + singleError) :
    |((x.add (v.mul (pyFloat φ P.dt))).add ((((Flt.round φ 0.5).mul (bicyclePhysicalFl P act).accel).mul c).mul
      (pySquare φ P.dt))).val - (x.val + v.val * 0.1)| ≤
    P.maxAccel.val * 0.1 ^ 2 / 2 + singleError * (3 * |x.val| + |v.val| + 1) := by
  have hd1 : P.dt = tenth := hdt
  obtain ⟨a, hae⟩ : ∃ a, a = (bicyclePhysicalFl P act).accel := ⟨_, rfl⟩
  obtain ⟨t, ht⟩ : ∃ t, t = pyFloat φ P.dt := ⟨_, rfl⟩
  obtain ⟨q, hq⟩ : ∃ q, q = pySquare φ P.dt := ⟨_, rfl⟩
  obtain ⟨b1, -⟩ := physical_bounds (φ := φ) ha.1 hs act
  obtain ⟨t1, t2⟩ := dt_close hL
  rw [← hd1] at t1 t2
  rw [← hae, ← ht, ← hq]
  rw [← hae] at b1
  rw [← ht] at t1
  rw [← hq] at t2
  have c1 := pyFloat_close hL P.maxAccel
  rw [abs_of_nonneg ha.1] at c1
  have b1' : |a.val| ≤ P.maxAccel.val + 12 * singleError := by
    have := (abs_le.1 c1).2
    have := ha.2
    unfold singleError at *
    norm_num at *
    linarith
  obtain ⟨B, hB⟩ : ∃ B, B = v.mul t := ⟨_, rfl⟩
  obtain ⟨C, hC⟩ : ∃ C, C = x.add B := ⟨_, rfl⟩
  obtain ⟨H, hH⟩ : ∃ H, H = (Flt.round φ 0.5).mul a := ⟨_, rfl⟩
  obtain ⟨G, hG⟩ : ∃ G, G = H.mul c := ⟨_, rfl⟩
  obtain ⟨W, hW⟩ : ∃ W, W = G.mul q := ⟨_, rfl⟩
  rw [← hB, ← hC, ← hH, ← hG, ← hW]
  have e1 := hL.mul v t
  have e2 := hL.add x B
  have e3 := hL.mul (Flt.round φ 0.5) a
  have e4 := hL.mul H c
  have e5 := hL.mul G q
  have e6 := hL.add C W
  rw [← hB] at e1
  rw [← hC] at e2
  rw [← hH, half_eq, abs_mul, abs_of_pos (by norm_num : (0 : ℝ) < 1 / 2)] at e3
  rw [← hG] at e4
  rw [← hW] at e5
  have tiny : (2 : ℝ) ^ (-100 : ℤ) ≤ 1 / 10 ^ 30 := by norm_num
  have tiny0 : (0 : ℝ) < 2 ^ (-100 : ℤ) := by positivity
  have ha1 := ha.1
  have ha2 := ha.2
  generalize (2 : ℝ) ^ (-100 : ℤ) = k at *
  generalize (C.add W).val = R at *
  generalize P.maxAccel.val = α at *
  clear hB hC hH hG hW ht hq hae c1
  generalize B.val = B at *
  generalize C.val = C at *
  generalize H.val = H at *
  generalize G.val = G at *
  generalize W.val = W at *
  generalize t.val = t at *
  generalize q.val = q at *
  generalize x.val = x at *
  generalize v.val = v at *
  generalize c.val = c at *
  generalize a.val = a at *
  have t0 : 0 ≤ t ∧ t ≤ 1 / 10 + 3 / 10 ^ 8 := by
    rw [abs_le] at t1
    norm_num at t1 ⊢
    constructor <;> linarith [t1.1, t1.2]
  have q0 : 0 ≤ q ∧ q ≤ 1 / 100 + 3 / 10 ^ 9 := by
    rw [abs_le] at t2
    norm_num at t2 ⊢
    constructor <;> linarith [t2.1, t2.2]
  have hv0 := abs_nonneg v
  have hx0 := abs_nonneg x
  have hh : 0 < singleError := by unfold singleError; norm_num
  -- the constant-velocity part
  rw [abs_mul, abs_of_nonneg t0.1] at e1
  have v1 : |v| * t ≤ |v| * (1 / 10 + 3 / 10 ^ 8) := mul_le_mul_of_nonneg_left t0.2 hv0
  have v2 : |B - v * (1 / 10)| ≤ |B - v * t| + |v| * (3 / 10 ^ 8) := by
    rw [show B - v * (1 / 10) = (B - v * t) + v * (t - 1 / 10) by ring]
    refine (abs_add_le _ _).trans ?_
    rw [abs_mul v]
    have := mul_le_mul_of_nonneg_left t1 hv0
    linarith
  have v3 : |B| ≤ |v| * (1 / 10) + |B - v * (1 / 10)| := by
    have := abs_le_add_sub B (v * (1 / 10))
    rwa [abs_mul, abs_of_pos (by norm_num : (0 : ℝ) < 1 / 10)] at this
  have v4 : |x + B| ≤ |x| + |B| := abs_add_le _ _
  have v5 : |C| ≤ |x + B| + |C - (x + B)| := abs_le_add_sub _ _
  -- the part of the acceleration
  have w1 : |H| ≤ 1 / 2 * |a| + (singleError * (1 / 2 * |a|) + k) := by
    have := abs_le_add_sub H (1 / 2 * a)
    rw [abs_mul (1 / 2) a, abs_of_pos (by norm_num : (0 : ℝ) < 1 / 2)] at this
    linarith
  have w2 : |H| ≤ α / 2 + 20 * singleError := by
    unfold singleError at *
    norm_num at *
    linarith
  have w3 : |H * c| ≤ (α / 2 + 20 * singleError) * (1 + singleError) := by
    rw [abs_mul]
    exact mul_le_mul w2 hc (abs_nonneg _) (by linarith)
  have w4 : |G| ≤ α / 2 + 34 * singleError := by
    have := abs_le_add_sub G (H * c)
    unfold singleError at *
    norm_num at *
    linarith
  have w5 : |G * q| ≤ (α / 2 + 34 * singleError) * (1 / 100 + 3 / 10 ^ 9) := by
    rw [abs_mul, abs_of_nonneg q0.1]
    exact mul_le_mul w4 q0.2 q0.1 (by linarith)
  have w6 : |W| ≤ α / 200 + 6 / 10 * singleError := by
    have := abs_le_add_sub W (G * q)
    unfold singleError at *
    norm_num at *
    linarith
  have f1 : |C + W| ≤ |C| + |W| := abs_add_le _ _
  have f2 : |R - (x + v * 0.1)| ≤ |R - (C + W)| + |W| + |C - (x + B)| + |B - v * (1 / 10)| := by
    rw [show R - (x + v * 0.1) = (R - (C + W)) + W + (C - (x + B)) + (B - v * (1 / 10)) by ring]
    have j1 := abs_add_le ((R - (C + W)) + W + (C - (x + B))) (B - v * (1 / 10))
    have j2 := abs_add_three (R - (C + W)) W (C - (x + B))
    linarith
  generalize |v| = v' at *
  generalize |x| = x' at *
  generalize |R - (x + v * 0.1)| = D at *
  generalize |B - v * (1 / 10)| = D1 at *
  generalize |C - (x + B)| = D2 at *
  generalize |R - (C + W)| = D3 at *
  unfold singleError at *
  norm_num at *
  linarith

/-- C136: one step from any state, for any action, in range or not. The new heading is in [-π, π] (π rounded); the speed changes by at
most the acceleration limit times the time step, plus a millimetre per second; the object is displaced from the constant-velocity
position by at most half the acceleration limit times the time step squared, plus rounding. -/
theorem C136_limits (hL : L.Accurate (2 ^ (-22 : ℤ))) {P : BicycleParamsFl} (hdt : P.dt = Flt.round _ 0.1)
    (ha : 0 ≤ P.maxAccel.val ∧ P.maxAccel.val ≤ 11) (hs : 0 ≤ P.maxSteering.val) (act : Fin n → Act (AccelSteerFl φ))
    (cur : Fin n → Pt (Flt φ)) (i : Fin n) (hv : norm2 ((cur i).velX.val, (cur i).velY.val) ≤ 99) :
    let u := (bicycleFl L P).computeUpdate act cur i
    |u.yaw.val| ≤ (Flt.pi φ).val ∧
    |norm2 (u.velX.val, u.velY.val) - norm2 ((cur i).velX.val, (cur i).velY.val)| ≤ P.maxAccel.val * 0.1 + 1e-3 ∧
    |u.x.val - ((cur i).x.val + (cur i).velX.val * 0.1)| ≤
      P.maxAccel.val * 0.1 ^ 2 / 2 + 2 ^ (-22 : ℤ) * (3 * |(cur i).x.val| + |(cur i).velX.val| + 1) ∧
    |u.y.val - ((cur i).y.val + (cur i).velY.val * 0.1)| ≤
      P.maxAccel.val * 0.1 ^ 2 / 2 + 2 ^ (-22 : ℤ) * (3 * |(cur i).y.val| + |(cur i).velY.val| + 1) := by
  rw [← singleError_eq] at hL ⊢
  have hu : (bicycleFl L P).computeUpdate act cur i = bicycleUpdateFl L P (act i) (cur i) := rfl
  rw [hu]
  generalize cur i = p at *
  have hcos : ∀ y : Flt φ, |(L.cos y).val| ≤ 1 + singleError := fun y => by
    have := abs_le_add_sub (L.cos y).val (cos y.val)
    have := hL.cos y
    have := abs_cos_le_one y.val
    linarith
  have hsin : ∀ y : Flt φ, |(L.sin y).val| ≤ 1 + singleError := fun y => by
    have := abs_le_add_sub (L.sin y).val (sin y.val)
    have := hL.sin y
    have := abs_sin_le_one y.val
    linarith
  have hsp := speed_step hL hdt ha.1 ha.2 hs hv (act i)
  refine ⟨abs_le.2 (C132_range _), ?_, ?_, ?_⟩
  · rw [show P.maxAccel.val * 0.1 = P.maxAccel.val / 10 by norm_num; ring]
    exact hsp
  · exact coordinate_step hL hdt ha hs (act i).data (hcos p.yaw)
  · exact coordinate_step hL hdt ha hs (act i).data (hsin p.yaw)

/-- C136: where `inverse` uses the quotient of turn and distance, the distance is positive: the expert's actions and the metric never
divide by zero, on any pair of recorded or simulated steps slower than 99 m/s. -/
theorem C136_inverse_defined (hL : L.Accurate (2 ^ (-22 : ℤ))) {p q : Pt (Flt φ)}
    (hp : norm2 (p.velX.val, p.velY.val) ≤ 99) (hq : norm2 (q.velX.val, q.velY.val) ≤ 99) :
    let dt : Flt float64 := Flt.round _ 0.1
    let speed := speedFl L p.velX p.velY
    let newSpeed := speedFl L q.velX q.velY
    let a := bicycleInversePairFl L dt p q
    (pyFloat φ dt).val ≠ 0 ∧
    ((0 < (travelFl dt speed a.accel).val) ∨
      ((speed.abs < speedLimitFl φ ∨ newSpeed.abs < speedLimitFl φ) ∧ a.steering.val = 0)) := by
  rw [← singleError_eq] at hL
  intro dt speed newSpeed a
  constructor
  · obtain ⟨t1, -⟩ := dt_close hL
    have t1' : |(pyFloat φ dt).val - 1 / 10| ≤ 3 / 10 ^ 8 := t1
    rw [abs_le] at t1'
    norm_num at t1'
    have := t1'.1
    intro h0
    rw [h0] at this
    norm_num at this
  · by_cases h1 : speed.abs < speedLimitFl φ
    · refine Or.inr ⟨Or.inl h1, ?_⟩
      show (bicycleInversePairFl L dt p q).steering.val = 0
      unfold bicycleInversePairFl
      simp only
      rw [if_pos (show (speedFl L p.velX p.velY).abs < speedLimitFl φ from h1)]
      split_ifs <;> rfl
    · by_cases h2 : newSpeed.abs < speedLimitFl φ
      · refine Or.inr ⟨Or.inr h2, ?_⟩
        show (bicycleInversePairFl L dt p q).steering.val = 0
        unfold bicycleInversePairFl
        simp only
        rw [if_pos (show (speedFl L q.velX q.velY).abs < speedLimitFl φ from h2)]
      · exact Or.inl (distance_pos hL hp hq h1 h2)

/-- C136: the expert's action is within the bounds of `action_spec`, for every recorded or simulated trajectory, and marked valid exactly
when both steps are. -/
theorem C136_expert_in_spec {P : BicycleParamsFl} (ha : 0 ≤ P.maxAccel.val) (hs : 0 ≤ P.maxSteering.val) (traj : Fin n → Fin T → Pt (Flt φ))
    (info : Fin n → ObjMeta) {t t' : Fin T} (ht' : (t' : Nat) = t + 1) (i : Fin n) :
    let a := (bicycleFl L P).inverse traj info t i
    |a.data.accel.val| ≤ (if P.normalizeActions then 1 else (pyFloat φ P.maxAccel).val) ∧
    |a.data.steering.val| ≤ (if P.normalizeActions then 1 else (pyFloat φ P.maxSteering).val) ∧
    (a.valid = true ↔ (traj i t).valid = true ∧ (traj i t').valid = true) := by
  have h1 : (Flt.round φ 1).val = 1 := Format.fl_of_rep Flt.rep_one
  have pa : 0 ≤ (pyFloat φ P.maxAccel).val := Format.le_fl_of_rep Format.Rep.zero ha
  have ps : 0 ≤ (pyFloat φ P.maxSteering).val := Format.le_fl_of_rep Format.Rep.zero hs
  have hval : ((bicycleFl L P).inverse traj info t i).valid = ((traj i t).valid && (traj i t').valid) := by
    show ((window2 (traj i) t).1.valid && (window2 (traj i) t).2.valid) = _
    rw [window2_eq (traj i) ht']
  refine ⟨?_, ?_, by rw [hval, Bool.and_eq_true]⟩
  · show |(Flt.clip _ (P.accelBound φ).neg (P.accelBound φ)).val| ≤ _
    refine (abs_clip_le ?_).trans ?_
    all_goals
      unfold BicycleParamsFl.accelBound
      cases P.normalizeActions
    · exact pa
    · show 0 ≤ (Flt.round φ 1).val; rw [h1]; norm_num
    · exact le_refl _
    · exact h1.le
  · show |(Flt.clip _ (P.steeringBound φ).neg (P.steeringBound φ)).val| ≤ _
    refine (abs_clip_le ?_).trans ?_
    all_goals
      unfold BicycleParamsFl.steeringBound
      cases P.normalizeActions
    · exact ps
    · show 0 ≤ (Flt.round φ 1).val; rw [h1]; norm_num
    · exact le_refl _
    · exact h1.le

/-! #### Standing still -/

/-- A command for no acceleration and no steering. -/
def IsZeroCommand (a : AccelSteerFl φ) : Prop := a.accel.val = 0 ∧ a.steering.val = 0

/-- The object does not move. -/
def StandsStill (p : Pt (Flt φ)) : Prop := p.velX.val = 0 ∧ p.velY.val = 0

theorem zero_mul_fl {a : Flt φ} (h : a.val = 0) (b : Flt φ) : (a.mul b).val = 0 := by
  show φ.fl (a.val * b.val) = 0
  rw [h, zero_mul, Format.fl_zero]

theorem mul_zero_fl {b : Flt φ} (h : b.val = 0) (a : Flt φ) : (a.mul b).val = 0 := by
  show φ.fl (a.val * b.val) = 0
  rw [h, mul_zero, Format.fl_zero]

theorem add_zero_fl {b : Flt φ} (h : b.val = 0) (a : Flt φ) : a.add b = a := by
  apply Subtype.ext
  show φ.fl (a.val + b.val) = a.val
  rw [h, add_zero, Format.fl_of_rep a.property]

/-- C136: one step of an object that stands still, without a command: the position is exactly the same and it still stands still; the
heading is wrapped. -/
theorem C136_rest_step (hL : L.Accurate (2 ^ (-22 : ℤ))) {P : BicycleParamsFl} (ha : 0 ≤ P.maxAccel.val) (hs : 0 ≤ P.maxSteering.val)
    {act : Act (AccelSteerFl φ)} (hact : IsZeroCommand act.data) {p : Pt (Flt φ)} (hp : StandsStill p) :
    let u := bicycleUpdateFl L P act p
    u.x = p.x ∧ u.y = p.y ∧ u.velX.val = 0 ∧ u.velY.val = 0 ∧ u.yaw = p.yaw.wrapYaws := by
  have h1 : (Flt.round φ 1).val = 1 := Format.fl_of_rep Flt.rep_one
  have pa : 0 ≤ (pyFloat φ P.maxAccel).val := Format.le_fl_of_rep Format.Rep.zero ha
  have ps : 0 ≤ (pyFloat φ P.maxSteering).val := Format.le_fl_of_rep Format.Rep.zero hs
  have hclip : ∀ {x hi : Flt φ}, x.val = 0 → 0 ≤ hi.val → (x.clip hi.neg hi).val = 0 := fun {x hi} hx hhi => by
    rw [clip_of_mem (by rw [hx, abs_zero]; exact hhi), hx]
  have hb : 0 ≤ (P.accelBound φ).val ∧ 0 ≤ (P.steeringBound φ).val := by
    unfold BicycleParamsFl.accelBound BicycleParamsFl.steeringBound
    cases P.normalizeActions
    · exact ⟨pa, ps⟩
    · simp only [if_true]
      rw [h1]
      norm_num
  have hz : (bicyclePhysicalFl P act.data).accel.val = 0 ∧ (bicyclePhysicalFl P act.data).steering.val = 0 := by
    have c1 : (bicycleClipFl P act.data).accel.val = 0 := hclip hact.1 hb.1
    have c2 : (bicycleClipFl P act.data).steering.val = 0 := hclip hact.2 hb.2
    unfold bicyclePhysicalFl
    cases P.normalizeActions
    · exact ⟨c1, c2⟩
    · exact ⟨zero_mul_fl c1 _, zero_mul_fl c2 _⟩
  have hsp : (speedFl L p.velX p.velY).val = 0 := by
    have e : ((p.velX.mul p.velX).add (p.velY.mul p.velY)).val = 0 := by
      rw [add_zero_fl (zero_mul_fl hp.2 _), zero_mul_fl hp.1]
    have := hL.sqrt _ (by rw [e])
    rw [e, Real.sqrt_zero, mul_zero, sub_zero] at this
    exact abs_eq_zero.1 (le_antisymm this (abs_nonneg _))
  have hnv : ((speedFl L p.velX p.velY).add ((bicyclePhysicalFl P act.data).accel.mul (pyFloat φ P.dt))).val = 0 := by
    rw [add_zero_fl (zero_mul_fl hz.1 _), hsp]
  refine ⟨?_, ?_, zero_mul_fl hnv _, zero_mul_fl hnv _, ?_⟩
  · show (p.x.add _).add _ = p.x
    rw [add_zero_fl (zero_mul_fl hp.1 _), add_zero_fl (zero_mul_fl (zero_mul_fl (mul_zero_fl hz.1 _) _) _)]
  · show (p.y.add _).add _ = p.y
    rw [add_zero_fl (zero_mul_fl hp.2 _), add_zero_fl (zero_mul_fl (zero_mul_fl (mul_zero_fl hz.1 _) _) _)]
  · show (p.yaw.add _).wrapYaws = _
    rw [add_zero_fl (zero_mul_fl hz.2 _)]

end

section
variable {n T : Nat} [NeZero T]

/-- What one expects of a parked vehicle that is given no command: pose and velocity stay the same number for number. -/
def ParkedStaysPut (L : Libm float32) (P : BicycleParamsFl) : Prop :=
  ∀ (act : Act (AccelSteerFl float32)) (p : Pt (Flt float32)), IsZeroCommand act.data → StandsStill p → |p.yaw.val| ≤ 3 →
    let u := bicycleUpdateFl L P act p
    u.x = p.x ∧ u.y = p.y ∧ u.velX.val = 0 ∧ u.velY.val = 0 ∧ u.yaw = p.yaw

/-- C136: in single precision the heading of a parked vehicle does change, in the first step: 2 ^ -30 is rounded away by the wrapping. -/
theorem C136_parked_violated {L : Libm float32} (hL : L.Accurate (2 ^ (-22 : ℤ))) {P : BicycleParamsFl} (ha : 0 ≤ P.maxAccel.val)
    (hs : 0 ≤ P.maxSteering.val) : ¬ ParkedStaysPut L P := by
  intro h
  have hz : IsZeroCommand (φ := float32) { accel := ⟨0, Format.Rep.zero⟩, steering := ⟨0, Format.Rep.zero⟩ } := ⟨rfl, rfl⟩
  obtain ⟨p, hp, hy⟩ : ∃ p : Pt (Flt float32), StandsStill p ∧ p.yaw = tinyYaw :=
    ⟨{ (invalidPt : Pt (Flt float32)) with velX := ⟨0, Format.Rep.zero⟩, velY := ⟨0, Format.Rep.zero⟩, yaw := tinyYaw }, ⟨rfl, rfl⟩, rfl⟩
  have h1 := (h { data := { accel := ⟨0, Format.Rep.zero⟩, steering := ⟨0, Format.Rep.zero⟩ }, valid := true } p hz hp (by
    rw [hy]
    norm_num [tinyYaw, abs_of_pos])).2.2.2.2
  have h2 := (C136_rest_step hL ha hs (act := { data := { accel := ⟨0, Format.Rep.zero⟩, steering := ⟨0, Format.Rep.zero⟩ }, valid := true })
    hz hp).2.2.2.2
  rw [h2, hy] at h1
  have := (C132_keeps_iff tinyYaw_in_range).1 h1
  rw [float32_pi] at this
  obtain ⟨k, hk⟩ := this.gap (e := -22) (by
    rw [abs_of_pos (by norm_num [tinyYaw])]
    norm_num [tinyYaw, float32])
  have h3 : (2 : ℝ) ^ (-30 : ℤ) + 13176795 * 2 ^ (-22 : ℤ) = k * 2 ^ (-22 : ℤ) := hk
  have h4 : (1 : ℝ) + 13176795 * 256 = k * 256 := by
    norm_num at h3 ⊢
    linarith
  have h5 : (1 : ℤ) + 13176795 * 256 = k * 256 := by exact_mod_cast h4
  omega

/-- C136: a parked vehicle that is given no command stays where it is in every episode, however long: its position is exactly that of the
log at the last warm-up step, it stands still, and its heading is the wrapped logged heading at every step (so it changes at most in the
first step). Missing from the expectation: the heading in that step. -/
theorem C136_parked_partial {L : Libm float32} (hL : L.Accurate (2 ^ (-22 : ℤ))) {P : BicycleParamsFl} (ha : 0 ≤ P.maxAccel.val)
    (hs : 0 ≤ P.maxSteering.val) {cfg : EnvConfig} {scen s0 s1 : SimState (Flt float32) n T}
    {acts : List (Fin n → Act (AccelSteerFl float32))} (E : Episode (bicycleFl L P) cfg scen s0 acts s1) {i : Fin n}
    (hc : IsControlled cfg s0 i) {t0 : Fin T} (ht0 : t0.val + 1 = cfg.initSteps) (hp : StandsStill (scen.logTrajectory i t0))
    (hact : ∀ a ∈ acts, IsZeroCommand (a i).data) {k : Nat} (hk : k < acts.length) {t : Fin T} (ht : t.val = cfg.initSteps + k) :
    let p := s1.simTrajectory i t
    p.x = (scen.logTrajectory i t0).x ∧ p.y = (scen.logTrajectory i t0).y ∧ StandsStill p ∧
      p.yaw = (scen.logTrajectory i t0).yaw.wrapYaws := by
  induction k generalizing t with
  | zero =>
    obtain ⟨h1, h2, h3, h4, h5⟩ := E.bicycle_step hc (k := 0) hk (t := t0) (t' := t) (by omega) (by omega)
    rw [E.bicycle_start i ht0] at h1 h2 h3 h4 h5
    obtain ⟨g1, g2, g3, g4, g5⟩ := C136_rest_step hL ha hs (hact _ (List.getElem_mem hk)) hp
    exact ⟨h1.trans g1, h2.trans g2, ⟨by rw [h4, g3], by rw [h5, g4]⟩, h3.trans g5⟩
  | succ k ih =>
    obtain ⟨u, hu⟩ : ∃ u : Fin T, u.val + 1 = t.val := ⟨⟨t.val - 1, by omega⟩, by simp; omega⟩
    obtain ⟨i1, i2, i3, i4⟩ := ih (by omega) (t := u) (by omega)
    obtain ⟨h1, h2, h3, h4, h5⟩ := E.bicycle_step hc (k := k + 1) hk (t := u) (t' := t) (by omega) (by omega)
    obtain ⟨g1, g2, g3, g4, g5⟩ := C136_rest_step hL ha hs (hact _ (List.getElem_mem hk)) i3
    refine ⟨h1.trans (g1.trans i1), h2.trans (g2.trans i2), ⟨by rw [h4, g3], by rw [h5, g4]⟩, ?_⟩
    rw [h3, g5, i4, C132_float32_idempotent]

end

/-! ### The hypotheses are met -/

/-- A library that rounds every result correctly. -/
noncomputable def exactLibm (φ : Format) : Libm φ where
  sin := fun x => Flt.round φ (sin x.val)
  cos := fun x => Flt.round φ (cos x.val)
  arctan2 := fun y x => Flt.round φ (Waymax.arctan2 y.val x.val)
  sqrt := fun x => Flt.round φ √x.val
  div := fun a b => Flt.round φ (a.val / b.val)

/-- The correctly rounding single precision library is accurate. -/
theorem exactLibm_accurate : (exactLibm float32).Accurate (2 ^ (-22 : ℤ)) := by
  have hu : float32.u = 2 ^ (-24 : ℤ) := rfl
  have he : float32.emin = -149 := rfl
  have key : ∀ x : ℝ, |float32.fl x - x| ≤ 2 ^ (-24 : ℤ) * |x| + 2 ^ (-149 : ℤ) := fun x => by
    have := float32.fl_err_tiny x
    rwa [hu, he] at this
  have tiny : (2 : ℝ) ^ (-149 : ℤ) ≤ 2 ^ (-24 : ℤ) := zpow_le_zpow_right₀ (by norm_num) (by norm_num)
  have key1 : ∀ x : ℝ, |x| ≤ 1 → |float32.fl x - x| ≤ 2 ^ (-22 : ℤ) := fun x hx => by
    have h1 := key x
    have h2 : (2 : ℝ) ^ (-24 : ℤ) * |x| ≤ 2 ^ (-24 : ℤ) * 1 := mul_le_mul_of_nonneg_left hx (by positivity)
    have h3 : (2 : ℝ) ^ (-22 : ℤ) = 4 * 2 ^ (-24 : ℤ) := by norm_num
    have : (0 : ℝ) < 2 ^ (-24 : ℤ) := by positivity
    rw [h3]
    linarith
  refine ⟨by rw [hu]; exact zpow_le_zpow_right₀ (by norm_num) (by norm_num), le_refl _, by rw [he]; norm_num, fun x => key1 _ (abs_cos_le_one _),
    fun x => key1 _ (abs_sin_le_one _), fun y x => ?_, fun x hx => ?_, fun a b _ => ?_⟩
  · have h1 := key (Waymax.arctan2 y.val x.val)
    have h2 : |Waymax.arctan2 y.val x.val| ≤ 4 := (Complex.abs_arg_le_pi _).trans Real.pi_le_four
    have h3 : (2 : ℝ) ^ (-24 : ℤ) * |Waymax.arctan2 y.val x.val| ≤ 2 ^ (-24 : ℤ) * 4 := mul_le_mul_of_nonneg_left h2 (by positivity)
    have h4 : (2 : ℝ) ^ (-22 : ℤ) = 4 * 2 ^ (-24 : ℤ) := by norm_num
    have : (0 : ℝ) < 2 ^ (-24 : ℤ) := by positivity
    show |float32.fl _ - _| ≤ _
    rw [h4]
    linarith
  · show |float32.fl _ - _| ≤ _
    rcases hx.eq_or_lt with h0 | h0
    · rw [← h0, Real.sqrt_zero, Format.fl_zero]
      simp
    · have h1 : (2 : ℝ) ^ (-149 : ℤ) ≤ x.val := (C132_float32_numbers.1.2 _ x.property h0)
      have h2 : (2 : ℝ) ^ (-126 : ℤ) ≤ √x.val := by
        apply Real.le_sqrt_of_sq_le
        refine le_trans ?_ h1
        rw [← zpow_natCast, ← zpow_mul]
        exact zpow_le_zpow_right₀ (by norm_num) (by norm_num)
      have h3 := Format.fl_rel (φ := float32) (x := √x.val) (by
        rw [abs_of_nonneg (Real.sqrt_nonneg _)]
        exact h2)
      rw [abs_of_nonneg (Real.sqrt_nonneg _), hu] at h3
      refine h3.trans (mul_le_mul_of_nonneg_right (zpow_le_zpow_right₀ (by norm_num) (by norm_num)) (Real.sqrt_nonneg _))
  · have h1 := key (a.val / b.val)
    have h2 : (2 : ℝ) ^ (-24 : ℤ) ≤ 2 ^ (-22 : ℤ) := zpow_le_zpow_right₀ (by norm_num) (by norm_num)
    have h3 := mul_le_mul_of_nonneg_right h2 (abs_nonneg (a.val / b.val))
    show |float32.fl _ - _| ≤ _
    linarith

theorem float64_six (normalize : Bool) : (BicycleParamsFl.default normalize).maxAccel.val = 6 :=
  Format.fl_of_rep ⟨6, 0, by decide, by decide, by norm_num⟩

theorem default_comparable (normalize : Bool) : ComparableLimits (.default normalize) .default := by
  have h3 := float64_err 0.3
  have h4 := float64_err 10.4
  rw [abs_of_pos (by norm_num : (0 : ℝ) < 0.3)] at h3
  rw [abs_of_pos (by norm_num : (0 : ℝ) < 10.4)] at h4
  rw [abs_le] at h3 h4
  have e3 : KimParamsFl.default.maxSteering.val = (Flt.round float64 0.3).val := rfl
  have e4 : KimParamsFl.default.maxAcc.val = (Flt.round float64 10.4).val := rfl
  have e5 : (BicycleParamsFl.default normalize).maxSteering.val = (Flt.round float64 0.3).val := rfl
  refine ⟨rfl, rfl, ?_, ?_, ?_, ?_⟩
  · rw [float64_six]
    norm_num
  · rw [e5, e3]
    exact ⟨by norm_num at h3 ⊢; linarith [h3.1], le_refl _⟩
  · rw [e3]
    norm_num at h3 ⊢
    linarith [h3.2]
  · rw [e4]
    norm_num at h4 ⊢
    constructor <;> linarith [h4.1, h4.2]

/-- C137 with the default arguments of the model and of the metric, in single precision: an episode of at most a hundred steps from at most
30 m/s is never flagged for a controlled object, whatever the actions, normalised or not. -/
theorem C137_default {L : Libm float32} (hL : L.Accurate (2 ^ (-22 : ℤ))) (normalize : Bool) {n T : Nat} [NeZero T] {cfg : EnvConfig}
    {scen s0 s1 : SimState (Flt float32) n T} {acts : List (Fin n → Act (AccelSteerFl float32))}
    (E : Episode (bicycleFl L (.default normalize)) cfg scen s0 acts s1) (hne : acts ≠ []) (hlen : acts.length ≤ 100)
    {i : Fin n} (hc : IsControlled cfg s0 i) {t0 : Fin T} (ht0 : t0.val + 1 = cfg.initSteps)
    (hyaw : |(scen.logTrajectory i t0).yaw.val| ≤ 4)
    (hv0 : norm2 ((scen.logTrajectory i t0).velX.val, (scen.logTrajectory i t0).velY.val) ≤ 30) :
    (kinematicsInfeasibilityMetricFl L .default s1 i).value = 0 := by
  refine C137_episode hL (default_comparable normalize) ?_ E hne hc ht0 hyaw hv0 ?_
  · have h4 := float64_err 10.4
    rw [abs_of_pos (by norm_num : (0 : ℝ) < 10.4), abs_le] at h4
    rw [float64_six]
    show (6 : ℝ) + 3e-3 ≤ (Flt.round float64 10.4).val
    norm_num at h4 ⊢
    linarith [h4.1]
  · rw [float64_six]
    have : (acts.length : ℝ) ≤ 100 := by exact_mod_cast hlen
    norm_num
    linarith

/-- One car at 10 m/s in float32. -/
noncomputable def tenScen : SimState (Flt float32) 1 4 :=
  { quarterScen with logTrajectory := fun i t => { quarterScen.logTrajectory i t with velX := quarter 40 } }

/-- Non-vacuity of C136 and C137: extreme actions, out of range, for three steps. -/
example : ∃ s0 s1, Episode (bicycleFl (exactLibm float32) (.default true)) driveCfg tenScen s0
      (List.replicate 3 fun _ => { data := { accel := quarter 400, steering := quarter (-28) }, valid := true }) s1 ∧
    (kinematicsInfeasibilityMetricFl (exactLibm float32) .default s1 0).value = 0 := by
  obtain ⟨s0, h0⟩ : ∃ s0, reset driveCfg tenScen = .ok s0 := ⟨_, rfl⟩
  obtain ⟨s1, h1⟩ := stepMany_exists (bicycleFl (exactLibm float32) (.default true)) driveCfg s0
    (List.replicate 3 fun _ => { data := { accel := quarter 400, steering := quarter (-28) }, valid := true }) (by decide)
  have E : Episode (bicycleFl (exactLibm float32) (.default true)) driveCfg tenScen s0 _ s1 := ⟨h0, h1, by decide, by decide⟩
  refine ⟨s0, s1, E, C137_default exactLibm_accurate true E (by simp) (by simp) (i := 0) ?_ (t0 := 0) rfl ?_ ?_⟩
  · show (s0.objectMetadata 0).isSdc = true
    rw [E.reset_data]
    rfl
  · show |((12 : ℤ) : ℝ) * 2 ^ (-2 : ℤ)| ≤ 4
    rw [abs_of_pos (by norm_num)]
    norm_num
  · show norm2 (((40 : ℤ) : ℝ) * 2 ^ (-2 : ℤ), ((0 : ℤ) : ℝ) * 2 ^ (-2 : ℤ)) ≤ 30
    unfold norm2
    rw [show (((40 : ℤ) : ℝ) * 2 ^ (-2 : ℤ)) ^ 2 + (((0 : ℤ) : ℝ) * 2 ^ (-2 : ℤ)) ^ 2 = 10 ^ 2 by norm_num, Real.sqrt_sq (by norm_num)]
    norm_num

/-- Non-vacuity of `C136_parked_partial`: the car of C133 is at rest at its first step. -/
example : ∃ s0 s1, Episode (bicycleFl (exactLibm float32) (.default false)) driveCfg quarterScen s0
      (List.replicate 3 fun _ => { data := { accel := quarter 0, steering := quarter 0 }, valid := true }) s1 ∧
    (s1.simTrajectory 0 3).x.val = 1000 := by
  obtain ⟨s0, h0⟩ : ∃ s0, reset driveCfg quarterScen = .ok s0 := ⟨_, rfl⟩
  obtain ⟨s1, h1⟩ := stepMany_exists (bicycleFl (exactLibm float32) (.default false)) driveCfg s0
    (List.replicate 3 fun _ => { data := { accel := quarter 0, steering := quarter 0 }, valid := true }) (by decide)
  have E : Episode (bicycleFl (exactLibm float32) (.default false)) driveCfg quarterScen s0 _ s1 := ⟨h0, h1, by decide, by decide⟩
  have hz : (quarter 0).val = 0 := by norm_num [quarter]
  have h := (C136_parked_partial exactLibm_accurate (by rw [float64_six]; norm_num) (default_comparable false).steering.1 E (i := 0)
    (by
      show (s0.objectMetadata 0).isSdc = true
      rw [E.reset_data]
      rfl) (t0 := 0) rfl ⟨hz, hz⟩ (fun a ha => by rw [List.eq_of_mem_replicate ha]; exact ⟨hz, hz⟩) (k := 2) (by simp) (t := 3) rfl).1
  refine ⟨s0, s1, E, ?_⟩
  rw [h]
  show ((4000 : ℤ) : ℝ) * 2 ^ (-2 : ℤ) = 1000
  norm_num

/-- Non-vacuity of `C137_detects_jump`: from 10 m/s to 1 m/s in one step. -/
example : kinematicsInfeasibilityMetricFl (exactLibm float32) .default { tenScen with
    simTrajectory := fun _ t => { quarterPt (quarter 0) (quarter 0) (quarter 0) with velX := if t = 0 then quarter 40 else quarter 4 },
    timestep := 1 } 0 = { value := 1, valid := true } := by
  have hn : ∀ k : ℤ, 0 ≤ k → norm2 ((k : ℝ) * 2 ^ (-2 : ℤ), ((0 : ℤ) : ℝ) * 2 ^ (-2 : ℤ)) = k / 4 := fun k hk => by
    unfold norm2
    rw [show ((k : ℝ) * 2 ^ (-2 : ℤ)) ^ 2 + (((0 : ℤ) : ℝ) * 2 ^ (-2 : ℤ)) ^ 2 = ((k : ℝ) / 4) ^ 2 by norm_num; ring,
      Real.sqrt_sq (by have : (0 : ℝ) ≤ k := by exact_mod_cast hk
                       positivity)]
  have n1 := hn 40 (by norm_num)
  have n2 := hn 4 (by norm_num)
  refine C137_detects_jump exactLibm_accurate rfl (default_comparable false).metricAccel (t := 0) (t' := 1) rfl rfl rfl rfl ?_ ?_ ?_
  · show norm2 (((40 : ℤ) : ℝ) * 2 ^ (-2 : ℤ), ((0 : ℤ) : ℝ) * 2 ^ (-2 : ℤ)) ≤ 99
    rw [n1]
    norm_num
  · show norm2 (((4 : ℤ) : ℝ) * 2 ^ (-2 : ℤ), ((0 : ℤ) : ℝ) * 2 ^ (-2 : ℤ)) ≤ 99
    rw [n2]
    norm_num
  · show KimParamsFl.default.maxAcc.val + 4e-3 ≤ |norm2 (((4 : ℤ) : ℝ) * 2 ^ (-2 : ℤ), ((0 : ℤ) : ℝ) * 2 ^ (-2 : ℤ)) -
      norm2 (((40 : ℤ) : ℝ) * 2 ^ (-2 : ℤ), ((0 : ℤ) : ℝ) * 2 ^ (-2 : ℤ))| / 0.1
    rw [n1, n2]
    have h4 := float64_err 10.4
    rw [abs_of_pos (by norm_num : (0 : ℝ) < 10.4), abs_le] at h4
    have e4 : KimParamsFl.default.maxAcc.val = (Flt.round float64 10.4).val := rfl
    rw [e4]
    norm_num at h4 ⊢
    linarith [h4.2]

end Waymax
