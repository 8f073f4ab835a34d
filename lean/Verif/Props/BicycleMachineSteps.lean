import Verif.Props.BicycleMachineNumbers
import Verif.Props.Episode
/-
Lemmas for C136 and C137: one step of the bicycle model in machine arithmetic and the inverse of that step.
-/

namespace Waymax

open Real

section
variable {φ : Format} {L : Libm φ}

/-! ### Limits -/

theorem abs_clip_le {x hi : Flt φ} (h : 0 ≤ hi.val) : |(x.clip hi.neg hi).val| ≤ hi.val := by
  have hn : hi.neg.val = -hi.val := rfl
  have h1 : x.clip hi.neg hi ≤ hi := min_le_right _ _
  have h2 : hi.neg ≤ x.clip hi.neg hi := le_min (le_max_right _ _) (show hi.neg.val ≤ hi.val by rw [hn]; linarith)
  exact abs_le.2 ⟨by have : hi.neg.val ≤ (x.clip hi.neg hi).val := h2; rwa [hn] at this, h1⟩

theorem abs_mul_le {c m : Flt φ} (hc : |c.val| ≤ 1) (hm : 0 ≤ m.val) : |(c.mul m).val| ≤ m.val := by
  have h1 : |c.val * m.val| ≤ m.val := by
    rw [abs_mul, abs_of_nonneg hm]
    exact mul_le_of_le_one_left hm hc
  rw [abs_le] at h1
  refine abs_le.2 ⟨?_, Format.fl_le_of_rep m.property h1.2⟩
  exact Format.le_fl_of_rep m.property.neg h1.1

theorem physical_bounds {P : BicycleParamsFl} (ha : 0 ≤ P.maxAccel.val) (hs : 0 ≤ P.maxSteering.val) (a : AccelSteerFl φ) :
    |(bicyclePhysicalFl P a).accel.val| ≤ (pyFloat φ P.maxAccel).val ∧
    |(bicyclePhysicalFl P a).steering.val| ≤ (pyFloat φ P.maxSteering).val := by
  have h1 : (Flt.round φ 1).val = 1 := Format.fl_of_rep Flt.rep_one
  have pa : 0 ≤ (pyFloat φ P.maxAccel).val := Format.le_fl_of_rep Format.Rep.zero ha
  have ps : 0 ≤ (pyFloat φ P.maxSteering).val := Format.le_fl_of_rep Format.Rep.zero hs
  unfold bicyclePhysicalFl bicycleClipFl BicycleParamsFl.accelBound BicycleParamsFl.steeringBound
  cases P.normalizeActions
  · exact ⟨abs_clip_le pa, abs_clip_le ps⟩
  · have hb : 0 ≤ (Flt.round φ 1).val := by rw [h1]; norm_num
    refine ⟨abs_mul_le ?_ pa, abs_mul_le ?_ ps⟩ <;> exact (abs_clip_le hb).trans h1.le

end

section
variable {φ : Format} {L : Libm φ} (h : L.Accurate singleError)

include h

/-- The turn found by the inverse is at most the turn made, plus rounding. -/
theorem turn_close {yaw g rn : Flt φ} (hy : |yaw.val| ≤ 4) (hg : |g.val| ≤ 11) (hr : |rn.val| ≤ 32 / 10)
    (hk : ∃ k : ℤ, |rn.val - (yaw.add g).wrapYaws.val - k * (2 * (Flt.pi φ).val)| ≤ 18 * singleError) :
    |(rn.sub yaw.wrapYaws).wrapYaws.val| ≤ |g.val| + 105 * singleError := by
  obtain ⟨k3, hk3⟩ := hk
  obtain ⟨k1, hk1⟩ := wrap_close h yaw
  obtain ⟨k2, hk2⟩ := wrap_close h (yaw.add g)
  obtain ⟨k4, hk4⟩ := wrap_close h (rn.sub yaw.wrapYaws)
  have hadd := h.add yaw g
  have hsub := h.sub rn yaw.wrapYaws
  have hw : |yaw.wrapYaws.val| ≤ 315 / 100 := by
    have := C132_range yaw
    have h1 := pi_close h
    have h4 := Real.pi_lt_d4
    have : (Flt.pi φ).val ≤ 315 / 100 := by
      unfold singleError at h1
      rw [abs_le] at h1
      norm_num at *
      linarith [h1.2]
    rw [abs_le]
    constructor <;> linarith [(C132_range yaw).1, (C132_range yaw).2]
  have hd := abs_le.2 (C132_range (rn.sub yaw.wrapYaws))
  refine abs_le_of_turns (K := k4 - k1 + k2 - k3) Flt.pi_pos hd ?_
  push_cast
  clear hd
  generalize (rn.sub yaw.wrapYaws).wrapYaws.val = δ at *
  generalize (rn.sub yaw.wrapYaws).val = S at *
  generalize (yaw.add g).wrapYaws.val = ny at *
  generalize (yaw.add g).val = Y at *
  generalize yaw.wrapYaws.val = yw at *
  generalize yaw.val = y at *
  generalize g.val = g at *
  generalize rn.val = r at *
  generalize (Flt.pi φ).val = p at *
  generalize (k1 : ℝ) = k1 at *
  generalize (k2 : ℝ) = k2 at *
  generalize (k3 : ℝ) = k3 at *
  generalize (k4 : ℝ) = k4 at *
  have e1 : |y + g| ≤ 15 := (abs_add_le _ _).trans (by linarith)
  have e2 : |Y| ≤ 151 / 10 := by
    have := abs_le_add_sub Y (y + g)
    unfold singleError at *
    linarith
  have e3 : |r - yw| ≤ 64 / 10 := (abs_sub _ _).trans (by linarith)
  have e4 : |S| ≤ 641 / 100 := by
    have := abs_le_add_sub S (r - yw)
    unfold singleError at *
    linarith
  have key : δ - (g - 2 * p * (k4 - k1 + k2 - k3)) = (δ - (S - k4 * (2 * p))) + (S - (r - yw)) + (r - ny - k3 * (2 * p)) +
      -(yw - (y - k1 * (2 * p))) + (ny - (Y - k2 * (2 * p))) + (Y - (y + g)) := by ring
  rw [key, abs_le]
  rw [abs_le] at hk1 hk2 hk3 hk4 hadd hsub
  unfold singleError at *
  constructor <;> linarith [hk1.1, hk1.2, hk2.1, hk2.2, hk3.1, hk3.2, hk4.1, hk4.2, hadd.1, hadd.2, hsub.1, hsub.2]

/-- The heading the inverse uses for the new step agrees with the written one up to turns and rounding. -/
theorem new_heading {w ny vx vy : Flt φ} (hw : 1 / 2 ≤ w.val) (hx : vx = w.mul (L.cos ny)) (hy : vy = w.mul (L.sin ny))
    (hn : |ny.val| ≤ (Flt.pi φ).val) (c : Prop) [Decidable c] :
    let rn := if c then ny.wrapYaws else L.arctan2 vy vx
    |rn.val| ≤ 32 / 10 ∧ ∃ k : ℤ, |rn.val - ny.val - k * (2 * (Flt.pi φ).val)| ≤ 18 * singleError := by
  have hp := pi_close h
  have h4 := Real.pi_lt_d4
  have h3 := Real.pi_gt_d4
  have hp5 : (Flt.pi φ).val ≤ 315 / 100 := by
    unfold singleError at hp
    rw [abs_le] at hp
    norm_num at *
    linarith [hp.2]
  split_ifs with hc
  · constructor
    · rw [abs_le]
      constructor <;> linarith [(C132_range ny).1, (C132_range ny).2]
    · obtain ⟨k, hk⟩ := wrap_close h ny
      refine ⟨-k, ?_⟩
      push_cast
      rw [show ny.wrapYaws.val - ny.val - -(k : ℝ) * (2 * (Flt.pi φ).val) = ny.wrapYaws.val - (ny.val - k * (2 * (Flt.pi φ).val)) by ring]
      unfold singleError at *
      linarith
  · obtain ⟨k, hk⟩ := heading_of_components h hw hx hy
    have ha := h.arctan2 vy vx
    have hr : |Waymax.arctan2 vy.val vx.val| ≤ π := Complex.abs_arg_le_pi _
    constructor
    · have := abs_le_add_sub (L.arctan2 vy vx).val (Waymax.arctan2 vy.val vx.val)
      unfold singleError at *
      norm_num at *
      linarith
    · have hkb : |(k : ℝ)| ≤ 1 := by
        have i1 : |(k : ℝ) * (2 * π)| ≤ |Waymax.arctan2 vy.val vx.val| + |ny.val| +
            |Waymax.arctan2 vy.val vx.val - ny.val - k * (2 * π)| := by
          rw [show (k : ℝ) * (2 * π) = Waymax.arctan2 vy.val vx.val + -ny.val + -(Waymax.arctan2 vy.val vx.val - ny.val - k * (2 * π)) by ring]
          refine (abs_add_three _ _ _).trans ?_
          rw [abs_neg, abs_neg]
          ring_nf
          linarith
        rw [abs_mul, abs_of_pos (by linarith : 0 < 2 * π)] at i1
        have i2 : |(k : ℝ)| * (2 * (31415 / 10000)) ≤ |(k : ℝ)| * (2 * π) := by
          apply mul_le_mul_of_nonneg_left _ (abs_nonneg _)
          norm_num at h3 ⊢
          linarith
        have i3 : |(k : ℝ)| < 2 := by
          unfold singleError at *
          norm_num at *
          linarith
        have i4 : |k| < 2 := by exact_mod_cast i3
        have i5 : |k| ≤ 1 := by omega
        exact_mod_cast i5
      refine ⟨k, ?_⟩
      have j : |(k : ℝ) * (2 * (π - (Flt.pi φ).val))| ≤ 64 / 10 * singleError := by
        rw [abs_mul, abs_mul, abs_two, abs_sub_comm]
        have := mul_le_mul hkb hp (abs_nonneg _) zero_le_one
        linarith
      rw [show (L.arctan2 vy vx).val - ny.val - k * (2 * (Flt.pi φ).val) = ((L.arctan2 vy vx).val - Waymax.arctan2 vy.val vx.val) +
        (Waymax.arctan2 vy.val vx.val - ny.val - k * (2 * π)) + k * (2 * (π - (Flt.pi φ).val)) by ring]
      refine (abs_add_three _ _ _).trans ?_
      have : 0 < singleError := by unfold singleError; norm_num
      linarith

theorem threshold_ge {x : Flt float64} (h0 : 0 ≤ x.val) (h1 : x.val ≤ 100) :
    x.val + 97 / 100000 ≤ (kimThreshold φ x).val := by
  have e0 := float64_err 1e-3
  rw [abs_of_pos (by norm_num : (0 : ℝ) < 1e-3)] at e0
  have e1 := float64_err (x.val + (Flt.round float64 1e-3).val)
  have e2 := pyFloat_close h (x.add (Flt.round _ 1e-3))
  have e3 : (x.add (Flt.round _ 1e-3)).val = (Flt.round float64 (x.val + (Flt.round float64 1e-3).val)).val := rfl
  unfold kimThreshold
  rw [e3] at e2
  generalize (pyFloat φ (x.add (Flt.round _ 1e-3))).val = R at *
  generalize (Flt.round float64 (x.val + (Flt.round float64 1e-3).val)).val = S at *
  generalize (Flt.round float64 1e-3).val = r at *
  have r0 : 0 ≤ r ∧ r ≤ 11 / 10000 ∧ 9999 / 10000000 ≤ r := by
    rw [abs_le] at e0
    norm_num at *
    refine ⟨?_, ?_, ?_⟩ <;> linarith [e0.1, e0.2]
  rw [abs_of_nonneg (by linarith : 0 ≤ x.val + r)] at e1
  have hS : |S| ≤ 101 := by
    rw [abs_le] at e1 ⊢
    norm_num at *
    constructor <;> linarith [e1.1, e1.2, r0.1, r0.2.1]
  unfold singleError at *
  rw [abs_le] at e1 e2
  norm_num at *
  linarith [e1.1, e2.1, r0.2.2]

omit h in
/-- The steering found from the turn and the distance. -/
theorem steering_numbers {σ s st Du Di g δ x : ℝ} (hσ : 0 ≤ σ) (hσ1 : σ ≤ 1 + 2 * singleError) (hs : 599 / 1000 ≤ s)
    (hδ : |δ| ≤ |g| + 105 * singleError) (hg : |g - st * Du| ≤ singleError * |st * Du| + 1 / 10 ^ 30) (hst : |st| ≤ σ)
    (hD : |Du - Di| ≤ singleError * (s + 2)) (hDi : 49 / 1000 * (s + 599 / 1000) ≤ Di)
    (hx : |x - δ / Di| ≤ singleError * |δ / Di| + singleError) : |x| ≤ σ + 2010 * singleError := by
  have hDi0 : 0 < Di := by linarith
  have d1 : |Du| ≤ Di + singleError * (s + 2) := by
    have := abs_le_add_sub Du Di
    rw [abs_of_pos hDi0] at this
    linarith
  have d2 : |st * Du| ≤ σ * Di + (1 + 2 * singleError) * (singleError * (s + 2)) := by
    rw [abs_mul]
    have i1 := mul_le_mul hst d1 (abs_nonneg _) hσ
    have i2 := mul_le_mul_of_nonneg_right hσ1 (by unfold singleError; linarith : 0 ≤ singleError * (s + 2))
    linarith
  have d3 : σ * Di ≤ (1 + 2 * singleError) * Di := mul_le_mul_of_nonneg_right hσ1 hDi0.le
  have d4 : |g| ≤ |st * Du| + (singleError * |st * Du| + 1 / 10 ^ 30) := by
    have := abs_le_add_sub g (st * Du)
    linarith
  have d5 : |δ| ≤ (σ + 2000 * singleError) * Di := by
    rw [add_mul]
    unfold singleError at *
    norm_num at *
    linarith
  have d6 : |δ / Di| ≤ σ + 2000 * singleError := by
    rw [abs_div, abs_of_pos hDi0, div_le_iff₀ hDi0]
    exact d5
  have := abs_le_add_sub x (δ / Di)
  unfold singleError at *
  linarith

/-- C137 for one pair of steps. -/
theorem inverse_within_limits {P : BicycleParamsFl} {K : KimParamsFl} (hdt : P.dt = Flt.round _ 0.1) (hKdt : K.dt = Flt.round _ 0.1)
    (ha0 : 0 ≤ P.maxAccel.val) (ha1 : P.maxAccel.val ≤ 11) (hs0 : 0 ≤ P.maxSteering.val)
    (hs1 : P.maxSteering.val ≤ K.maxSteering.val) (hs2 : K.maxSteering.val ≤ 1) (hKa : 0 ≤ K.maxAcc.val) (hK : K.maxAcc.val ≤ 100)
    {p q : Pt (Flt φ)} (hyaw : |p.yaw.val| ≤ 4) (hv : √(p.velX.val ^ 2 + p.velY.val ^ 2) ≤ 99)
    (hacc : P.maxAccel.val + 3e-5 * √(p.velX.val ^ 2 + p.velY.val ^ 2) ≤ K.maxAcc.val + 8e-4)
    {act : Act (AccelSteerFl φ)} (hq : q.yaw = (bicycleUpdateFl L P act p).yaw) (hqx : q.velX = (bicycleUpdateFl L P act p).velX)
    (hqy : q.velY = (bicycleUpdateFl L P act p).velY) :
    |(bicycleInversePairFl L K.dt p q).accel.val| ≤ (kimThreshold φ K.maxAcc).val ∧
    |(bicycleInversePairFl L K.dt p q).steering.val| ≤ (kimThreshold φ K.maxSteering).val := by
  obtain ⟨s, hs⟩ : ∃ s, s = speedFl L p.velX p.velY := ⟨_, rfl⟩
  obtain ⟨a, ha⟩ : ∃ a, a = (bicyclePhysicalFl P act.data).accel := ⟨_, rfl⟩
  obtain ⟨st, hst⟩ : ∃ st, st = (bicyclePhysicalFl P act.data).steering := ⟨_, rfl⟩
  obtain ⟨t, ht⟩ : ∃ t, t = pyFloat φ tenth := ⟨_, rfl⟩
  obtain ⟨Du, hDu⟩ : ∃ Du, Du = travelFl tenth s a := ⟨_, rfl⟩
  obtain ⟨m, hm⟩ : ∃ m, m = a.mul t := ⟨_, rfl⟩
  obtain ⟨nv, hnv⟩ : ∃ nv, nv = s.add m := ⟨_, rfl⟩
  obtain ⟨g, hg⟩ : ∃ g, g = st.mul Du := ⟨_, rfl⟩
  have hd1 : P.dt = tenth := hdt
  have hd2 : K.dt = tenth := hKdt
  have uyaw : q.yaw = (p.yaw.add g).wrapYaws := by
    rw [hq, hg, hDu, hst, hs, ha, ← hd1]
    rfl
  have uvx : q.velX = nv.mul (L.cos q.yaw) := by
    rw [hqx, hq, hnv, hm, ht, hs, ha, ← hd1]
    rfl
  have uvy : q.velY = nv.mul (L.sin q.yaw) := by
    rw [hqy, hq, hnv, hm, ht, hs, ha, ← hd1]
    rfl
  obtain ⟨ns, hns⟩ : ∃ ns, ns = speedFl L q.velX q.velY := ⟨_, rfl⟩
  obtain ⟨d, hd⟩ : ∃ d, d = ns.sub s := ⟨_, rfl⟩
  obtain ⟨a', ha'⟩ : ∃ a', a' = L.div d t := ⟨_, rfl⟩
  obtain ⟨Di, hDi⟩ : ∃ Di, Di = travelFl tenth s a' := ⟨_, rfl⟩
  -- bounds of the command
  obtain ⟨b1, b2⟩ := physical_bounds (φ := φ) ha0 hs0 act.data
  rw [← ha] at b1
  rw [← hst] at b2
  have c1 := pyFloat_close h P.maxAccel
  have c2 := pyFloat_close h P.maxSteering
  rw [abs_of_nonneg ha0] at c1
  rw [abs_of_nonneg hs0] at c2
  have b1' : |a.val| ≤ P.maxAccel.val + 12 * singleError := by
    have := (abs_le.1 c1).2
    unfold singleError at *
    norm_num at *
    linarith
  have hs3 : P.maxSteering.val ≤ 1 := hs1.trans hs2
  have b2' : |st.val| ≤ P.maxSteering.val + 2 * singleError := by
    have := (abs_le.1 c2).2
    unfold singleError at *
    norm_num at *
    linarith
  have b3 : |a.val| ≤ 111 / 10 := by
    unfold singleError at *
    norm_num at *
    linarith
  -- the speed
  have s0 : 0 ≤ s.val := by rw [hs]; exact speed_nonneg h _ _
  have sN := speed_norm h p.velX p.velY
  rw [← hs] at sN
  have k40 : (2 : ℝ) ^ (-40 : ℤ) ≤ 1 / 10 ^ 12 := by norm_num
  obtain ⟨N, hN⟩ : ∃ N, N = √(p.velX.val ^ 2 + p.velY.val ^ 2) := ⟨_, rfl⟩
  rw [← hN] at hv hacc sN
  have N0 : 0 ≤ N := by rw [hN]; exact Real.sqrt_nonneg _
  have sle : s.val ≤ N + 4 * singleError * N + 1 / 10 ^ 12 := by
    have := (abs_le.1 sN).2
    generalize (2 : ℝ) ^ (-40 : ℤ) = k at *
    unfold singleError at *
    norm_num at *
    linarith
  have s1 : s.val ≤ 100 := by
    unfold singleError at *
    norm_num at *
    linarith
  -- the numbers
  obtain ⟨t1, t2⟩ := dt_close h
  rw [← ht] at t1
  have tpos : 0 < t.val := by
    rw [abs_le] at t1
    norm_num at t1
    linarith [t1.1]
  have k100 : (2 : ℝ) ^ (-100 : ℤ) ≤ 1 / 10 ^ 30 := by norm_num
  have k39 : (2 : ℝ) ^ (-39 : ℤ) ≤ 2 / 10 ^ 12 := by norm_num
  have e1 := h.mul a t
  rw [← hm] at e1
  have e1' : |m.val - a.val * t.val| ≤ singleError * |a.val * t.val| + 1 / 10 ^ 30 := by
    generalize (2 : ℝ) ^ (-100 : ℤ) = k at *
    linarith
  have e2 := h.add s m
  rw [← hnv] at e2
  have e3 := (speed_of_components h nv q.yaw).2.2
  rw [← uvx, ← uvy, ← hns] at e3
  have e3' : |ns.val - (|nv.val|)| ≤ 9 * singleError * |nv.val| + 2 / 10 ^ 12 := by
    generalize (2 : ℝ) ^ (-39 : ℤ) = k at *
    linarith
  have e4 := h.sub ns s
  rw [← hd] at e4
  have e5 := h.div d t tpos.ne'
  rw [← ha'] at e5
  obtain ⟨r1, r2, r3, r4, r5⟩ := accel_numbers t1 s0 s1 b3 e1' e2 e3' e4 e5
  have inv_accel : (bicycleInversePairFl L K.dt p q).accel = a' := by
    rw [ha', hd, hns, hs, ht, hd2]
    rfl
  constructor
  · rw [inv_accel]
    have := threshold_ge h hKa hK
    refine le_trans r5 (le_trans ?_ this)
    unfold singleError at *
    norm_num at *
    linarith
  · have hKs : 0 ≤ K.maxSteering.val := hs0.trans hs1
    have hthr := threshold_ge h hKs (by linarith)
    have hl := speedLimit_close h
    obtain ⟨lim, hlim⟩ : ∃ lim, lim = speedLimitFl φ := ⟨_, rfl⟩
    rw [← hlim] at hl
    have hl' : 5999 / 10000 ≤ lim.val := by
      rw [abs_le] at hl
      norm_num at hl
      linarith [hl.1]
    have n0 : 0 ≤ ns.val := by rw [hns]; exact speed_nonneg h _ _
    obtain ⟨rn, hrn⟩ : ∃ rn, rn = if ns.abs ≤ lim then q.yaw.wrapYaws else L.arctan2 q.velY q.velX := ⟨_, rfl⟩
    have inv_steer : (bicycleInversePairFl L K.dt p q).steering =
        if ns.abs < lim then ⟨0, Format.Rep.zero⟩ else if s.abs < lim then ⟨0, Format.Rep.zero⟩ else
          L.div (rn.sub p.yaw.wrapYaws).wrapYaws Di := by
      rw [hrn, hDi, ha', hd, hns, hs, ht, hlim, hd2]
      rfl
    have zero_le : |(0 : ℝ)| ≤ (kimThreshold φ K.maxSteering).val := by
      rw [abs_zero]
      linarith
    rw [inv_steer]
    split_ifs with g1 g2
    · exact zero_le
    · exact zero_le
    · have hnl : 599 / 1000 ≤ ns.val := by
        have : lim.val ≤ |ns.val| := not_lt.1 g1
        rw [abs_of_nonneg n0] at this
        linarith
      have hsl : 599 / 1000 ≤ s.val := by
        have : lim.val ≤ |s.val| := not_lt.1 g2
        rw [abs_of_nonneg s0] at this
        linarith
      have tu := travel_close h (c := a) s0
      have ti := travel_close h (c := a') s0
      rw [← hDu, ← ht] at tu
      rw [← hDi, ← ht] at ti
      obtain ⟨hnv1, hDD, hDi1⟩ := travel_numbers t1 t2 s1 b3 e1' e2 e3' e4 e5 tu ti hsl hnl
      have hDi0 : 0 < Di.val := by linarith
      have eg := h.mul st Du
      rw [← hg] at eg
      have eg' : |g.val - st.val * Du.val| ≤ singleError * |st.val * Du.val| + 1 / 10 ^ 30 := by
        generalize (2 : ℝ) ^ (-100 : ℤ) = k at *
        linarith
      -- an upper bound of the distance
      have hDib : |Di.val| ≤ 102 / 10 := by
        have i1 := abs_le_add_sub Di.val (s.val * t.val + a'.val / 2 * (pySquare φ tenth).val)
        have i2 : |s.val * t.val + a'.val / 2 * (pySquare φ tenth).val| ≤ 1011 / 100 := by
          have ta : 0 ≤ t.val ∧ t.val ≤ 10001 / 100000 := by
            rw [abs_le] at t1
            norm_num at t1
            constructor <;> linarith [t1.1, t1.2]
          have qa : 0 ≤ (pySquare φ tenth).val ∧ (pySquare φ tenth).val ≤ 10001 / 1000000 := by
            rw [abs_le] at t2
            norm_num at t2
            constructor <;> linarith [t2.1, t2.2]
          have a12 : |a'.val| ≤ 12 := by
            unfold singleError at r5 b1'
            linarith
          refine (abs_add_le _ _).trans ?_
          rw [abs_mul, abs_mul, abs_div, abs_two, abs_of_nonneg s0, abs_of_nonneg ta.1, abs_of_nonneg qa.1]
          have j1 := mul_le_mul s1 ta.2 ta.1 (by norm_num)
          have j2 := mul_le_mul (by linarith : |a'.val| / 2 ≤ 6) qa.2 qa.1 (by norm_num)
          linarith
        have a12 : |a'.val| ≤ 12 := by
          unfold singleError at r5 b1'
          linarith
        unfold singleError at ti
        norm_num at ti
        linarith
      obtain ⟨σ, hσ⟩ : ∃ σ, σ = P.maxSteering.val + 2 * singleError := ⟨_, rfl⟩
      rw [← hσ] at b2'
      have hσ0 : 0 ≤ σ := by rw [hσ]; unfold singleError; linarith
      have hσ1 : σ ≤ 1 + 2 * singleError := by rw [hσ]; linarith
      have hgb : |g.val| ≤ 11 := by
        have i1 : |Du.val| ≤ 103 / 10 := by
          have := abs_le_add_sub Du.val Di.val
          unfold singleError at hDD
          linarith
        have i2 : |st.val * Du.val| ≤ 104 / 10 := by
          rw [abs_mul]
          have := mul_le_mul b2' i1 (abs_nonneg _) hσ0
          unfold singleError at hσ1
          linarith
        have := abs_le_add_sub g.val (st.val * Du.val)
        have k30 : (1 : ℝ) / 10 ^ 30 ≤ 1 / 10 := by norm_num
        unfold singleError at eg'
        linarith
      have hqr : |q.yaw.val| ≤ (Flt.pi φ).val := by
        rw [uyaw]
        exact abs_le.2 (C132_range _)
      obtain ⟨rn1, rn2⟩ := new_heading h hnv1 uvx uvy hqr (ns.abs ≤ lim)
      rw [← hrn] at rn1 rn2
      rw [uyaw] at rn2
      have hturn := turn_close h hyaw hgb rn1 rn2
      have hdiv := h.div (rn.sub p.yaw.wrapYaws).wrapYaws Di hDi0.ne'
      refine (steering_numbers hσ0 hσ1 hsl hturn eg' b2' hDD hDi1 hdiv).trans ?_
      rw [hσ]
      unfold singleError
      norm_num
      have : P.maxSteering.val ≤ K.maxSteering.val := hs1
      linarith

/-- The speed written by one step. -/
theorem speed_step {P : BicycleParamsFl} (hdt : P.dt = Flt.round _ 0.1) (ha0 : 0 ≤ P.maxAccel.val) (ha1 : P.maxAccel.val ≤ 11)
    (hs0 : 0 ≤ P.maxSteering.val) {p : Pt (Flt φ)} (hv : norm2 (p.velX.val, p.velY.val) ≤ 99) (act : Act (AccelSteerFl φ)) :
    let u := bicycleUpdateFl L P act p
    |norm2 (u.velX.val, u.velY.val) - norm2 (p.velX.val, p.velY.val)| ≤ P.maxAccel.val / 10 + 1e-3 := by
  intro u
  obtain ⟨s, hs⟩ : ∃ s, s = speedFl L p.velX p.velY := ⟨_, rfl⟩
  obtain ⟨a, ha⟩ : ∃ a, a = (bicyclePhysicalFl P act.data).accel := ⟨_, rfl⟩
  obtain ⟨t, ht⟩ : ∃ t, t = pyFloat φ tenth := ⟨_, rfl⟩
  obtain ⟨m, hm⟩ : ∃ m, m = a.mul t := ⟨_, rfl⟩
  obtain ⟨nv, hnv⟩ : ∃ nv, nv = s.add m := ⟨_, rfl⟩
  have hd1 : P.dt = tenth := hdt
  have uvx : u.velX = nv.mul (L.cos u.yaw) := by
    rw [hnv, hm, ht, hs, ha, ← hd1]
    rfl
  have uvy : u.velY = nv.mul (L.sin u.yaw) := by
    rw [hnv, hm, ht, hs, ha, ← hd1]
    rfl
  obtain ⟨ns, hns⟩ : ∃ ns, ns = speedFl L u.velX u.velY := ⟨_, rfl⟩
  obtain ⟨b1, -⟩ := physical_bounds (φ := φ) ha0 hs0 act.data
  rw [← ha] at b1
  have c1 := pyFloat_close h P.maxAccel
  rw [abs_of_nonneg ha0] at c1
  have b1' : |a.val| ≤ P.maxAccel.val + 12 * singleError := by
    have := (abs_le.1 c1).2
    unfold singleError at *
    norm_num at *
    linarith
  have b3 : |a.val| ≤ 111 / 10 := by
    unfold singleError at *
    norm_num at *
    linarith
  have s0 : 0 ≤ s.val := by rw [hs]; exact speed_nonneg h _ _
  have sN := speed_norm h p.velX p.velY
  have sN' := speed_norm h u.velX u.velY
  rw [← hs] at sN
  rw [← hns] at sN'
  have k40 : (2 : ℝ) ^ (-40 : ℤ) ≤ 1 / 10 ^ 12 := by norm_num
  unfold norm2 at hv ⊢
  simp only at hv ⊢
  obtain ⟨N, hN⟩ : ∃ N, N = √(p.velX.val ^ 2 + p.velY.val ^ 2) := ⟨_, rfl⟩
  obtain ⟨N', hN'⟩ : ∃ N', N' = √(u.velX.val ^ 2 + u.velY.val ^ 2) := ⟨_, rfl⟩
  rw [← hN] at hv sN ⊢
  rw [← hN'] at sN' ⊢
  have N0 : 0 ≤ N := by rw [hN]; exact Real.sqrt_nonneg _
  have N0' : 0 ≤ N' := by rw [hN']; exact Real.sqrt_nonneg _
  generalize (2 : ℝ) ^ (-40 : ℤ) = k at *
  have s1 : s.val ≤ 100 := by
    have := (abs_le.1 sN).2
    unfold singleError at *
    norm_num at *
    linarith
  obtain ⟨t1, -⟩ := dt_close h
  rw [← ht] at t1
  have tpos : 0 < t.val := by
    rw [abs_le] at t1
    norm_num at t1
    linarith [t1.1]
  have k100 : (2 : ℝ) ^ (-100 : ℤ) ≤ 1 / 10 ^ 30 := by norm_num
  have k39 : (2 : ℝ) ^ (-39 : ℤ) ≤ 2 / 10 ^ 12 := by norm_num
  have e1 := h.mul a t
  rw [← hm] at e1
  have e1' : |m.val - a.val * t.val| ≤ singleError * |a.val * t.val| + 1 / 10 ^ 30 := by
    generalize (2 : ℝ) ^ (-100 : ℤ) = k at *
    linarith
  have e2 := h.add s m
  rw [← hnv] at e2
  have e3 := (speed_of_components h nv u.yaw).2.2
  rw [← uvx, ← uvy, ← hns] at e3
  have e3' : |ns.val - (|nv.val|)| ≤ 9 * singleError * |nv.val| + 2 / 10 ^ 12 := by
    generalize (2 : ℝ) ^ (-39 : ℤ) = k at *
    linarith
  have e4 := h.sub ns s
  have e5 := h.div (ns.sub s) t tpos.ne'
  obtain ⟨-, r2, r3, -, -⟩ := accel_numbers t1 s0 s1 b3 e1' e2 e3' e4 e5
  have at1 : |a.val| * t.val ≤ P.maxAccel.val / 10 + 1 / 10 ^ 5 := by
    have ta : t.val ≤ 1 / 10 + 3 / 10 ^ 8 := by
      have := (abs_le.1 t1).2
      linarith
    have := mul_le_mul b1' ta tpos.le (by unfold singleError; linarith)
    unfold singleError at this
    norm_num at this ⊢
    linarith
  have N'b : N' ≤ 102 := by
    have i1 := (abs_le.1 sN').1
    have i2 := (abs_le.1 r3).2
    unfold singleError at *
    norm_num at *
    linarith
  have : |N' - N| ≤ |ns.val - N'| + |ns.val - s.val| + |s.val - N| := by
    rw [show N' - N = -(ns.val - N') + (ns.val - s.val) + (s.val - N) by ring]
    refine (abs_add_three _ _ _).trans ?_
    rw [abs_neg]
  unfold singleError at *
  norm_num at *
  linarith

/-- A division by the distance never divides by zero where its result is used. -/
theorem distance_pos {p q : Pt (Flt φ)} (hp : norm2 (p.velX.val, p.velY.val) ≤ 99) (hq : norm2 (q.velX.val, q.velY.val) ≤ 99)
    (hps : ¬ (speedFl L p.velX p.velY).abs < speedLimitFl φ) (hqs : ¬ (speedFl L q.velX q.velY).abs < speedLimitFl φ) :
    0 < (travelFl tenth (speedFl L p.velX p.velY) (bicycleInversePairFl L tenth p q).accel).val := by
  obtain ⟨s, hs⟩ : ∃ s, s = speedFl L p.velX p.velY := ⟨_, rfl⟩
  obtain ⟨ns, hns⟩ : ∃ ns, ns = speedFl L q.velX q.velY := ⟨_, rfl⟩
  obtain ⟨t, ht⟩ : ∃ t, t = pyFloat φ tenth := ⟨_, rfl⟩
  obtain ⟨d, hd⟩ : ∃ d, d = ns.sub s := ⟨_, rfl⟩
  obtain ⟨a', ha'⟩ : ∃ a', a' = L.div d t := ⟨_, rfl⟩
  have inv_accel : (bicycleInversePairFl L tenth p q).accel = a' := by
    rw [ha', hd, hns, hs, ht]
    rfl
  rw [inv_accel, ← hs]
  rw [← hs] at hps
  rw [← hns] at hqs
  have s0 : 0 ≤ s.val := by rw [hs]; exact speed_nonneg h _ _
  have n0 : 0 ≤ ns.val := by rw [hns]; exact speed_nonneg h _ _
  have hl := speedLimit_close h
  have hl' : 5999 / 10000 ≤ (speedLimitFl φ).val := by
    rw [abs_le] at hl
    norm_num at hl
    linarith [hl.1]
  have hnl : 599 / 1000 ≤ ns.val := by
    have : (speedLimitFl φ).val ≤ |ns.val| := not_lt.1 hqs
    rw [abs_of_nonneg n0] at this
    linarith
  have hsl : 599 / 1000 ≤ s.val := by
    have : (speedLimitFl φ).val ≤ |s.val| := not_lt.1 hps
    rw [abs_of_nonneg s0] at this
    linarith
  have k40 : (2 : ℝ) ^ (-40 : ℤ) ≤ 1 / 10 ^ 12 := by norm_num
  have bound : ∀ vx vy : Flt φ, norm2 (vx.val, vy.val) ≤ 99 → (speedFl L vx vy).val ≤ 100 := by
    intro vx vy hv
    have sN := speed_norm h vx vy
    unfold norm2 at hv
    simp only at hv
    have N0 := Real.sqrt_nonneg (vx.val ^ 2 + vy.val ^ 2)
    generalize √(vx.val ^ 2 + vy.val ^ 2) = N at *
    generalize (2 : ℝ) ^ (-40 : ℤ) = k at *
    have := (abs_le.1 sN).2
    unfold singleError at *
    norm_num at *
    linarith
  have s1 := bound _ _ hp
  have n1 := bound _ _ hq
  rw [← hs] at s1
  rw [← hns] at n1
  obtain ⟨t1, t2⟩ := dt_close h
  have tc := travel_close h (c := a') s0
  rw [← ht] at t1 tc
  have ta : 0 < t.val ∧ t.val ≤ 1000001 / 10000000 ∧ 999999 / 10000000 ≤ t.val := by
    rw [abs_le] at t1
    norm_num at t1
    refine ⟨?_, ?_, ?_⟩ <;> linarith [t1.1, t1.2]
  have e4 := h.sub ns s
  rw [← hd] at e4
  have e5 := h.div d t ta.1.ne'
  rw [← ha'] at e5
  have df : |ns.val - s.val| ≤ 100 := by
    rw [abs_le]
    constructor <;> linarith
  have hdb : |d.val| ≤ 101 := by
    have := abs_le_add_sub d.val (ns.val - s.val)
    unfold singleError at *
    linarith
  have hdt : |d.val / t.val| ≤ 1011 := by
    rw [abs_div, abs_of_pos ta.1, div_le_iff₀ ta.1]
    linarith [ta.2.2]
  have hab : |a'.val| ≤ 1012 := by
    have := abs_le_add_sub a'.val (d.val / t.val)
    unfold singleError at *
    linarith
  -- the acceleration entry is at least minus the speed over the time step, up to rounding
  have h1 : -(s.val - 599 / 1000 + 1 / 1000) ≤ a'.val * t.val := by
    have i1 := (abs_le.1 e5).1
    have i2 : d.val / t.val * t.val = d.val := div_mul_cancel₀ _ ta.1.ne'
    have i3 : (d.val / t.val - 1013 * singleError) * t.val ≤ a'.val * t.val := by
      apply mul_le_mul_of_nonneg_right _ ta.1.le
      unfold singleError at *
      linarith
    have i4 := (abs_le.1 e4).1
    rw [sub_mul, i2] at i3
    have i5 : 1013 * singleError * t.val ≤ 1013 * singleError * (1000001 / 10000000) :=
      mul_le_mul_of_nonneg_left ta.2.1 (by unfold singleError; norm_num)
    unfold singleError at *
    linarith
  have tq : |(pySquare φ tenth).val - t.val * t.val| ≤ 91 / 10 ^ 10 := by
    have e : t.val * t.val - 1 / 100 = (t.val - 1 / 10) * (t.val + 1 / 10) := by ring
    have : |t.val * t.val - 1 / 100| ≤ 3 / 10 ^ 8 * (2000001 / 10000000) := by
      rw [e, abs_mul, abs_of_pos (by linarith : 0 < t.val + 1 / 10)]
      exact mul_le_mul t1 (by linarith) (by linarith) (by norm_num)
    rw [abs_le] at this t2 ⊢
    norm_num at *
    constructor <;> linarith [this.1, this.2, t2.1, t2.2]
  have h2 : |a'.val / 2 * ((pySquare φ tenth).val - t.val * t.val)| ≤ 506 * (91 / 10 ^ 10) := by
    rw [abs_mul, abs_div, abs_two]
    exact mul_le_mul (by linarith) tq (abs_nonneg _) (by norm_num)
  have h3 : s.val * t.val + a'.val / 2 * (pySquare φ tenth).val =
      t.val / 2 * (2 * s.val + a'.val * t.val) + a'.val / 2 * ((pySquare φ tenth).val - t.val * t.val) := by ring
  have h4 : 999999 / 20000000 * (11 / 10) ≤ t.val / 2 * (2 * s.val + a'.val * t.val) :=
    mul_le_mul (by linarith) (by linarith) (by norm_num) (by linarith)
  have h5 := (abs_le.1 tc).1
  have h6 := (abs_le.1 h2).1
  rw [h3] at h5
  unfold singleError at *
  norm_num at *
  linarith

end

end Waymax
