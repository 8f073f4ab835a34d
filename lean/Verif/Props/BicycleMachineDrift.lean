import Verif.Props.BicycleMachineAccurate
import Verif.Props.BicycleMachine
/-
C138: how far the bicycle model in machine arithmetic drifts from the bicycle model over the real numbers, and how far two machines drift
apart.
-/

namespace Waymax

open Real

/-- The real numbers of the pose and velocity of an object. -/
noncomputable def Pt.real {φ : Format} (p : Pt (Flt φ)) : Pt ℝ :=
  { x := p.x.val, y := p.y.val, z := p.z.val, velX := p.velX.val, velY := p.velY.val, yaw := p.yaw.val, valid := p.valid,
    timestampMicros := p.timestampMicros, length := p.length.val, width := p.width.val, height := p.height.val }

/-- The real numbers of an action with its validity. -/
noncomputable def realAct {φ : Format} (a : Act (AccelSteerFl φ)) : Act AccelSteer := { data := a.data.real, valid := a.valid }

theorem AnglesWithin.sin_le {e a b : ℝ} (h : AnglesWithin e a b) : |sin a - sin b| ≤ e := by
  obtain ⟨k, hk⟩ := h
  have : sin b = sin (b + k * (2 * π)) := (sin_add_int_mul_two_pi b k).symm
  rw [this]
  refine le_trans ?_ hk
  have := abs_sin_sub_sin_le a (b + k * (2 * π))
  rwa [← sub_sub] at this

theorem AnglesWithin.mono {e e' a b : ℝ} (h : AnglesWithin e a b) (he : e ≤ e') : AnglesWithin e' a b := by
  obtain ⟨k, hk⟩ := h
  exact ⟨k, hk.trans he⟩

theorem AnglesWithin.trans {e e' a b c : ℝ} (h : AnglesWithin e a b) (h' : AnglesWithin e' b c) : AnglesWithin (e + e') a c := by
  obtain ⟨k, hk⟩ := h
  obtain ⟨k', hk'⟩ := h'
  refine ⟨k + k', ?_⟩
  rw [show a - c - ((k + k' : ℤ) : ℝ) * (2 * π) = (a - b - k * (2 * π)) + (b - c - k' * (2 * π)) by push_cast; ring]
  exact (abs_add_le _ _).trans (add_le_add hk hk')

theorem AnglesWithin.symm {e a b : ℝ} (h : AnglesWithin e a b) : AnglesWithin e b a := by
  obtain ⟨k, hk⟩ := h
  refine ⟨-k, ?_⟩
  rw [show b - a - ((-k : ℤ) : ℝ) * (2 * π) = -(a - b - k * (2 * π)) by push_cast; ring, abs_neg]
  exact hk

theorem AnglesWithin.wrap {e a b : ℝ} (h : AnglesWithin e a b) : AnglesWithin e a (wrapYaws b) := by
  obtain ⟨k, hk⟩ := h
  refine ⟨k + ⌊(b + π) / (2 * π)⌋, ?_⟩
  rw [wrapYaws_eq, show a - (b - (⌊(b + π) / (2 * π)⌋ : ℝ) * (2 * π)) - ((k + ⌊(b + π) / (2 * π)⌋ : ℤ) : ℝ) * (2 * π) =
    a - b - k * (2 * π) by push_cast; ring]
  exact hk

/-- Lengths of vectors differ at most by the differences of the components. -/
theorem norm2_close {a b c d e : ℝ} (h1 : |a - c| ≤ e) (h2 : |b - d| ≤ e) : |norm2 (a, b) - norm2 (c, d)| ≤ 3 / 2 * e := by
  have hz : ∀ x y : ℝ, norm2 (x, y) = ‖(⟨x, y⟩ : ℂ)‖ := fun x y => by
    rw [Complex.norm_eq_sqrt_sq_add_sq]; rfl
  rw [hz, hz]
  refine (abs_norm_sub_norm_le _ _).trans ?_
  rw [Complex.norm_eq_sqrt_sq_add_sq]
  have he : 0 ≤ e := (abs_nonneg _).trans h1
  apply Real.sqrt_le_iff.2 ⟨by positivity, ?_⟩
  have j1 : (a - c) ^ 2 ≤ e ^ 2 := by rw [← sq_abs]; exact pow_le_pow_left₀ (abs_nonneg _) h1 2
  have j2 : (b - d) ^ 2 ≤ e ^ 2 := by rw [← sq_abs]; exact pow_le_pow_left₀ (abs_nonneg _) h2 2
  show (a - c) ^ 2 + (b - d) ^ 2 ≤ _
  nlinarith [sq_nonneg e]

section
variable {φ : Format} {L : Libm φ}

/-- The heading and the velocity after one step, compared with the step over the real numbers from the same state. -/
theorem step_close (h : L.Accurate singleError) {R : BicycleParams} (hdt : R.dt = 0.1) (ha0 : 0 ≤ R.maxAccel) (ha1 : R.maxAccel ≤ 11)
    (hs0 : 0 ≤ R.maxSteering) (hs1 : R.maxSteering ≤ 1) (act : Act (AccelSteerFl φ)) {p : Pt (Flt φ)} (hyaw : |p.yaw.val| ≤ 4)
    (hv : norm2 (p.velX.val, p.velY.val) ≤ 99) :
    let u := bicycleUpdateFl L R.machine act p
    let A := (bicyclePhysical R act.data.real).accel
    let S := (bicyclePhysical R act.data.real).steering
    let N := norm2 (p.velX.val, p.velY.val)
    |u.x.val - (p.x.val + p.velX.val * 0.1 + 0.5 * A * cos p.yaw.val * 0.1 ^ 2)| ≤ singleError * (3 * |p.x.val| + |p.velX.val| + 1) ∧
    |u.y.val - (p.y.val + p.velY.val * 0.1 + 0.5 * A * sin p.yaw.val * 0.1 ^ 2)| ≤ singleError * (3 * |p.y.val| + |p.velY.val| + 1) ∧
    AnglesWithin (singleError * (3 / 2 * N + 36)) u.yaw.val (p.yaw.val + S * (N * 0.1 + 0.5 * A * 0.1 ^ 2)) ∧
    |u.velX.val - (N + A * 0.1) * cos u.yaw.val| ≤ singleError * (8 * N + 12) ∧
    |u.velY.val - (N + A * 0.1) * sin u.yaw.val| ≤ singleError * (8 * N + 12) ∧
    |norm2 (u.velX.val, u.velY.val) - (|N + A * 0.1|)| ≤ singleError * (9 * N + 13) := by
  intro u A S N
  have hd : R.machine.dt = tenth := by
    show Flt.round _ R.dt = Flt.round _ 0.1
    rw [hdt]
  obtain ⟨c1, c2, c3, c4⟩ := physical_close h ha0 ha1 hs0 hs1 act.data
  have c4' := c4.trans hs1
  have hN : 0 ≤ N := norm2_nonneg _
  have sN := speed_norm h p.velX p.velY
  have k40 : (2 : ℝ) ^ (-40 : ℤ) ≤ 1 / 10 ^ 12 := by norm_num
  have sN' : |(speedFl L p.velX p.velY).val - N| ≤ 7 / 2 * singleError * N + 1 / 10 ^ 12 := by
    have : N = √(p.velX.val ^ 2 + p.velY.val ^ 2) := rfl
    rw [this]
    linarith
  obtain ⟨T, hT⟩ : ∃ T, T = bicyclePhysicalFl R.machine act.data := ⟨_, rfl⟩
  have ux : u.x = (p.x.add (p.velX.mul (pyFloat φ tenth))).add ((((Flt.round φ 0.5).mul T.accel).mul (L.cos p.yaw)).mul
      (pySquare φ tenth)) := by rw [hT, ← hd]; rfl
  have uy : u.y = (p.y.add (p.velY.mul (pyFloat φ tenth))).add ((((Flt.round φ 0.5).mul T.accel).mul (L.sin p.yaw)).mul
      (pySquare φ tenth)) := by rw [hT, ← hd]; rfl
  have uyaw : u.yaw = (p.yaw.add (T.steering.mul (travelFl tenth (speedFl L p.velX p.velY) T.accel))).wrapYaws := by
    rw [hT, ← hd]; rfl
  obtain ⟨w, hw⟩ : ∃ w, w = (speedFl L p.velX p.velY).add (T.accel.mul (pyFloat φ tenth)) := ⟨_, rfl⟩
  have uvx : u.velX = w.mul (L.cos u.yaw) := by rw [hw, hT, ← hd]; rfl
  have uvy : u.velY = w.mul (L.sin u.yaw) := by rw [hw, hT, ← hd]; rfl
  rw [← hT] at c1 c2
  have nsc := new_speed_close h c1 c3 hN sN'
  rw [← hw] at nsc
  obtain ⟨nt1, nt2⟩ := new_turn_close h c1 c3 hN sN' c2 c4'
  have nh := new_heading_close h hyaw hN hv nt1 nt2
  rw [← uyaw] at nh
  obtain ⟨v1, v2, -⟩ := speed_of_components h w u.yaw
  rw [← uvx] at v1
  rw [← uvy] at v2
  have k100 : (2 : ℝ) ^ (-100 : ℤ) ≤ 1 / 10 ^ 30 := by norm_num
  have hW : |N + A * 0.1| ≤ N + 11 / 10 := by
    refine (abs_add_le _ _).trans ?_
    rw [abs_of_nonneg hN, abs_mul, abs_of_pos (by norm_num : (0 : ℝ) < 0.1)]
    norm_num
    have : |A| ≤ 11 := c3
    linarith
  have hw' := bound_of_close nsc hW
  have hv1 : |u.velX.val - w.val * cos u.yaw.val| ≤ singleError * (23 / 10 * N + 3) := by
    generalize (2 : ℝ) ^ (-100 : ℤ) = z at *
    refine v1.trans ?_
    clear v1 v2 nh nt1 nt2 nsc hW sN sN' c1 c2 c3 c4 c4' k40
    generalize |w.val| = W at *
    generalize N = N' at *
    unfold singleError at *
    norm_num at *
    linarith
  have hv2 : |u.velY.val - w.val * sin u.yaw.val| ≤ singleError * (23 / 10 * N + 3) := by
    generalize (2 : ℝ) ^ (-100 : ℤ) = z at *
    refine v2.trans ?_
    clear v1 v2 hv1 nh nt1 nt2 nsc hW sN sN' c1 c2 c3 c4 c4' k40
    generalize |w.val| = W at *
    generalize N = N' at *
    unfold singleError at *
    norm_num at *
    linarith
  have comp : ∀ {q c : ℝ}, |q - w.val * c| ≤ singleError * (23 / 10 * N + 3) → |c| ≤ 1 →
      |q - (N + A * 0.1) * c| ≤ singleError * (8 * N + 12) := by
    intro q c hq hc
    have j : |q - (N + A * 0.1) * c| ≤ |q - w.val * c| + |w.val - (N + A * 0.1)| := by
      rw [show q - (N + A * 0.1) * c = (q - w.val * c) + (w.val - (N + A * 0.1)) * c by ring]
      refine (abs_add_le _ _).trans (add_le_add le_rfl ?_)
      rw [abs_mul]
      exact mul_le_of_le_one_right (abs_nonneg _) hc
    have hp := h.pos
    nlinarith
  refine ⟨?_, ?_, nh, comp hv1 (abs_cos_le_one _), comp hv2 (abs_sin_le_one _), ?_⟩
  · rw [ux]
    exact coordinate_close h c1 c3 (h.cos _) (abs_cos_le_one _)
  · rw [uy]
    exact coordinate_close h c1 c3 (h.sin _) (abs_sin_le_one _)
  · have j1 := norm2_close hv1 hv2
    rw [norm2_heading] at j1
    have j2 : |(|w.val|) - (|N + A * 0.1|)| ≤ |w.val - (N + A * 0.1)| := abs_abs_sub_abs_le_abs_sub _ _
    have j3 : |norm2 (u.velX.val, u.velY.val) - (|N + A * 0.1|)| ≤
        |norm2 (u.velX.val, u.velY.val) - (|w.val|)| + |(|w.val|) - (|N + A * 0.1|)| := by
      rw [show norm2 (u.velX.val, u.velY.val) - (|N + A * 0.1|) =
        (norm2 (u.velX.val, u.velY.val) - (|w.val|)) + ((|w.val|) - (|N + A * 0.1|)) by ring]
      exact abs_add_le _ _
    have hp := h.pos
    nlinarith

theorem coordinate_drift {ε A ux px pv qx qv c d X V ex ev ey : ℝ} (hε : 0 < ε) (cA : |A| ≤ 11)
    (h1 : |ux - (px + pv * 0.1 + 0.5 * A * c * 0.1 ^ 2)| ≤ ε * (3 * |px| + |pv| + 1)) (h2 : |px| ≤ X) (h3 : |pv| ≤ V)
    (h4 : |px - qx| ≤ ex) (h5 : |pv - qv| ≤ ev) (h6 : |c - d| ≤ ey) :
    |ux - (qx + qv * 0.1 + 0.5 * A * d * 0.1 ^ 2)| ≤ ex + ev / 10 + 11 / 200 * ey + ε * (3 * X + V + 1) := by
  have j1 : |A * (c - d)| ≤ 11 * ey := by
    rw [abs_mul]
    exact mul_le_mul cA h6 (abs_nonneg _) (by norm_num)
  have j2 : ε * (3 * |px| + |pv| + 1) ≤ ε * (3 * X + V + 1) := mul_le_mul_of_nonneg_left (by linarith) hε.le
  have h1' := h1.trans j2
  rw [show ux - (qx + qv * 0.1 + 0.5 * A * d * 0.1 ^ 2) = ((ux - (px + pv * 0.1 + 0.5 * A * c * 0.1 ^ 2)) + (px - qx)) +
    ((pv - qv) / 10 + A * (c - d) / 200) by ring]
  have k1 := abs_add_le ((ux - (px + pv * 0.1 + 0.5 * A * c * 0.1 ^ 2)) + (px - qx)) ((pv - qv) / 10 + A * (c - d) / 200)
  have k2 := abs_add_le (ux - (px + pv * 0.1 + 0.5 * A * c * 0.1 ^ 2)) (px - qx)
  have k3 := abs_add_le ((pv - qv) / 10) (A * (c - d) / 200)
  rw [abs_div, abs_div, abs_of_pos (by norm_num : (0 : ℝ) < 10), abs_of_pos (by norm_num : (0 : ℝ) < 200)] at k3
  linarith

theorem velocity_drift {ε A N M V uv c d es e : ℝ} (hε : 0 < ε) (hv : N ≤ V) (hU : |N + A * 0.1| ≤ V + 11 / 10) (hes : |N - M| ≤ es)
    (h1 : |uv - (N + A * 0.1) * c| ≤ ε * (8 * N + 12)) (h2 : |d| ≤ 1) (h3 : |c - d| ≤ e) :
    |uv - (M + A * 0.1) * d| ≤ ε * (8 * V + 12) + es + (V + 11 / 10) * e := by
  have j0 : ε * (8 * N + 12) ≤ ε * (8 * V + 12) := mul_le_mul_of_nonneg_left (by linarith) hε.le
  have j1 : |(N + A * 0.1) * (c - d)| ≤ (V + 11 / 10) * e := by
    rw [abs_mul]
    exact mul_le_mul hU h3 (abs_nonneg _) ((abs_nonneg _).trans hU)
  have j2 : |(N - M) * d| ≤ es := by
    rw [abs_mul]
    exact (mul_le_of_le_one_right (abs_nonneg _) h2).trans hes
  rw [show uv - (M + A * 0.1) * d = (uv - (N + A * 0.1) * c) + (N + A * 0.1) * (c - d) + (N - M) * d by ring]
  have := abs_add_three (uv - (N + A * 0.1) * c) ((N + A * 0.1) * (c - d)) ((N - M) * d)
  linarith

set_option maxHeartbeats 1000000 in
/-- One step: errors of the state grow by the errors of the step. -/
theorem drift_step (h : L.Accurate singleError) {R : BicycleParams} (hdt : R.dt = 0.1) (ha0 : 0 ≤ R.maxAccel) (ha1 : R.maxAccel ≤ 11)
    (hs0 : 0 ≤ R.maxSteering) (hs1 : R.maxSteering ≤ 1) (act : Act (AccelSteerFl φ)) {p : Pt (Flt φ)} {q : Pt ℝ} {V X ex ey ev es : ℝ}
    (hyaw : |p.yaw.val| ≤ 4) (hv : norm2 (p.velX.val, p.velY.val) ≤ V) (hV : V ≤ 99) (hX : |p.x.val| ≤ X) (hY : |p.y.val| ≤ X)
    (hex : |p.x.val - q.x| ≤ ex) (hex' : |p.y.val - q.y| ≤ ex) (hey : AnglesWithin ey p.yaw.val q.yaw)
    (hev : |p.velX.val - q.velX| ≤ ev) (hev' : |p.velY.val - q.velY| ≤ ev)
    (hes : |norm2 (p.velX.val, p.velY.val) - norm2 (q.velX, q.velY)| ≤ es) :
    let u := bicycleUpdateFl L R.machine act p
    let r := bicycleUpdate R (realAct act) q
    let ey' := ey + R.maxSteering * (es / 10) + singleError * (3 / 2 * V + 36)
    |u.x.val - r.x| ≤ ex + ev / 10 + 11 / 200 * ey + singleError * (3 * X + V + 1) ∧
    |u.y.val - r.y| ≤ ex + ev / 10 + 11 / 200 * ey + singleError * (3 * X + V + 1) ∧
    AnglesWithin ey' u.yaw.val r.yaw ∧
    |u.velX.val - r.velX| ≤ singleError * (8 * V + 12) + es + (V + 11 / 10) * ey' ∧
    |u.velY.val - r.velY| ≤ singleError * (8 * V + 12) + es + (V + 11 / 10) * ey' ∧
    |norm2 (u.velX.val, u.velY.val) - norm2 (r.velX, r.velY)| ≤ es + singleError * (9 * V + 13) := by
  intro u r ey'
  obtain ⟨x1, x2, x3, x4, x5, x6⟩ := step_close h hdt ha0 ha1 hs0 hs1 act hyaw (hv.trans hV)
  have hε := h.pos
  obtain ⟨-, -, cA, cS⟩ := physical_close h ha0 ha1 hs0 hs1 act.data
  have hAr : (bicyclePhysical R (realAct act).data) = bicyclePhysical R act.data.real := rfl
  obtain ⟨A, hA⟩ : ∃ A, A = (bicyclePhysical R act.data.real).accel := ⟨_, rfl⟩
  obtain ⟨S, hS⟩ : ∃ S, S = (bicyclePhysical R act.data.real).steering := ⟨_, rfl⟩
  obtain ⟨N, hN⟩ : ∃ N, N = norm2 (p.velX.val, p.velY.val) := ⟨_, rfl⟩
  obtain ⟨M, hM⟩ : ∃ M, M = norm2 (q.velX, q.velY) := ⟨_, rfl⟩
  have hN0 : 0 ≤ N := by rw [hN]; exact norm2_nonneg _
  have rx : r.x = q.x + q.velX * 0.1 + 0.5 * A * cos q.yaw * 0.1 ^ 2 := by rw [hA, ← hdt]; rfl
  have ry : r.y = q.y + q.velY * 0.1 + 0.5 * A * sin q.yaw * 0.1 ^ 2 := by rw [hA, ← hdt]; rfl
  have ryaw : r.yaw = wrapYaws (q.yaw + S * (M * 0.1 + 0.5 * A * 0.1 ^ 2)) := by rw [hA, hS, hM, ← hdt]; rfl
  have rvx : r.velX = (M + A * 0.1) * cos r.yaw := by rw [hA, hM, ← hdt]; rfl
  have rvy : r.velY = (M + A * 0.1) * sin r.yaw := by rw [hA, hM, ← hdt]; rfl
  rw [← hA] at cA
  rw [← hS] at cS
  rw [← hA] at x1 x2 x3 x4 x5 x6
  rw [← hS] at x3
  rw [← hN] at x3 x4 x5 x6 hv hes
  rw [← hM] at hes
  have hey0 : 0 ≤ ey := by
    obtain ⟨k, hk⟩ := hey
    exact (abs_nonneg _).trans hk
  have nvx : |p.velX.val| ≤ V := by
    refine le_trans ?_ hv
    rw [hN]
    exact Real.abs_le_sqrt (by simp only; nlinarith [sq_nonneg p.velY.val])
  have nvy : |p.velY.val| ≤ V := by
    refine le_trans ?_ hv
    rw [hN]
    exact Real.abs_le_sqrt (by simp only; nlinarith [sq_nonneg p.velX.val])
  have hW : AnglesWithin ey' u.yaw.val r.yaw := by
    rw [ryaw]
    apply AnglesWithin.wrap
    obtain ⟨k, hk⟩ := hey
    have hmid : AnglesWithin (ey + R.maxSteering * (es / 10)) (p.yaw.val + S * (N * 0.1 + 0.5 * A * 0.1 ^ 2))
        (q.yaw + S * (M * 0.1 + 0.5 * A * 0.1 ^ 2)) := by
      refine ⟨k, ?_⟩
      rw [show p.yaw.val + S * (N * 0.1 + 0.5 * A * 0.1 ^ 2) - (q.yaw + S * (M * 0.1 + 0.5 * A * 0.1 ^ 2)) - k * (2 * π) =
        (p.yaw.val - q.yaw - k * (2 * π)) + S * ((N - M) / 10) by ring]
      refine (abs_add_le _ _).trans (add_le_add hk ?_)
      rw [abs_mul, abs_div, abs_of_pos (by norm_num : (0 : ℝ) < 10)]
      exact mul_le_mul cS (div_le_div_of_nonneg_right hes (by norm_num)) (by positivity) hs0
    refine (x3.trans hmid).mono ?_
    have : singleError * (3 / 2 * N + 36) ≤ singleError * (3 / 2 * V + 36) := mul_le_mul_of_nonneg_left (by linarith) hε.le
    show _ ≤ ey + R.maxSteering * (es / 10) + singleError * (3 / 2 * V + 36)
    linarith
  have hU : |N + A * 0.1| ≤ V + 11 / 10 := by
    refine (abs_add_le _ _).trans ?_
    rw [abs_of_nonneg hN0, abs_mul, abs_of_pos (by norm_num : (0 : ℝ) < 0.1)]
    norm_num
    linarith
  refine ⟨?_, ?_, hW, ?_, ?_, ?_⟩
  · rw [rx]
    exact coordinate_drift hε cA x1 hX nvx hex hev hey.cos_le
  · rw [ry]
    exact coordinate_drift hε cA x2 hY nvy hex' hev' hey.sin_le
  · rw [rvx]
    exact velocity_drift hε hv hU hes x4 (abs_cos_le_one _) hW.cos_le
  · rw [rvy]
    exact velocity_drift hε hv hU hes x5 (abs_sin_le_one _) hW.sin_le
  · rw [rvx, rvy, norm2_heading]
    have j1 : |(|N + A * 0.1|) - (|M + A * 0.1|)| ≤ es := by
      refine (abs_abs_sub_abs_le_abs_sub _ _).trans ?_
      rw [show N + A * 0.1 - (M + A * 0.1) = N - M by ring]
      exact hes
    have j2 : singleError * (9 * N + 13) ≤ singleError * (9 * V + 13) := mul_le_mul_of_nonneg_left (by linarith) hε.le
    have j3 := abs_sub_le (norm2 (u.velX.val, u.velY.val)) (|N + A * 0.1|) (|M + A * 0.1|)
    have j4 : |norm2 (u.velX.val, u.velY.val) - (|N + A * 0.1|)| ≤ singleError * (9 * N + 13) := x6
    linarith

end

/-! ### Episodes -/

/-- Drift of the speed after `k` steps below `V` m/s. -/
noncomputable def speedDrift (V : ℝ) (k : Nat) : ℝ := 2 ^ (-22 : ℤ) * (k * (9 * V + 13))

/-- Drift of the heading after `k` steps below `V` m/s with steering up to `σ`. -/
noncomputable def headingDrift (σ V : ℝ) (k : Nat) : ℝ :=
  2 ^ (-22 : ℤ) * (k * (3 / 2 * V + 36) + k ^ 2 * (σ * (9 * V + 13) / 20))

/-- Drift of each coordinate of the velocity. -/
noncomputable def velocityDrift (σ V : ℝ) (k : Nat) : ℝ := speedDrift V k + (V + 11 / 10) * headingDrift σ V k

/-- Drift of each coordinate of the position, within `X` of the origin. -/
noncomputable def positionDrift (σ V X : ℝ) (k : Nat) : ℝ :=
  2 ^ (-22 : ℤ) * (k * (3 * X + V + 1) + k ^ 2 * ((9 * V + 13) / 20 + (V / 10 + 0.165) * (3 / 2 * V + 36) / 2) +
    k ^ 3 * ((V / 10 + 0.165) * (σ * (9 * V + 13)) / 60))

theorem headingDrift_succ {σ V : ℝ} (hσ : 0 ≤ σ) (hV : 0 ≤ V) (k : Nat) :
    headingDrift σ V k + σ * (speedDrift V k / 10) + singleError * (3 / 2 * V + 36) ≤ headingDrift σ V (k + 1) := by
  unfold headingDrift speedDrift
  rw [← singleError_eq]
  have hε : 0 < singleError := by unfold singleError; norm_num
  push_cast
  have : 0 ≤ singleError * (σ * (9 * V + 13) / 20) := by positivity
  linear_combination this

theorem velocityDrift_succ (σ : ℝ) {V : ℝ} (hV : 0 ≤ V) (k : Nat) :
    singleError * (8 * V + 12) + speedDrift V k + (V + 11 / 10) * headingDrift σ V (k + 1) ≤ velocityDrift σ V (k + 1) := by
  unfold velocityDrift speedDrift
  rw [← singleError_eq]
  have hε : 0 < singleError := by unfold singleError; norm_num
  push_cast
  have : 0 ≤ singleError * (V + 1) := by positivity
  linear_combination this

theorem positionDrift_succ {σ V X : ℝ} (hσ : 0 ≤ σ) (hV : 0 ≤ V) (k : Nat) :
    positionDrift σ V X k + velocityDrift σ V k / 10 + 11 / 200 * headingDrift σ V k + singleError * (3 * X + V + 1) ≤
      positionDrift σ V X (k + 1) := by
  unfold positionDrift velocityDrift speedDrift headingDrift
  rw [← singleError_eq]
  have hε : 0 < singleError := by unfold singleError; norm_num
  have hk : (0 : ℝ) ≤ k := Nat.cast_nonneg k
  push_cast
  have key : 0 ≤ singleError * (((9 * V + 13) / 20 + (V / 10 + 0.165) * (3 / 2 * V + 36) / 2) +
      (3 * k + 1) * ((V / 10 + 0.165) * (σ * (9 * V + 13)) / 60)) := by positivity
  linear_combination key

/-- Pose and velocity of an object in two simulations, apart by at most these distances, angles and speeds. -/
structure PosesWithin (pos ang vel : ℝ) (p q : Pt ℝ) : Prop where
  x : |p.x - q.x| ≤ pos
  y : |p.y - q.y| ≤ pos
  yaw : AnglesWithin ang p.yaw q.yaw
  velX : |p.velX - q.velX| ≤ vel
  velY : |p.velY - q.velY| ≤ vel

/-- The same actions by the bicycle model over the real numbers. -/
noncomputable def exactDrive (R : BicycleParams) (acts : Nat → Act AccelSteer) (start : Pt ℝ) : Nat → Pt ℝ
  | 0 => start
  | k + 1 =>
    let u := bicycleUpdate R (acts k) (exactDrive R acts start k)
    { start with x := u.x, y := u.y, yaw := u.yaw, velX := u.velX, velY := u.velY }

section
variable {φ : Format} {L : Libm φ} {n T : Nat} [NeZero T]

theorem drift_exact (hL : L.Accurate singleError) {R : BicycleParams} (hdt : R.dt = 0.1) (ha0 : 0 ≤ R.maxAccel)
    (ha1 : R.maxAccel ≤ 11) (hs0 : 0 ≤ R.maxSteering) (hs1 : R.maxSteering ≤ 1) {cfg : EnvConfig}
    {scen s0 s1 : SimState (Flt φ) n T} {acts : List (Fin n → Act (AccelSteerFl φ))}
    (E : Episode (bicycleFl L R.machine) cfg scen s0 acts s1) {i : Fin n} (hc : IsControlled cfg s0 i) {t0 : Fin T}
    (ht0 : t0.val + 1 = cfg.initSteps) (hyaw : |(scen.logTrajectory i t0).yaw.val| ≤ 4) {V X : ℝ} (hV : V ≤ 99)
    (hspeed : ∀ t, t0 ≤ t → t.val + 1 < cfg.initSteps + acts.length → norm2 ((s1.simTrajectory i t).velX.val, (s1.simTrajectory i t).velY.val) ≤ V)
    (hpos : ∀ t, t0 ≤ t → t.val + 1 < cfg.initSteps + acts.length → |(s1.simTrajectory i t).x.val| ≤ X ∧ |(s1.simTrajectory i t).y.val| ≤ X)
    {acts' : Nat → Act AccelSteer} (hacts : ∀ k (hk : k < acts.length), acts' k = realAct (acts[k] i)) {start : Pt ℝ}
    (hx : start.x = (scen.logTrajectory i t0).x.val) (hy : start.y = (scen.logTrajectory i t0).y.val)
    (hw : start.yaw = (scen.logTrajectory i t0).yaw.val) (hvx : start.velX = (scen.logTrajectory i t0).velX.val)
    (hvy : start.velY = (scen.logTrajectory i t0).velY.val) {k : Nat} (hk : k ≤ acts.length) {t : Fin T}
    (ht : t.val + 1 = cfg.initSteps + k) :
    let p := s1.simTrajectory i t
    let q := exactDrive R acts' start k
    PosesWithin (positionDrift R.maxSteering V X k) (headingDrift R.maxSteering V k) (velocityDrift R.maxSteering V k) p.real q ∧
    |norm2 (p.velX.val, p.velY.val) - norm2 (q.velX, q.velY)| ≤ speedDrift V k ∧ |p.yaw.val| ≤ 4 := by
  induction k generalizing t with
  | zero =>
    have : t = t0 := Fin.ext (by omega)
    subst this
    intro p q
    have hp : p = scen.logTrajectory i t := E.bicycle_start i ht0
    have hq : q = start := rfl
    rw [hp, hq]
    refine ⟨⟨?_, ?_, ⟨0, ?_⟩, ?_, ?_⟩, ?_, hyaw⟩
    · rw [hx]; simp [Pt.real, positionDrift]
    · rw [hy]; simp [Pt.real, positionDrift]
    · rw [hw]; simp [Pt.real, headingDrift]
    · rw [hvx]; simp [Pt.real, velocityDrift, speedDrift, headingDrift]
    · rw [hvy]; simp [Pt.real, velocityDrift, speedDrift, headingDrift]
    · rw [hvx, hvy]; simp [speedDrift]
  | succ k ih =>
    have hwm := E.warm
    obtain ⟨u, hu⟩ : ∃ u : Fin T, u.val + 1 = t.val := ⟨⟨t.val - 1, by omega⟩, by simp; omega⟩
    obtain ⟨i1, i2, i3⟩ := ih (by omega) (t := u) (by omega)
    obtain ⟨g1, g2, g3, g4, g5⟩ := E.bicycle_step hc (k := k) (by omega) (t := u) (t' := t) (by omega) (by omega)
    have hut : t0 ≤ u := Fin.le_def.2 (by omega)
    have hul : u.val + 1 < cfg.initSteps + acts.length := by omega
    have hV0 : 0 ≤ V := (norm2_nonneg _).trans (hspeed u hut hul)
    obtain ⟨d1, d2, d3, d4, d5, d6⟩ := drift_step hL hdt ha0 ha1 hs0 hs1 (acts[k] i) i3 (hspeed u hut hul) hV (hpos u hut hul).1
      (hpos u hut hul).2
      i1.x i1.y i1.yaw i1.velX i1.velY i2
    intro p q
    have hq : q = (let u := bicycleUpdate R (acts' k) (exactDrive R acts' start k)
      { start with x := u.x, y := u.y, yaw := u.yaw, velX := u.velX, velY := u.velY }) := rfl
    rw [hacts k (by omega)] at hq
    generalize hr : bicycleUpdate R (realAct (acts[k] i)) (exactDrive R acts' start k) = r at *
    simp only at hq
    have hε : singleError = 2 ^ (-22 : ℤ) := singleError_eq
    have hhead := headingDrift_succ hs0 hV0 k
    have hvel := velocityDrift_succ R.maxSteering hV0 k
    have hposn := positionDrift_succ hs0 hV0 (X := X) k
    refine ⟨⟨?_, ?_, ?_, ?_, ?_⟩, ?_, ?_⟩
    · rw [hq]
      show |(s1.simTrajectory i t).x.val - r.x| ≤ _
      rw [g1]
      exact d1.trans hposn
    · rw [hq]
      show |(s1.simTrajectory i t).y.val - r.y| ≤ _
      rw [g2]
      exact d2.trans hposn
    · rw [hq]
      show AnglesWithin _ (s1.simTrajectory i t).yaw.val r.yaw
      rw [g3]
      exact d3.mono hhead
    · rw [hq]
      show |(s1.simTrajectory i t).velX.val - r.velX| ≤ _
      rw [g4]
      refine d4.trans (le_trans ?_ hvel)
      have := mul_le_mul_of_nonneg_left hhead (by positivity : 0 ≤ V + 11 / 10)
      linarith
    · rw [hq]
      show |(s1.simTrajectory i t).velY.val - r.velY| ≤ _
      rw [g5]
      refine d5.trans (le_trans ?_ hvel)
      have := mul_le_mul_of_nonneg_left hhead (by positivity : 0 ≤ V + 11 / 10)
      linarith
    · rw [hq]
      show |norm2 ((s1.simTrajectory i t).velX.val, (s1.simTrajectory i t).velY.val) - norm2 (r.velX, r.velY)| ≤ _
      rw [g4, g5]
      refine d6.trans ?_
      unfold speedDrift
      rw [← hε]
      push_cast
      linarith
    · show |(s1.simTrajectory i t).yaw.val| ≤ 4
      rw [g3]
      have hr := C132_range ((s1.simTrajectory i u).yaw.add ((bicyclePhysicalFl R.machine (acts[k] i).data).steering.mul
        (travelFl R.machine.dt (speedFl L (s1.simTrajectory i u).velX (s1.simTrajectory i u).velY)
          (bicyclePhysicalFl R.machine (acts[k] i).data).accel)))
      have hpi := (abs_le.1 (pi_close hL)).2
      have := pi_lt_d6
      refine (abs_le.2 hr).trans ?_
      unfold singleError at *
      norm_num at *
      linarith

/-- C138: one step in machine arithmetic compared with the same step over the real numbers, for every action, in range or not, from every
state below 99 m/s. -/
theorem C138_step (hL : L.Accurate (2 ^ (-22 : ℤ))) {R : BicycleParams} (hdt : R.dt = 0.1) (ha : 0 ≤ R.maxAccel ∧ R.maxAccel ≤ 11)
    (hs : 0 ≤ R.maxSteering ∧ R.maxSteering ≤ 1) (act : Fin n → Act (AccelSteerFl φ)) (cur : Fin n → Pt (Flt φ)) (i : Fin n)
    (hyaw : |(cur i).yaw.val| ≤ 4) {V X : ℝ} (hv : norm2 ((cur i).velX.val, (cur i).velY.val) ≤ V) (hV : V ≤ 99)
    (hX : |(cur i).x.val| ≤ X) (hY : |(cur i).y.val| ≤ X) :
    let u := (bicycleFl L R.machine).computeUpdate act cur i
    let r := (bicycle R).computeUpdate (fun j => realAct (act j)) (fun j => (cur j).real) i
    |u.x.val - r.x| ≤ 2 ^ (-22 : ℤ) * (3 * X + V + 1) ∧ |u.y.val - r.y| ≤ 2 ^ (-22 : ℤ) * (3 * X + V + 1) ∧
    AnglesWithin (2 ^ (-22 : ℤ) * (3 / 2 * V + 36)) u.yaw.val r.yaw ∧
    |norm2 (u.velX.val, u.velY.val) - norm2 (r.velX, r.velY)| ≤ 2 ^ (-22 : ℤ) * (9 * V + 13) ∧
    |u.velX.val - r.velX| ≤ 2 ^ (-22 : ℤ) * (2 * V ^ 2 + 50 * V + 60) ∧
    |u.velY.val - r.velY| ≤ 2 ^ (-22 : ℤ) * (2 * V ^ 2 + 50 * V + 60) ∧ u.valid = r.valid := by
  rw [← singleError_eq] at hL ⊢
  have hu : (bicycleFl L R.machine).computeUpdate act cur i = bicycleUpdateFl L R.machine (act i) (cur i) := rfl
  have hr : (bicycle R).computeUpdate (fun j => realAct (act j)) (fun j => (cur j).real) i =
    bicycleUpdate R (realAct (act i)) (cur i).real := rfl
  rw [hu, hr]
  obtain ⟨d1, d2, d3, d4, d5, d6⟩ := drift_step hL hdt ha.1 ha.2 hs.1 hs.2 (act i) (p := cur i) (q := (cur i).real) (ex := 0) (ey := 0)
    (ev := 0) (es := 0) hyaw hv hV hX hY (by simp [Pt.real]) (by simp [Pt.real]) ⟨0, by simp [Pt.real]⟩ (by simp [Pt.real])
    (by simp [Pt.real]) (by simp [Pt.real])
  have hV0 : 0 ≤ V := (norm2_nonneg _).trans hv
  have hε := hL.pos
  have hvel : singleError * (8 * V + 12) + 0 + (V + 11 / 10) * (0 + R.maxSteering * (0 / 10) + singleError * (3 / 2 * V + 36)) ≤
      singleError * (2 * V ^ 2 + 50 * V + 60) := by
    have : 0 ≤ singleError * (1 / 2 * V ^ 2 + V / 4 + 1) := by positivity
    nlinarith
  refine ⟨d1.trans (by linarith), d2.trans (by linarith), d3.mono (by simp), d6.trans (by linarith), d4.trans hvel, d5.trans hvel, rfl⟩

/-- An episode of the bicycle model over the real numbers, for an object it controls. -/
theorem exactDrive_of_episode {R : BicycleParams} {cfg : EnvConfig} {scen s0 s1 : SimState ℝ n T} {acts : List (Fin n → Act AccelSteer)}
    (E : Episode (bicycle R) cfg scen s0 acts s1) {i : Fin n} (hc : IsControlled cfg s0 i) {t0 : Fin T}
    (ht0 : t0.val + 1 = cfg.initSteps) {acts' : Nat → Act AccelSteer} (hacts : ∀ k (hk : k < acts.length), acts' k = acts[k] i)
    {k : Nat} (hk : k ≤ acts.length) {t : Fin T} (ht : t.val + 1 = cfg.initSteps + k) :
    let p := s1.simTrajectory i t
    let q := exactDrive R acts' (scen.logTrajectory i t0) k
    p.x = q.x ∧ p.y = q.y ∧ p.yaw = q.yaw ∧ p.velX = q.velX ∧ p.velY = q.velY := by
  have h0 : s0.timestep = (cfg.initSteps : Int) - 1 := by rw [E.reset_data]
  have hw := E.warm
  have hf := E.fits
  induction k generalizing t with
  | zero =>
    have : t = t0 := Fin.ext (by omega)
    subst this
    have hp : s1.simTrajectory i t = scen.logTrajectory i t := by
      rw [stepMany_frame E.run (by omega) (by omega) i t (Or.inl (by omega)), E.reset_data]
      simp only
      rw [if_pos (by omega)]
    intro p q
    have : p = q := hp
    rw [this]
    exact ⟨rfl, rfl, rfl, rfl, rfl⟩
  | succ k ih =>
    obtain ⟨u, hu⟩ : ∃ u : Fin T, u.val + 1 = t.val := ⟨⟨t.val - 1, by omega⟩, by simp; omega⟩
    obtain ⟨i1, i2, i3, i4, i5⟩ := ih (by omega) (t := u) (by omega)
    obtain ⟨c, hcc, he⟩ := E.recurrence (k := k) (by omega) (t := u) (t' := t) (by omega) (by omega) i
    have : c = true := hcc.2 hc
    subst this
    intro p q
    have hp : p = updatedPt false cfg.allowNewObjectsAfterWarmup true (bicycleUpdate R (acts[k] i) (s1.simTrajectory i u))
      (s1.simTrajectory i u) (scen.logTrajectory i t) := he
    have hq : q = (let u := bicycleUpdate R (acts' k) (exactDrive R acts' (scen.logTrajectory i t0) k)
      { scen.logTrajectory i t0 with x := u.x, y := u.y, yaw := u.yaw, velX := u.velX, velY := u.velY }) := rfl
    rw [hacts k (by omega)] at hq
    rw [hp, hq]
    simp only [updatedPt, newField, bicycleUpdate]
    rw [i1, i2, i3, i4, i5]
    exact ⟨rfl, rfl, rfl, rfl, rfl⟩

/-- C138: an episode of the bicycle model in machine arithmetic compared with the same episode over the real numbers: same scenario, same
actions, any mathematical library. As long as the object stays below `V` m/s and within `X` of the origin, it is after `k` steps within
`positionDrift` of where it would be without rounding errors, and its heading within `headingDrift`. -/
theorem C138_drift (hL : L.Accurate (2 ^ (-22 : ℤ))) {R : BicycleParams} (hdt : R.dt = 0.1) (ha : 0 ≤ R.maxAccel ∧ R.maxAccel ≤ 11)
    (hs : 0 ≤ R.maxSteering ∧ R.maxSteering ≤ 1) {cfg : EnvConfig} {scen s0 s1 : SimState (Flt φ) n T}
    {acts : List (Fin n → Act (AccelSteerFl φ))} (E : Episode (bicycleFl L R.machine) cfg scen s0 acts s1)
    {scenR r0 r1 : SimState ℝ n T} (ER : Episode (bicycle R) cfg scenR r0 (acts.map fun a j => realAct (a j)) r1)
    {i : Fin n} (hc : IsControlled cfg s0 i) (hcR : IsControlled cfg r0 i) {t0 : Fin T} (ht0 : t0.val + 1 = cfg.initSteps)
    (hstart : scenR.logTrajectory i t0 = (scen.logTrajectory i t0).real) (hyaw : |(scen.logTrajectory i t0).yaw.val| ≤ 4) {V X : ℝ}
    (hV : V ≤ 99) (hspeed : ∀ t, t0 ≤ t → t.val + 1 < cfg.initSteps + acts.length → norm2 ((s1.simTrajectory i t).velX.val, (s1.simTrajectory i t).velY.val) ≤ V)
    (hpos : ∀ t, t0 ≤ t → t.val + 1 < cfg.initSteps + acts.length → |(s1.simTrajectory i t).x.val| ≤ X ∧ |(s1.simTrajectory i t).y.val| ≤ X)
    {k : Nat} (hk : k ≤ acts.length) {t : Fin T} (ht : t.val + 1 = cfg.initSteps + k) :
    PosesWithin (positionDrift R.maxSteering V X k) (headingDrift R.maxSteering V k) (velocityDrift R.maxSteering V k)
      (s1.simTrajectory i t).real (r1.simTrajectory i t) := by
  rw [← singleError_eq] at hL
  obtain ⟨f, hf⟩ : ∃ f : Nat → Act AccelSteer, ∀ k (hk : k < acts.length), f k = realAct (acts[k] i) :=
    ⟨fun k => if hk : k < acts.length then realAct (acts[k] i) else ⟨⟨0, 0⟩, false⟩, fun k hk => dif_pos hk⟩
  obtain ⟨⟨d1, d2, d3, d4, d5⟩, -, -⟩ := drift_exact hL hdt ha.1 ha.2 hs.1 hs.2 E hc ht0 hyaw hV hspeed hpos hf
    (start := scenR.logTrajectory i t0) (by rw [hstart]; rfl) (by rw [hstart]; rfl) (by rw [hstart]; rfl) (by rw [hstart]; rfl)
    (by rw [hstart]; rfl) hk ht
  obtain ⟨e1, e2, e3, e4, e5⟩ := exactDrive_of_episode ER hcR ht0 (acts' := f)
    (fun k hk => by rw [hf k (by simpa using hk)]; simp) (by simpa using hk) ht
  constructor
  · rw [e1]; exact d1
  · rw [e2]; exact d2
  · rw [e3]; exact d3
  · rw [e4]; exact d4
  · rw [e5]; exact d5

end

/-- C138: the same episode on two machines, with different mathematical libraries and even different formats: the trajectories of the
object are apart by at most twice the drift. -/
theorem C138_two_machines {φ ψ : Format} {L : Libm φ} {L' : Libm ψ} (hL : L.Accurate (2 ^ (-22 : ℤ))) (hL' : L'.Accurate (2 ^ (-22 : ℤ)))
    {n T : Nat} [NeZero T] {R : BicycleParams} (hdt : R.dt = 0.1) (ha : 0 ≤ R.maxAccel ∧ R.maxAccel ≤ 11)
    (hs : 0 ≤ R.maxSteering ∧ R.maxSteering ≤ 1) {cfg : EnvConfig}
    {scen s0 s1 : SimState (Flt φ) n T} {acts : List (Fin n → Act (AccelSteerFl φ))}
    (E : Episode (bicycleFl L R.machine) cfg scen s0 acts s1)
    {scen' s0' s1' : SimState (Flt ψ) n T} {acts' : List (Fin n → Act (AccelSteerFl ψ))}
    (E' : Episode (bicycleFl L' R.machine) cfg scen' s0' acts' s1')
    {i : Fin n} (hc : IsControlled cfg s0 i) (hc' : IsControlled cfg s0' i) {t0 : Fin T} (ht0 : t0.val + 1 = cfg.initSteps)
    (hstart : (scen.logTrajectory i t0).real = (scen'.logTrajectory i t0).real)
    (hacts : acts.map (fun a => realAct (a i)) = acts'.map (fun a => realAct (a i)))
    (hyaw : |(scen.logTrajectory i t0).yaw.val| ≤ 4) {V X : ℝ} (hV : V ≤ 99)
    (hspeed : ∀ t, t0 ≤ t → t.val + 1 < cfg.initSteps + acts.length → norm2 ((s1.simTrajectory i t).velX.val, (s1.simTrajectory i t).velY.val) ≤ V)
    (hspeed' : ∀ t, t0 ≤ t → t.val + 1 < cfg.initSteps + acts.length → norm2 ((s1'.simTrajectory i t).velX.val, (s1'.simTrajectory i t).velY.val) ≤ V)
    (hpos : ∀ t, t0 ≤ t → t.val + 1 < cfg.initSteps + acts.length → |(s1.simTrajectory i t).x.val| ≤ X ∧ |(s1.simTrajectory i t).y.val| ≤ X)
    (hpos' : ∀ t, t0 ≤ t → t.val + 1 < cfg.initSteps + acts.length → |(s1'.simTrajectory i t).x.val| ≤ X ∧ |(s1'.simTrajectory i t).y.val| ≤ X)
    {k : Nat} (hk : k ≤ acts.length) {t : Fin T} (ht : t.val + 1 = cfg.initSteps + k) :
    PosesWithin (2 * positionDrift R.maxSteering V X k) (2 * headingDrift R.maxSteering V k) (2 * velocityDrift R.maxSteering V k)
      (s1.simTrajectory i t).real (s1'.simTrajectory i t).real := by
  rw [← singleError_eq] at hL hL'
  have hlen : acts.length = acts'.length := by simpa using congrArg List.length hacts
  have hel : ∀ k (hk : k < acts.length) (hk' : k < acts'.length), realAct (acts[k] i) = realAct (acts'[k] i) := by
    intro k hk hk'
    have := List.getElem_of_eq hacts (i := k) (by simpa using hk)
    simpa using this
  obtain ⟨f, hf⟩ : ∃ f : Nat → Act AccelSteer, ∀ k (hk : k < acts.length), f k = realAct (acts[k] i) :=
    ⟨fun k => if hk : k < acts.length then realAct (acts[k] i) else ⟨⟨0, 0⟩, false⟩, fun k hk => dif_pos hk⟩
  have hyaw' : |(scen'.logTrajectory i t0).yaw.val| ≤ 4 := by
    have : (scen.logTrajectory i t0).yaw.val = (scen'.logTrajectory i t0).yaw.val := congrArg Pt.yaw hstart
    rwa [← this]
  obtain ⟨⟨d1, d2, d3, d4, d5⟩, -, -⟩ := drift_exact hL hdt ha.1 ha.2 hs.1 hs.2 E hc ht0 hyaw hV hspeed hpos hf
    (start := (scen.logTrajectory i t0).real) rfl rfl rfl rfl rfl hk ht
  obtain ⟨⟨e1, e2, e3, e4, e5⟩, -, -⟩ := drift_exact hL' hdt ha.1 ha.2 hs.1 hs.2 E' hc' ht0 hyaw' hV (fun t h1 h2 => hspeed' t h1 (by omega))
    (fun t h1 h2 => hpos' t h1 (by omega))
    (acts' := f) (fun k hk => by rw [hf k (by omega), hel k (by omega) hk])
    (start := (scen.logTrajectory i t0).real) (congrArg Pt.x hstart) (congrArg Pt.y hstart) (congrArg Pt.yaw hstart)
    (congrArg Pt.velX hstart) (congrArg Pt.velY hstart) (by omega) ht
  have tri : ∀ {a b c e : ℝ}, |a - b| ≤ e → |c - b| ≤ e → |a - c| ≤ 2 * e := by
    intro a b c e h1 h2
    have := abs_sub_le a b c
    rw [abs_sub_comm b c] at this
    linarith
  exact ⟨tri d1 e1, tri d2 e2, by rw [two_mul]; exact d3.trans e3.symm, tri d4 e4, tri d5 e5⟩

/-- C138 in numbers, with the default arguments, for objects below 20 m/s within a kilometre of the origin: after one second (10 steps) the
position is within a centimetre of where it would be without rounding errors and after eight seconds (80 steps) within half a metre. -/
theorem C138_numbers : positionDrift 0.3 20 1000 10 ≤ 0.01 ∧ positionDrift 0.3 20 1000 80 ≤ 0.5 ∧
    headingDrift 0.3 20 10 ≤ 3e-4 ∧ headingDrift 0.3 20 80 ≤ 6e-3 := by
  unfold positionDrift headingDrift
  norm_num

/-! ### The hypotheses are met -/

/-- A library whose cosine is off by a rounding unit. -/
noncomputable def shiftedLibm : Libm float32 := { exactLibm float32 with cos := fun x => Flt.round _ (cos x.val + 2 ^ (-24 : ℤ)) }

theorem shiftedLibm_accurate : shiftedLibm.Accurate (2 ^ (-22 : ℤ)) := by
  have h := exactLibm_accurate
  refine ⟨h.unit, h.small, h.range, fun x => ?_, h.sin, h.arctan2, h.sqrt, h.div⟩
  show |float32.fl (cos x.val + 2 ^ (-24 : ℤ)) - cos x.val| ≤ 2 ^ (-22 : ℤ)
  have e1 := float32.fl_err_tiny (cos x.val + 2 ^ (-24 : ℤ))
  have e2 : |cos x.val + 2 ^ (-24 : ℤ)| ≤ 1 + 2 ^ (-24 : ℤ) := by
    refine (abs_add_le _ _).trans (add_le_add (abs_cos_le_one _) ?_)
    rw [abs_of_pos (by positivity)]
  have e3 : |float32.fl (cos x.val + 2 ^ (-24 : ℤ)) - cos x.val| ≤
      |float32.fl (cos x.val + 2 ^ (-24 : ℤ)) - (cos x.val + 2 ^ (-24 : ℤ))| + 2 ^ (-24 : ℤ) := by
    rw [show float32.fl (cos x.val + 2 ^ (-24 : ℤ)) - cos x.val =
      (float32.fl (cos x.val + 2 ^ (-24 : ℤ)) - (cos x.val + 2 ^ (-24 : ℤ))) + 2 ^ (-24 : ℤ) by ring]
    refine (abs_add_le _ _).trans ?_
    rw [abs_of_pos (by positivity : (0 : ℝ) < 2 ^ (-24 : ℤ))]
  have hu : float32.u = 2 ^ (-24 : ℤ) := rfl
  have he : (2 : ℝ) ^ float32.emin ≤ 2 ^ (-30 : ℤ) := zpow_le_zpow_right₀ (by norm_num) (by norm_num [float32])
  rw [hu] at e1
  generalize |float32.fl (cos x.val + 2 ^ (-24 : ℤ)) - cos x.val| = A at *
  generalize |float32.fl (cos x.val + 2 ^ (-24 : ℤ)) - (cos x.val + 2 ^ (-24 : ℤ))| = B at *
  generalize |cos x.val + 2 ^ (-24 : ℤ)| = C at *
  generalize (2 : ℝ) ^ float32.emin = D at *
  norm_num at *
  linarith

theorem tenScen_speed : norm2 ((tenScen.logTrajectory 0 0).velX.val, (tenScen.logTrajectory 0 0).velY.val) ≤ 20 := by
  show norm2 (((40 : ℤ) : ℝ) * 2 ^ (-2 : ℤ), ((0 : ℤ) : ℝ) * 2 ^ (-2 : ℤ)) ≤ 20
  unfold norm2
  rw [show (((40 : ℤ) : ℝ) * 2 ^ (-2 : ℤ)) ^ 2 + (((0 : ℤ) : ℝ) * 2 ^ (-2 : ℤ)) ^ 2 = 10 ^ 2 by norm_num, Real.sqrt_sq (by norm_num)]
  norm_num

/-- Non-vacuity of C138: full acceleration with two libraries. -/
example : ∃ s0 s1 s1', Episode (bicycleFl (exactLibm float32) (BicycleParams.machine {})) driveCfg tenScen s0
      [fun _ => { data := { accel := quarter 24, steering := quarter (-1) }, valid := true }] s1 ∧
    Episode (bicycleFl shiftedLibm (BicycleParams.machine {})) driveCfg tenScen s0
      [fun _ => { data := { accel := quarter 24, steering := quarter (-1) }, valid := true }] s1' ∧
    |(s1.simTrajectory 0 1).x.val - (s1'.simTrajectory 0 1).x.val| ≤ 0.02 := by
  obtain ⟨act, hact⟩ : ∃ act : Fin 1 → Act (AccelSteerFl float32), act =
    fun _ => { data := { accel := quarter 24, steering := quarter (-1) }, valid := true } := ⟨_, rfl⟩
  rw [← hact]
  obtain ⟨s0, h0⟩ : ∃ s0, reset driveCfg tenScen = .ok s0 := ⟨_, rfl⟩
  obtain ⟨s1, h1⟩ := stepMany_exists (bicycleFl (exactLibm float32) (BicycleParams.machine {})) driveCfg s0 [act] (by decide)
  obtain ⟨s1', h1'⟩ := stepMany_exists (bicycleFl shiftedLibm (BicycleParams.machine {})) driveCfg s0 [act] (by decide)
  have E : Episode (bicycleFl (exactLibm float32) (BicycleParams.machine {})) driveCfg tenScen s0 _ s1 := ⟨h0, h1, by decide, by show 1 + 1 ≤ 4; decide⟩
  have E' : Episode (bicycleFl shiftedLibm (BicycleParams.machine {})) driveCfg tenScen s0 _ s1' := ⟨h0, h1', by decide, by show 1 + 1 ≤ 4; decide⟩
  refine ⟨s0, s1, s1', E, E', ?_⟩
  have hc : IsControlled driveCfg s0 0 := by
    show (s0.objectMetadata 0).isSdc = true
    rw [E.reset_data]
    rfl
  have hz : ∀ t : Fin 4, t.val + 1 < driveCfg.initSteps + [act].length → t = 0 := fun t ht =>
    Fin.ext (by simp [driveCfg] at ht ⊢; omega)
  have hx : |(tenScen.logTrajectory 0 0).x.val| ≤ 1000 ∧ |(tenScen.logTrajectory 0 0).y.val| ≤ 1000 := by
    constructor
    · show |((4000 : ℤ) : ℝ) * 2 ^ (-2 : ℤ)| ≤ 1000
      rw [abs_of_pos (by norm_num)]
      norm_num
    · show |((_ : ℤ) : ℝ) * 2 ^ (-2 : ℤ)| ≤ 1000
      rw [abs_le]
      norm_num
  have st : s1.simTrajectory 0 0 = tenScen.logTrajectory 0 0 := E.bicycle_start 0 rfl
  have st' : s1'.simTrajectory 0 0 = tenScen.logTrajectory 0 0 := E'.bicycle_start 0 rfl
  have h := (C138_two_machines exactLibm_accurate shiftedLibm_accurate (R := {}) (by norm_num) (by norm_num) (by norm_num) E E'
    hc hc (t0 := 0) rfl rfl rfl
    (by
      show |((12 : ℤ) : ℝ) * 2 ^ (-2 : ℤ)| ≤ 4
      rw [abs_of_pos (by norm_num)]
      norm_num) (V := 20) (X := 1000) (by norm_num)
    (fun t _ ht => by rw [hz t ht, st]; exact tenScen_speed) (fun t _ ht => by rw [hz t ht, st']; exact tenScen_speed)
    (fun t _ ht => by rw [hz t ht, st]; exact hx) (fun t _ ht => by rw [hz t ht, st']; exact hx) (k := 1) le_rfl (t := 1) rfl).x
  refine h.trans ?_
  unfold positionDrift
  norm_num

end Waymax
