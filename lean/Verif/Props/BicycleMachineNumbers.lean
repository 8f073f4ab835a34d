import Verif.Model.MachineBicycle
import Verif.Props.ReplayMachine
import Verif.Props.DiscretizerMachine
import Verif.Props.Bicycle
/-
Lemmas for C136 and C137: rounding errors in the bicycle model and in the kinematic infeasibility metric.
-/

namespace Waymax

open Real

/-- The library is accurate to `ε`, the format is not coarser than that and has a wide range of exponents. -/
structure Libm.Accurate {φ : Format} (L : Libm φ) (ε : ℝ) : Prop where
  unit : φ.u ≤ ε
  small : ε ≤ 2 ^ (-22 : ℤ)
  range : φ.emin ≤ -100
  cos : ∀ x : Flt φ, |(L.cos x).val - Real.cos x.val| ≤ ε
  sin : ∀ x : Flt φ, |(L.sin x).val - Real.sin x.val| ≤ ε
  arctan2 : ∀ y x : Flt φ, |(L.arctan2 y x).val - Waymax.arctan2 y.val x.val| ≤ 4 * ε
  sqrt : ∀ x : Flt φ, 0 ≤ x.val → |(L.sqrt x).val - √x.val| ≤ ε * √x.val
  div : ∀ a b : Flt φ, b.val ≠ 0 → |(L.div a b).val - a.val / b.val| ≤ ε * |a.val / b.val| + ε

section
variable {φ : Format}

theorem Format.fl_err_tiny (φ : Format) (x : ℝ) : |φ.fl x - x| ≤ φ.u * |x| + 2 ^ φ.emin := by
  have hu := φ.u_pos
  have he := Format.two_zpow_pos φ.emin
  by_cases hx : x = 0
  · subst hx
    rw [Format.fl_zero]
    simpa using he.le
  rcases le_or_gt (2 ^ (φ.emin + φ.prec - 1)) |x| with h | h
  · exact (Format.fl_rel h).trans (by linarith)
  · refine (Format.fl_close φ x).trans ?_
    have hle : φ.expo x ≤ φ.emin := by
      by_contra hc
      have := Format.expo_le hx (not_le.1 hc)
      have h2 := (zpow_lt_zpow_iff_right₀ (by norm_num : (1 : ℝ) < 2)).1 (lt_of_le_of_lt this h)
      omega
    have : (2 : ℝ) ^ φ.expo x ≤ 2 ^ φ.emin := zpow_le_zpow_right₀ (by norm_num) hle
    have := mul_nonneg hu.le (abs_nonneg x)
    linarith

variable {L : Libm φ} {ε : ℝ}

namespace Libm.Accurate

variable (h : L.Accurate ε)

include h

theorem pos : 0 < ε := φ.u_pos.trans_le h.unit

theorem fl (x : ℝ) : |φ.fl x - x| ≤ ε * |x| + 2 ^ (-100 : ℤ) := by
  refine (φ.fl_err_tiny x).trans ?_
  have h1 := mul_le_mul_of_nonneg_right h.unit (abs_nonneg x)
  have h2 : (2 : ℝ) ^ φ.emin ≤ 2 ^ (-100 : ℤ) := zpow_le_zpow_right₀ (by norm_num) h.range
  linarith

theorem mul (a b : Flt φ) : |(a.mul b).val - a.val * b.val| ≤ ε * |a.val * b.val| + 2 ^ (-100 : ℤ) := h.fl _

theorem add (a b : Flt φ) : |(a.add b).val - (a.val + b.val)| ≤ ε * |a.val + b.val| :=
  (Format.fl_add_rel a.property b.property).trans (mul_le_mul_of_nonneg_right h.unit (abs_nonneg _))

theorem sub (a b : Flt φ) : |(a.sub b).val - (a.val - b.val)| ≤ ε * |a.val - b.val| :=
  (Format.fl_sub_rel a.property b.property).trans (mul_le_mul_of_nonneg_right h.unit (abs_nonneg _))

end Libm.Accurate

/-- The computed speed is close to the length of the velocity. -/
theorem speed_norm (h : L.Accurate ε) (vx vy : Flt φ) :
    |(speedFl L vx vy).val - √(vx.val ^ 2 + vy.val ^ 2)| ≤ 7 / 2 * ε * √(vx.val ^ 2 + vy.val ^ 2) + 2 ^ (-40 : ℤ) := by
  have h0 := h.pos
  have hs := h.small
  have hs' : (2 : ℝ) ^ (-22 : ℤ) = 1 / 4194304 := by norm_num
  rw [hs'] at hs
  obtain ⟨A, hA⟩ : ∃ A, A = (vx.mul vx) := ⟨_, rfl⟩
  obtain ⟨B, hB⟩ : ∃ B, B = (vy.mul vy) := ⟨_, rfl⟩
  have eA := h.mul vx vx
  have eB := h.mul vy vy
  rw [← hA, ← pow_two, abs_of_nonneg (sq_nonneg vx.val)] at eA
  rw [← hB, ← pow_two, abs_of_nonneg (sq_nonneg vy.val)] at eB
  have A0 : 0 ≤ A.val := by
    rw [hA]
    exact Format.le_fl_of_rep Format.Rep.zero (mul_self_nonneg _)
  have B0 : 0 ≤ B.val := by
    rw [hB]
    exact Format.le_fl_of_rep Format.Rep.zero (mul_self_nonneg _)
  obtain ⟨Q, hQ⟩ : ∃ Q, Q = A.add B := ⟨_, rfl⟩
  have eQ := h.add A B
  rw [← hQ, abs_of_nonneg (a := A.val + B.val) (add_nonneg A0 B0)] at eQ
  have Q0 : 0 ≤ Q.val := by
    rw [hQ]
    exact Format.le_fl_of_rep Format.Rep.zero (add_nonneg A0 B0)
  have eS := h.sqrt Q Q0
  have hS : speedFl L vx vy = L.sqrt Q := by
    rw [hQ, hA, hB]
    rfl
  rw [hS]
  obtain ⟨N, hN⟩ : ∃ N, N = √(vx.val ^ 2 + vy.val ^ 2) := ⟨_, rfl⟩
  have N0 : 0 ≤ N := hN ▸ sqrt_nonneg _
  have NN : N ^ 2 = vx.val ^ 2 + vy.val ^ 2 := by
    rw [hN]
    exact sq_sqrt (by positivity)
  rw [← hN]
  obtain ⟨R, hR⟩ : ∃ R, R = √Q.val := ⟨_, rfl⟩
  have R0 : 0 ≤ R := hR ▸ sqrt_nonneg _
  have RR : R ^ 2 = Q.val := by
    rw [hR]
    exact sq_sqrt Q0
  rw [← hR] at eS
  have t100 : (2 : ℝ) ^ (-100 : ℤ) = (1 / 1125899906842624) ^ 2 := by norm_num
  have t40 : (2 : ℝ) ^ (-40 : ℤ) = 1024 * (1 / 1125899906842624) := by norm_num
  rw [t100] at eA eB
  rw [t40]
  obtain ⟨κ, hκ⟩ : ∃ κ : ℝ, κ = 1 / 1125899906842624 := ⟨_, rfl⟩
  have κ0 : 0 < κ := by rw [hκ]; norm_num
  rw [← hκ] at eA eB ⊢
  have d1 : |R ^ 2 - N ^ 2| ≤ 9 / 4 * ε * N ^ 2 + 3 * κ ^ 2 := by
    rw [RR, NN]
    rw [abs_le] at eA eB eQ ⊢
    have hx := sq_nonneg vx.val
    have hy := sq_nonneg vy.val
    have hk := sq_nonneg κ
    generalize vx.val ^ 2 = X at *
    generalize vy.val ^ 2 = Y at *
    generalize κ ^ 2 = k at *
    clear hA hB hQ hS NN RR
    generalize A.val = a at *
    generalize B.val = b at *
    generalize Q.val = q at *
    have hsum : a + b ≤ (1 + ε) * (X + Y) + 2 * k := by linarith [eA.2, eB.2]
    have m1 : ε * (a + b) ≤ ε * ((1 + ε) * (X + Y) + 2 * k) := mul_le_mul_of_nonneg_left hsum h0.le
    have m2 : ε * (ε * (X + Y)) ≤ 1 / 4 * (ε * (X + Y)) :=
      mul_le_mul_of_nonneg_right (by linarith) (by positivity)
    have m3 : ε * k ≤ 1 / 4 * k := mul_le_mul_of_nonneg_right (by linarith) hk
    constructor <;> nlinarith [eA.1, eA.2, eB.1, eB.2, eQ.1, eQ.2]
  have d2 : |R - N| ≤ 9 / 4 * ε * N + 8 * κ := by
    have hf : |R ^ 2 - N ^ 2| = |R - N| * (R + N) := by
      rw [show R ^ 2 - N ^ 2 = (R - N) * (R + N) by ring, abs_mul, abs_of_nonneg (add_nonneg R0 N0)]
    rw [hf] at d1
    have ha := abs_nonneg (R - N)
    rcases le_or_gt κ N with hc | hc
    · have h1 : |R - N| * N ≤ (9 / 4 * ε * N + 3 * κ) * N := by
        have : |R - N| * N ≤ |R - N| * (R + N) := mul_le_mul_of_nonneg_left (by linarith) ha
        have : κ ^ 2 ≤ κ * N := by rw [pow_two]; exact mul_le_mul_of_nonneg_left hc κ0.le
        nlinarith
      have := le_of_mul_le_mul_right h1 (lt_of_lt_of_le κ0 hc)
      linarith
    · have hR2 : R ^ 2 ≤ (3 * κ) ^ 2 := by
        rw [← hf, abs_le] at d1
        have : N ^ 2 ≤ κ ^ 2 := pow_le_pow_left₀ N0 hc.le 2
        have : 9 / 4 * ε * N ^ 2 ≤ N ^ 2 := by
          have := sq_nonneg N
          nlinarith
        nlinarith [d1.2]
      have hR3 : R ≤ 3 * κ := le_of_sq_le_sq hR2 (by positivity)
      have : 0 ≤ 9 / 4 * ε * N := by positivity
      rw [abs_le]
      constructor <;> linarith
  have d3 : R ≤ (1 + 9 / 4 * ε) * N + 8 * κ := by
    rw [abs_le] at d2
    linarith [d2.2]
  have d4 : ε * R ≤ ε * ((1 + 9 / 4 * ε) * N + 8 * κ) := mul_le_mul_of_nonneg_left d3 h0.le
  have d5 : ε * (ε * N) ≤ 1 / 100 * (ε * N) := mul_le_mul_of_nonneg_right (by linarith) (by positivity)
  have d6 : ε * κ ≤ κ := by nlinarith
  have : |(L.sqrt Q).val - N| ≤ |(L.sqrt Q).val - R| + |R - N| := by
    rw [show (L.sqrt Q).val - N = ((L.sqrt Q).val - R) + (R - N) by ring]
    exact abs_add_le _ _
  nlinarith

theorem speed_nonneg (h : L.Accurate ε) (vx vy : Flt φ) : 0 ≤ (speedFl L vx vy).val := by
  have hs := h.small
  have hs' : (2 : ℝ) ^ (-22 : ℤ) = 1 / 4194304 := by norm_num
  rw [hs'] at hs
  obtain ⟨Q, hQ⟩ : ∃ Q, Q = (vx.mul vx).add (vy.mul vy) := ⟨_, rfl⟩
  have Q0 : 0 ≤ Q.val := by
    rw [hQ]
    exact Format.le_fl_of_rep Format.Rep.zero (add_nonneg (Format.le_fl_of_rep Format.Rep.zero (mul_self_nonneg _))
      (Format.le_fl_of_rep Format.Rep.zero (mul_self_nonneg _)))
  have := h.sqrt Q Q0
  show 0 ≤ (L.sqrt ((vx.mul vx).add (vy.mul vy))).val
  rw [← hQ]
  have := sqrt_nonneg Q.val
  rename_i e
  rw [abs_le] at e
  nlinarith [e.1]

/-- The computed components of a velocity of signed speed `w` along `yaw`, and the speed computed from them. -/
theorem speed_of_components (h : L.Accurate ε) (w yaw : Flt φ) :
    let vx := w.mul (L.cos yaw)
    let vy := w.mul (L.sin yaw)
    |vx.val - w.val * cos yaw.val| ≤ 9 / 4 * ε * |w.val| + 2 ^ (-100 : ℤ) ∧
    |vy.val - w.val * sin yaw.val| ≤ 9 / 4 * ε * |w.val| + 2 ^ (-100 : ℤ) ∧
    |(speedFl L vx vy).val - (|w.val|)| ≤ 9 * ε * |w.val| + 2 ^ (-39 : ℤ) := by
  intro vx vy
  have h0 := h.pos
  have hs := h.small
  have hs' : (2 : ℝ) ^ (-22 : ℤ) = 1 / 4194304 := by norm_num
  rw [hs'] at hs
  have comp {c : Flt φ} {t : ℝ} (hc : |c.val - t| ≤ ε) (ht : |t| ≤ 1) :
      |(w.mul c).val - w.val * t| ≤ 9 / 4 * ε * |w.val| + 2 ^ (-100 : ℤ) := by
    have e1 := h.mul w c
    rw [abs_mul] at e1
    have hc1 : |c.val| ≤ 1 + ε := by
      rw [show c.val = (c.val - t) + t by ring]
      exact (abs_add_le _ _).trans (by linarith)
    have e2 : |w.val| * |c.val| ≤ |w.val| * (1 + ε) := mul_le_mul_of_nonneg_left hc1 (abs_nonneg _)
    have e3 : |w.val * c.val - w.val * t| ≤ |w.val| * ε := by
      rw [← mul_sub, abs_mul]
      exact mul_le_mul_of_nonneg_left hc (abs_nonneg _)
    have e4 : ε * (|w.val| * |c.val|) ≤ ε * (|w.val| * (1 + ε)) := mul_le_mul_of_nonneg_left e2 h0.le
    have e5 : ε * (ε * |w.val|) ≤ 1 / 4 * (ε * |w.val|) := mul_le_mul_of_nonneg_right (by linarith) (by positivity)
    have : |(w.mul c).val - w.val * t| ≤ |(w.mul c).val - w.val * c.val| + |w.val * c.val - w.val * t| := by
      rw [show (w.mul c).val - w.val * t = ((w.mul c).val - w.val * c.val) + (w.val * c.val - w.val * t) by ring]
      exact abs_add_le _ _
    generalize (2 : ℝ) ^ (-100 : ℤ) = k at *
    have e6 : ε * (|w.val| * (1 + ε)) = ε * |w.val| + ε * (ε * |w.val|) := by ring
    have e7 : |w.val| * ε = ε * |w.val| := mul_comm _ _
    linarith
  have ex : |vx.val - w.val * cos yaw.val| ≤ 9 / 4 * ε * |w.val| + 2 ^ (-100 : ℤ) := comp (h.cos yaw) (abs_cos_le_one _)
  have ey : |vy.val - w.val * sin yaw.val| ≤ 9 / 4 * ε * |w.val| + 2 ^ (-100 : ℤ) := comp (h.sin yaw) (abs_sin_le_one _)
  refine ⟨ex, ey, ?_⟩
  have en := speed_norm h vx vy
  obtain ⟨N, hN⟩ : ∃ N, N = √(vx.val ^ 2 + vy.val ^ 2) := ⟨_, rfl⟩
  rw [← hN] at en
  have eN : |N - (|w.val|)| ≤ 5 * ε * |w.val| + 2 ^ (-98 : ℤ) := by
    have hw : |w.val| = √((w.val * cos yaw.val) ^ 2 + (w.val * sin yaw.val) ^ 2) := by
      rw [show (w.val * cos yaw.val) ^ 2 + (w.val * sin yaw.val) ^ 2 = w.val ^ 2 by
        linear_combination (w.val ^ 2) * (sin_sq_add_cos_sq yaw.val)]
      exact (sqrt_sq_eq_abs _).symm
    have tri : |N - (|w.val|)| ≤ |vx.val - w.val * cos yaw.val| + |vy.val - w.val * sin yaw.val| := by
      have e (a b : ℝ) : √(a ^ 2 + b ^ 2) = ‖(⟨a, b⟩ : ℂ)‖ := by
        rw [Complex.norm_eq_sqrt_sq_add_sq]
      rw [hN, hw, e, e]
      refine (abs_norm_sub_norm_le _ _).trans ?_
      refine (Complex.norm_le_abs_re_add_abs_im _).trans ?_
      simp
    have t1 : (2 : ℝ) ^ (-98 : ℤ) = 4 * 2 ^ (-100 : ℤ) := by norm_num
    rw [t1]
    have : 0 ≤ ε * |w.val| := by positivity
    have : (0 : ℝ) < 2 ^ (-100 : ℤ) := by positivity
    generalize (2 : ℝ) ^ (-100 : ℤ) = k at *
    linarith
  have N1 : N ≤ (1 + 5 * ε) * |w.val| + 2 ^ (-98 : ℤ) := by
    rw [abs_le] at eN
    linarith [eN.2]
  have : |(speedFl L vx vy).val - (|w.val|)| ≤ |(speedFl L vx vy).val - N| + |N - (|w.val|)| := by
    rw [show (speedFl L vx vy).val - |w.val| = ((speedFl L vx vy).val - N) + (N - |w.val|) by ring]
    exact abs_add_le _ _
  have t98 : (2 : ℝ) ^ (-98 : ℤ) ≤ 1 / 100 * 2 ^ (-40 : ℤ) := by norm_num
  have t39 : (2 : ℝ) ^ (-39 : ℤ) = 2 * 2 ^ (-40 : ℤ) := by norm_num
  rw [t39]
  have p40 : (0 : ℝ) < 2 ^ (-40 : ℤ) := by positivity
  have p98 : (0 : ℝ) < 2 ^ (-98 : ℤ) := by positivity
  have hw := abs_nonneg w.val
  generalize (2 : ℝ) ^ (-40 : ℤ) = k at *
  generalize (2 : ℝ) ^ (-98 : ℤ) = k' at *
  generalize |w.val| = W at *
  have m1 : ε * N ≤ ε * ((1 + 5 * ε) * W + k') := mul_le_mul_of_nonneg_left N1 h0.le
  have m2 : ε * (ε * W) ≤ 1 / 100 * (ε * W) := mul_le_mul_of_nonneg_right (by linarith) (by positivity)
  have m3 : ε * k' ≤ k' := by nlinarith
  have m4 : 0 ≤ ε * W := by positivity
  nlinarith

/-! ### Constants -/

/-- Four rounding units of single precision. -/
noncomputable def singleError : ℝ := 1 / 4194304

theorem singleError_eq : singleError = 2 ^ (-22 : ℤ) := by
  unfold singleError
  norm_num

/-- The default time step. -/
noncomputable def tenth : Flt float64 := Flt.round _ 0.1

theorem float64_err (x : ℝ) : |(Flt.round float64 x).val - x| ≤ 1 / 10 ^ 15 * |x| + 1 / 10 ^ 40 := by
  have h := float64.fl_err_tiny x
  have h1 : float64.u ≤ 1 / 10 ^ 15 := by
    show (2 : ℝ) ^ (-(53 : ℤ)) ≤ _
    norm_num
  have h2 : (2 : ℝ) ^ float64.emin ≤ 1 / 10 ^ 40 := by
    refine (zpow_le_zpow_right₀ (by norm_num) (by decide : float64.emin ≤ -200)).trans ?_
    norm_num
  have := mul_le_mul_of_nonneg_right h1 (abs_nonneg x)
  show |float64.fl x - x| ≤ _
  linarith

variable (h : L.Accurate singleError)

include h

theorem pyFloat_close (x : Flt float64) : |(pyFloat φ x).val - x.val| ≤ singleError * |x.val| + 1 / 10 ^ 30 := by
  have := h.fl x.val
  have h2 : (2 : ℝ) ^ (-100 : ℤ) ≤ 1 / 10 ^ 30 := by norm_num
  generalize (2 : ℝ) ^ (-100 : ℤ) = k at *
  show |φ.fl x.val - x.val| ≤ _
  linarith

theorem dt_close : |(pyFloat φ tenth).val - 1 / 10| ≤ 3 / 10 ^ 8 ∧ |(pySquare φ tenth).val - 1 / 100| ≤ 3 / 10 ^ 9 := by
  have e0 : |tenth.val - 1 / 10| ≤ 1 / 10 ^ 15 := by
    have := float64_err 0.1
    rw [abs_of_pos (by norm_num : (0 : ℝ) < 0.1)] at this
    rw [show (1 / 10 : ℝ) = 0.1 by norm_num]
    exact this.trans (by norm_num)
  have e1 : |(tenth.mul tenth).val - 1 / 100| ≤ 1 / 10 ^ 14 := by
    have h1 := float64_err (tenth.val * tenth.val)
    rw [abs_le] at e0
    have p1 : 0 ≤ tenth.val := by norm_num at e0; linarith [e0.1]
    have b1 : tenth.val * tenth.val ≤ 1 / 100 + 1 / 10 ^ 15 := by nlinarith [e0.2]
    have b2 : 1 / 100 - 1 / 10 ^ 15 ≤ tenth.val * tenth.val := by nlinarith [e0.1]
    rw [abs_of_nonneg (mul_self_nonneg tenth.val)] at h1
    have : (tenth.mul tenth).val = (Flt.round float64 (tenth.val * tenth.val)).val := rfl
    rw [this]
    rw [abs_le] at h1 ⊢
    norm_num at *
    constructor <;> linarith [h1.1, h1.2]
  constructor
  · have h1 := pyFloat_close h tenth
    have : |tenth.val| ≤ 11 / 100 := by
      rw [abs_le] at e0 ⊢
      norm_num at e0
      constructor <;> linarith [e0.1, e0.2]
    unfold singleError at h1
    rw [abs_le] at e0 h1 ⊢
    norm_num at *
    constructor <;> linarith [h1.1, h1.2, e0.1, e0.2]
  · have h1 := pyFloat_close h (tenth.mul tenth)
    have : |(tenth.mul tenth).val| ≤ 11 / 1000 := by
      rw [abs_le] at e1 ⊢
      norm_num at e1
      constructor <;> linarith [e1.1, e1.2]
    unfold singleError at h1
    unfold pySquare
    rw [abs_le] at e1 h1 ⊢
    norm_num at *
    constructor <;> linarith [h1.1, h1.2, e1.1, e1.2]

theorem speedLimit_close : |(speedLimitFl φ).val - 6 / 10| ≤ 2 / 10 ^ 7 := by
  have e0 := float64_err 0.6
  rw [abs_of_pos (by norm_num : (0 : ℝ) < 0.6)] at e0
  have h1 := pyFloat_close h (Flt.round _ 0.6)
  have : |(Flt.round float64 0.6).val| ≤ 61 / 100 := by
    rw [abs_le] at e0 ⊢
    norm_num at e0 ⊢
    constructor <;> linarith [e0.1, e0.2]
  unfold singleError at h1
  unfold speedLimitFl
  rw [abs_le] at e0 h1 ⊢
  norm_num at *
  constructor <;> linarith [h1.1, h1.2, e0.1, e0.2]

omit h in
theorem half_eq : (Flt.round φ 0.5).val = 1 / 2 := by
  have := φ.two_le
  have := φ.normal_one
  show φ.fl 0.5 = 1 / 2
  rw [show (0.5 : ℝ) = 1 / 2 by norm_num]
  refine Format.fl_of_rep ⟨1, -1, ?_, by omega, by norm_num⟩
  rw [abs_one]
  exact_mod_cast Nat.one_lt_two_pow (by omega)

/-! ### Distance travelled -/

theorem travel_close {s c : Flt φ} (hs : 0 ≤ s.val) :
    |(travelFl tenth s c).val - (s.val * (pyFloat φ tenth).val + c.val / 2 * (pySquare φ tenth).val)| ≤
      singleError * (211 / 1000 * s.val + 18 / 1000 * |c.val|) + 1 / 10 ^ 20 := by
  obtain ⟨t1, t2⟩ := dt_close h
  obtain ⟨τ, hτ⟩ : ∃ τ, τ = pyFloat φ tenth := ⟨_, rfl⟩
  obtain ⟨τ2, hτ2⟩ : ∃ τ2, τ2 = pySquare φ tenth := ⟨_, rfl⟩
  obtain ⟨H, hH⟩ : ∃ H, H = (Flt.round φ 0.5).mul c := ⟨_, rfl⟩
  obtain ⟨A, hA⟩ : ∃ A, A = s.mul τ := ⟨_, rfl⟩
  obtain ⟨B, hB⟩ : ∃ B, B = H.mul τ2 := ⟨_, rfl⟩
  have e1 := h.mul (Flt.round φ 0.5) c
  rw [← hH, half_eq] at e1
  have e2 := h.mul s τ
  rw [← hA] at e2
  have e3 := h.mul H τ2
  rw [← hB] at e3
  have e4 := h.add A B
  have ht : travelFl tenth s c = A.add B := by
    rw [hA, hB, hH, hτ, hτ2]
    rfl
  rw [ht, ← hτ, ← hτ2]
  rw [← hτ] at t1
  rw [← hτ2] at t2
  have tiny : (2 : ℝ) ^ (-100 : ℤ) ≤ 1 / 10 ^ 30 := by norm_num
  have tiny0 : (0 : ℝ) < 2 ^ (-100 : ℤ) := by positivity
  clear hA hB hH hτ hτ2 ht
  generalize (2 : ℝ) ^ (-100 : ℤ) = k at *
  generalize (A.add B).val = R at *
  generalize A.val = a at *
  generalize B.val = b at *
  generalize H.val = g at *
  generalize τ.val = t at *
  generalize τ2.val = q at *
  generalize s.val = v at *
  generalize c.val = w at *
  have t0 : 0 ≤ t ∧ t ≤ 1001 / 10000 := by
    rw [abs_le] at t1
    norm_num at t1
    constructor <;> linarith [t1.1, t1.2]
  have q0 : 0 ≤ q ∧ q ≤ 1001 / 100000 := by
    rw [abs_le] at t2
    norm_num at t2
    constructor <;> linarith [t2.1, t2.2]
  have hw := abs_nonneg w
  -- half of the acceleration
  rw [abs_mul, abs_of_pos (by norm_num : (0 : ℝ) < 1 / 2)] at e1
  have g1 : |g| ≤ (1 + singleError) * (1 / 2 * |w|) + k := by
    have : |g| ≤ |g - 1 / 2 * w| + |1 / 2 * w| := by
      rw [show g = (g - 1 / 2 * w) + 1 / 2 * w by ring]
      simpa using abs_add_le (g - 1 / 2 * w) (1 / 2 * w)
    rw [abs_mul, abs_of_pos (by norm_num : (0 : ℝ) < 1 / 2)] at this
    linarith
  rw [abs_mul, abs_of_nonneg q0.1] at e3
  have g2 : |g| * q ≤ ((1 + singleError) * (1 / 2 * |w|) + k) * (1001 / 100000) :=
    mul_le_mul g1 q0.2 q0.1 (by unfold singleError; positivity)
  have g3 : |g * q - w / 2 * q| ≤ (singleError * (1 / 2 * |w|) + k) * (1001 / 100000) := by
    rw [show g * q - w / 2 * q = (g - 1 / 2 * w) * q by ring, abs_mul, abs_of_nonneg q0.1]
    exact mul_le_mul e1 q0.2 q0.1 (by unfold singleError; positivity)
  have g4 : |b - w / 2 * q| ≤ |b - g * q| + |g * q - w / 2 * q| := by
    rw [show b - w / 2 * q = (b - g * q) + (g * q - w / 2 * q) by ring]
    exact abs_add_le _ _
  rw [abs_of_nonneg (mul_nonneg hs t0.1)] at e2
  have s1 : v * t ≤ v * (1001 / 10000) := mul_le_mul_of_nonneg_left t0.2 hs
  have s2 : 0 ≤ v * t := mul_nonneg hs t0.1
  have w1 : |w / 2 * q| ≤ |w| * (1001 / 200000) := by
    rw [abs_mul, abs_div, abs_two, abs_of_nonneg q0.1]
    have := mul_le_mul_of_nonneg_left q0.2 hw
    linarith
  have f1 : |a + b| ≤ |a - v * t| + v * t + |b - w / 2 * q| + |w / 2 * q| := by
    have := abs_add_three (a - v * t) (v * t) (b - w / 2 * q)
    have := abs_add_le ((a - v * t) + (v * t) + (b - w / 2 * q)) (w / 2 * q)
    rw [abs_of_nonneg s2] at *
    rw [show a + b = (a - v * t) + (v * t) + (b - w / 2 * q) + w / 2 * q by ring]
    linarith
  have f2 : |R - (v * t + w / 2 * q)| ≤ |R - (a + b)| + |a - v * t| + |b - w / 2 * q| := by
    rw [show R - (v * t + w / 2 * q) = (R - (a + b)) + (a - v * t) + (b - w / 2 * q) by ring]
    exact abs_add_three _ _ _
  generalize |w / 2 * q| = W at *
  generalize |w| = w' at *
  unfold singleError at *
  norm_num at *
  linarith

/-! ### Angles -/

omit h in
/-- An angle in range which agrees with `g` up to turns and an error is not larger than `g` by more than the error. -/
theorem abs_le_of_turns {p d g E : ℝ} {K : ℤ} (hp : 0 < p) (hd : |d| ≤ p) (hE : |d - (g - 2 * p * K)| ≤ E) : |d| ≤ |g| + E := by
  rcases eq_or_ne K 0 with rfl | hK
  · simp only [Int.cast_zero, mul_zero, sub_zero] at hE
    have := abs_sub_abs_le_abs_sub d g
    linarith
  · have h1 : (1 : ℝ) ≤ |(K : ℝ)| := by exact_mod_cast Int.one_le_abs hK
    have h2 : |2 * p * (K : ℝ)| ≤ |d| + |g| + |d - (g - 2 * p * K)| := by
      rw [show 2 * p * (K : ℝ) = (d - (g - 2 * p * K)) + g + -d by ring]
      refine (abs_add_three _ _ _).trans ?_
      rw [abs_neg]
      ring_nf
      linarith
    rw [abs_mul, abs_of_pos (by linarith : 0 < 2 * p)] at h2
    nlinarith

omit h in
/-- An angle with small sine and positive cosine is close to a multiple of a turn. -/
theorem turns_of_sin {x b : ℝ} (hc : 0 < cos x) (hs : |sin x| ≤ b) : ∃ k : ℤ, |x - k * (2 * π)| ≤ π / 2 * b := by
  have key : ∀ y : ℝ, 0 ≤ y → y ≤ π / 2 → y ≤ π / 2 * sin y := by
    intro y h0 h1
    have := Real.mul_le_sin h0 h1
    have hp := Real.pi_pos
    rw [div_mul_eq_mul_div, div_le_iff₀ hp] at this
    linarith
  refine ⟨round (x / (2 * π)), ?_⟩
  have hp := Real.pi_pos
  obtain ⟨k, hk⟩ : ∃ k, k = round (x / (2 * π)) := ⟨_, rfl⟩
  have hr := abs_sub_round (x / (2 * π))
  rw [← hk] at hr ⊢
  obtain ⟨y, hy⟩ : ∃ y, y = x - k * (2 * π) := ⟨_, rfl⟩
  have hy1 : |y| ≤ π := by
    rw [hy, show x - k * (2 * π) = (x / (2 * π) - k) * (2 * π) by field_simp, abs_mul, abs_of_pos (by linarith : 0 < 2 * π)]
    nlinarith
  have ec : cos y = cos x := by rw [hy]; exact Real.cos_sub_int_mul_two_pi x k
  have es : sin y = sin x := by rw [hy]; exact Real.sin_sub_int_mul_two_pi x k
  rw [← ec] at hc
  rw [← es] at hs
  rw [← hy]
  have hy2 : |y| < π / 2 := by
    by_contra hn
    have := Real.cos_nonpos_of_pi_div_two_le_of_le (x := |y|) (not_lt.1 hn) (by linarith)
    rw [Real.cos_abs] at this
    linarith
  rw [abs_lt] at hy2
  rcases le_total 0 y with h0 | h0
  · have := key y h0 hy2.2.le
    rw [abs_of_nonneg h0]
    nlinarith [le_abs_self (sin y)]
  · have := key (-y) (by linarith) (by linarith [hy2.1])
    rw [abs_of_nonpos h0]
    rw [Real.sin_neg] at this
    nlinarith [neg_abs_le (sin y)]

theorem pi_close : |(Flt.pi φ).val - π| ≤ 32 / 10 * singleError := by
  have h1 := pyFloat_close h (Flt.round _ π)
  have h2 := float64_err π
  have h3 := Real.pi_gt_d4
  have h4 := Real.pi_lt_d4
  rw [abs_of_pos Real.pi_pos] at h2
  have h5 : |(Flt.round float64 π).val| ≤ 315 / 100 := by
    rw [abs_le] at h2 ⊢
    norm_num at *
    constructor <;> linarith [h2.1, h2.2]
  have h6 : (Flt.pi φ) = pyFloat φ (Flt.round float64 π) := rfl
  rw [h6]
  unfold singleError at *
  rw [abs_le] at h1 h2 ⊢
  norm_num at *
  constructor <;> linarith [h1.1, h1.2, h2.1, h2.2]

theorem wrap_close (y : Flt φ) : ∃ k : ℤ, |y.wrapYaws.val - (y.val - k * (2 * (Flt.pi φ).val))| ≤ singleError * (|y.val| + 126 / 10) := by
  obtain ⟨k, hk⟩ := C132_same_angle y
  refine ⟨k, hk.trans ?_⟩
  have h1 := pi_close h
  have h4 := Real.pi_lt_d4
  have hp := Flt.pi_pos (φ := φ)
  have h5 : (Flt.pi φ).val ≤ 315 / 100 := by
    unfold singleError at h1
    rw [abs_le] at h1
    norm_num at *
    linarith [h1.2]
  have := mul_le_mul h.unit (by linarith : |y.val| + 4 * (Flt.pi φ).val ≤ |y.val| + 126 / 10)
    (by have := abs_nonneg y.val; linarith) h.pos.le
  exact this

/-- The heading read off a velocity made from a speed and a heading is that heading, up to turns and rounding. -/
theorem heading_of_components {w y vx vy : Flt φ} (hw : 1 / 2 ≤ w.val) (hx : vx = w.mul (L.cos y)) (hy : vy = w.mul (L.sin y)) :
    ∃ k : ℤ, |Waymax.arctan2 vy.val vx.val - y.val - k * (2 * π)| ≤ 73 / 10 * singleError := by
  obtain ⟨e1, e2, -⟩ := speed_of_components h w y
  rw [← hx] at e1
  rw [← hy] at e2
  obtain ⟨a1, a2⟩ := arctan2_heading vx.val vy.val
  rw [abs_of_pos (by linarith : 0 < w.val)] at e1 e2
  obtain ⟨R, hR⟩ : ∃ R, R = norm2 (vx.val, vy.val) := ⟨_, rfl⟩
  have hR0 : 0 ≤ R := by rw [hR]; exact Real.sqrt_nonneg _
  obtain ⟨θ, hθ⟩ : ∃ θ, θ = Waymax.arctan2 vy.val vx.val := ⟨_, rfl⟩
  rw [← hR, ← hθ] at a1 a2
  rw [← hθ]
  have tiny : (2 : ℝ) ^ (-100 : ℤ) ≤ 1 / 10 ^ 30 := by norm_num
  generalize (2 : ℝ) ^ (-100 : ℤ) = t at *
  have cs := sin_sq_add_cos_sq y.val
  have c1 := abs_cos_le_one y.val
  have s1 := abs_sin_le_one y.val
  have hb : 9 / 4 * singleError * w.val + t ≤ 226 / 100 * singleError * w.val := by
    unfold singleError
    norm_num at tiny
    linarith
  have d1 := e1.trans hb
  have d2 := e2.trans hb
  -- the components of the velocity along and across the heading
  have along : |R * cos (θ - y.val) - w.val| ≤ 452 / 100 * singleError * w.val := by
    rw [cos_sub, show R * (cos θ * cos y.val + sin θ * sin y.val) - w.val =
      (vx.val - w.val * cos y.val) * cos y.val + (vy.val - w.val * sin y.val) * sin y.val by
        rw [mul_add, ← mul_assoc, ← mul_assoc, ← a1, ← a2]; linear_combination w.val * cs]
    refine (abs_add_le _ _).trans ?_
    rw [abs_mul, abs_mul]
    have := mul_le_mul d1 c1 (abs_nonneg _) ((abs_nonneg _).trans d1)
    have := mul_le_mul d2 s1 (abs_nonneg _) ((abs_nonneg _).trans d2)
    linarith
  have across : |R * sin (θ - y.val)| ≤ 452 / 100 * singleError * w.val := by
    rw [sin_sub, show R * (sin θ * cos y.val - cos θ * sin y.val) =
      (vy.val - w.val * sin y.val) * cos y.val + -(vx.val - w.val * cos y.val) * sin y.val by
        rw [mul_sub, ← mul_assoc, ← mul_assoc, ← a1, ← a2]; ring]
    refine (abs_add_le _ _).trans ?_
    rw [abs_mul, abs_mul, abs_neg]
    have := mul_le_mul d2 c1 (abs_nonneg _) ((abs_nonneg _).trans d2)
    have := mul_le_mul d1 s1 (abs_nonneg _) ((abs_nonneg _).trans d1)
    linarith
  have hRc : (1 - 452 / 100 * singleError) * w.val ≤ R * cos (θ - y.val) := by
    rw [abs_le] at along
    linarith [along.1]
  have hpos : 0 < R * cos (θ - y.val) := lt_of_lt_of_le (by unfold singleError; norm_num; linarith) hRc
  have hR1 : 0 < R := by
    rcases hR0.eq_or_lt with h0 | h0
    · rw [← h0, zero_mul] at hpos
      exact absurd hpos (lt_irrefl _)
    · exact h0
  have hcos : 0 < cos (θ - y.val) := (pos_iff_pos_of_mul_pos hpos).1 hR1
  have hR2 : (1 - 452 / 100 * singleError) * w.val ≤ R := by
    have := mul_le_mul_of_nonneg_left (cos_le_one (θ - y.val)) hR0
    linarith
  have hsin : |sin (θ - y.val)| ≤ 46 / 10 * singleError := by
    rw [abs_mul, abs_of_pos hR1] at across
    have : 46 / 10 * singleError * ((1 - 452 / 100 * singleError) * w.val) ≤ 46 / 10 * singleError * R :=
      mul_le_mul_of_nonneg_left hR2 (by unfold singleError; norm_num)
    have h3 : 452 / 100 * singleError * w.val ≤ 46 / 10 * singleError * ((1 - 452 / 100 * singleError) * w.val) := by
      unfold singleError
      norm_num
      linarith
    have h4 : R * |sin (θ - y.val)| ≤ R * (46 / 10 * singleError) := by linarith
    exact le_of_mul_le_mul_left h4 hR1
  obtain ⟨k, hk⟩ := turns_of_sin hcos hsin
  refine ⟨k, hk.trans ?_⟩
  have := Real.pi_lt_d2
  unfold singleError
  norm_num at *
  linarith

/-! ### One step, as numbers -/

omit h in
theorem abs_le_add_sub (x y : ℝ) : |x| ≤ |y| + |x - y| := by
  have := abs_sub_abs_le_abs_sub x y
  linarith

omit h in
/-- The change of speed seen by the inverse, and the acceleration it finds. -/
theorem accel_numbers {t s a m nv ns d a' : ℝ} (ht : |t - 1 / 10| ≤ 3 / 10 ^ 8) (hs : 0 ≤ s) (hs' : s ≤ 100) (ha : |a| ≤ 111 / 10)
    (h1 : |m - a * t| ≤ singleError * |a * t| + 1 / 10 ^ 30) (h2 : |nv - (s + m)| ≤ singleError * |s + m|)
    (h3 : |ns - (|nv|)| ≤ 9 * singleError * |nv| + 2 / 10 ^ 12) (h4 : |d - (ns - s)| ≤ singleError * |ns - s|)
    (h5 : |a' - d / t| ≤ singleError * |d / t| + singleError) :
    |nv - s| ≤ |a| * t + singleError * (s + 24 / 10) ∧ |ns - s| ≤ |a| * t + singleError * (11 * s + 14) ∧
      |ns - s| ≤ 112 / 100 ∧ |a' - (ns - s) / t| ≤ 25 * singleError ∧ |a'| ≤ |a| + singleError * (111 * s + 180) := by
  have t0 : 0 < t ∧ t ≤ 1000001 / 10000000 ∧ 999999 / 10000000 ≤ t := by
    rw [abs_le] at ht
    norm_num at ht
    refine ⟨?_, ?_, ?_⟩ <;> linarith [ht.1, ht.2]
  have hA := abs_nonneg a
  have at0 : |a| * t ≤ 111 / 10 * (1000001 / 10000000) := mul_le_mul ha t0.2.1 t0.1.le (by norm_num)
  have at1 : 0 ≤ |a| * t := mul_nonneg hA t0.1.le
  rw [abs_mul, abs_of_pos t0.1] at h1
  have m1 : |m| ≤ |a| * t + (singleError * (|a| * t) + 1 / 10 ^ 30) := by
    have := abs_le_add_sub m (a * t)
    rw [abs_mul, abs_of_pos t0.1] at this
    linarith
  have sm : |s + m| ≤ s + |m| := by
    have := abs_add_le s m
    rwa [abs_of_nonneg hs] at this
  have r1 : |nv - s| ≤ |a| * t + singleError * (s + 24 / 10) := by
    have : |nv - s| ≤ |nv - (s + m)| + |m| := by
      rw [show nv - s = (nv - (s + m)) + m by ring]
      exact abs_add_le _ _
    unfold singleError at *
    norm_num at *
    linarith
  have r2 : |ns - s| ≤ |a| * t + singleError * (11 * s + 14) := by
    have i1 : |(|nv|) - s| ≤ |nv - s| := by
      have := abs_abs_sub_abs_le nv s
      rwa [abs_of_nonneg hs] at this
    have i2 : |ns - s| ≤ |ns - (|nv|)| + |(|nv|) - s| := by
      rw [show ns - s = (ns - |nv|) + (|nv| - s) by ring]
      exact abs_add_le _ _
    have i3 : |nv| ≤ s + |nv - s| := by
      have := abs_le_add_sub nv s
      rwa [abs_of_nonneg hs] at this
    unfold singleError at *
    norm_num at *
    linarith
  have r3 : |ns - s| ≤ 112 / 100 := by
    unfold singleError at *
    norm_num at *
    linarith
  have hd : |d| ≤ (1 + singleError) * |ns - s| := by
    have := abs_le_add_sub d (ns - s)
    linarith
  have hdt : |d / t| * t = |d| := by
    rw [abs_div, abs_of_pos t0.1, div_mul_cancel₀ _ t0.1.ne']
  have hdt' : |d / t| ≤ 1121 / 100 := by
    have : |d / t| * (999999 / 10000000) ≤ |d| := by
      rw [← hdt]
      exact mul_le_mul_of_nonneg_left t0.2.2 (abs_nonneg _)
    unfold singleError at *
    norm_num at *
    linarith
  have hq : |d / t - (ns - s) / t| ≤ 1121 / 100 * singleError := by
    rw [← sub_div, abs_div, abs_of_pos t0.1, div_le_iff₀ t0.1]
    have : 1121 / 100 * singleError * (999999 / 10000000) ≤ 1121 / 100 * singleError * t :=
      mul_le_mul_of_nonneg_left t0.2.2 (by unfold singleError; norm_num)
    unfold singleError at *
    norm_num at *
    linarith
  have r4 : |a' - (ns - s) / t| ≤ 25 * singleError := by
    have : |a' - (ns - s) / t| ≤ |a' - d / t| + |d / t - (ns - s) / t| := by
      rw [show a' - (ns - s) / t = (a' - d / t) + (d / t - (ns - s) / t) by ring]
      exact abs_add_le _ _
    unfold singleError at *
    norm_num at *
    linarith
  refine ⟨r1, r2, r3, r4, ?_⟩
  have r5 : |(ns - s) / t| ≤ |a| + singleError * (111 * s + 145) := by
    rw [abs_div, abs_of_pos t0.1, div_le_iff₀ t0.1]
    refine r2.trans ?_
    rw [add_mul]
    have : singleError * (111 * s + 145) * (999999 / 10000000) ≤ singleError * (111 * s + 145) * t :=
      mul_le_mul_of_nonneg_left t0.2.2 (by unfold singleError; positivity)
    unfold singleError at *
    norm_num at *
    linarith
  have := abs_le_add_sub a' ((ns - s) / t)
  have e : singleError * (111 * s + 180) = singleError * (111 * s + 145) + 35 * singleError := by ring
  have : 0 < singleError := by unfold singleError; norm_num
  linarith

set_option maxHeartbeats 1000000 in
omit h in
/-- The distances travelled that the model and the inverse compute. -/
theorem travel_numbers {t q s a m nv ns d a' Du Di : ℝ} (ht : |t - 1 / 10| ≤ 3 / 10 ^ 8) (hq : |q - 1 / 100| ≤ 3 / 10 ^ 9)
    (hs' : s ≤ 100) (ha : |a| ≤ 111 / 10)
    (h1 : |m - a * t| ≤ singleError * |a * t| + 1 / 10 ^ 30) (h2 : |nv - (s + m)| ≤ singleError * |s + m|)
    (h3 : |ns - (|nv|)| ≤ 9 * singleError * |nv| + 2 / 10 ^ 12) (h4 : |d - (ns - s)| ≤ singleError * |ns - s|)
    (h5 : |a' - d / t| ≤ singleError * |d / t| + singleError)
    (hu : |Du - (s * t + a / 2 * q)| ≤ singleError * (211 / 1000 * s + 18 / 1000 * |a|) + 1 / 10 ^ 20)
    (hi : |Di - (s * t + a' / 2 * q)| ≤ singleError * (211 / 1000 * s + 18 / 1000 * |a'|) + 1 / 10 ^ 20)
    (hsl : 599 / 1000 ≤ s) (hnl : 599 / 1000 ≤ ns) :
    1 / 2 ≤ nv ∧ |Du - Di| ≤ singleError * (s + 2) ∧ 49 / 1000 * (s + 599 / 1000) ≤ Di := by
  have hs : 0 ≤ s := by linarith
  obtain ⟨r1, r2, r3, r4, r5⟩ := accel_numbers ht hs hs' ha h1 h2 h3 h4 h5
  have t0 : 0 < t ∧ t ≤ 1000001 / 10000000 ∧ 999999 / 10000000 ≤ t := by
    rw [abs_le] at ht
    norm_num at ht
    refine ⟨?_, ?_, ?_⟩ <;> linarith [ht.1, ht.2]
  have q0 : 0 < q ∧ q ≤ 1000001 / 100000000 ∧ 999999 / 100000000 ≤ q := by
    rw [abs_le] at hq
    norm_num at hq
    refine ⟨?_, ?_, ?_⟩ <;> linarith [hq.1, hq.2]
  have hA := abs_nonneg a
  have at0 : |a| * t ≤ 111 / 10 * (1000001 / 10000000) := mul_le_mul ha t0.2.1 t0.1.le (by norm_num)
  -- the new speed is positive
  have nv1 : -(52 / 100) ≤ nv := by
    have := (abs_le.1 r1).1
    unfold singleError at *
    norm_num at *
    linarith
  have nvb : |nv| ≤ s + 12 / 10 := by
    have := abs_le_add_sub nv s
    rw [abs_of_nonneg hs] at this
    unfold singleError at *
    norm_num at *
    linarith
  have nv2 : 598 / 1000 ≤ |nv| := by
    have := (abs_le.1 h3).2
    unfold singleError at *
    norm_num at *
    linarith
  have nv3 : 0 < nv := by
    by_contra hn
    rw [abs_of_nonpos (not_lt.1 hn)] at nv2
    linarith
  rw [abs_of_pos nv3] at h3 nv2 nvb
  have a'b : |a'| ≤ 12 := by
    unfold singleError at *
    norm_num at *
    linarith
  -- the square of the time step
  have tq : |q - t * t| ≤ 91 / 10 ^ 10 := by
    have e : t * t - 1 / 100 = (t - 1 / 10) * (t + 1 / 10) := by ring
    have : |t * t - 1 / 100| ≤ 3 / 10 ^ 8 * (2000001 / 10000000) := by
      rw [e, abs_mul, abs_of_pos (by linarith : 0 < t + 1 / 10)]
      exact mul_le_mul ht (by linarith) (by linarith) (by norm_num)
    rw [abs_le] at this hq ⊢
    norm_num at *
    constructor <;> linarith [this.1, this.2, hq.1, hq.2]
  -- the distance of the model
  have u1 : |a / 2 * q - (nv - s) * t / 2| ≤ 5 / 100 * singleError * (s + 1013 / 1000 * s / 100 + 8) := by
    have e : a / 2 * q - (nv - s) * t / 2 = a / 2 * (q - t * t) + -((nv - (s + m)) * (t / 2)) + -((m - a * t) * (t / 2)) := by ring
    rw [e]
    refine (abs_add_three _ _ _).trans ?_
    rw [abs_neg, abs_neg, abs_mul, abs_mul, abs_mul, abs_div, abs_two, abs_of_pos (by linarith : 0 < t / 2)]
    have i1 : |a| / 2 * |q - t * t| ≤ 111 / 20 * (91 / 10 ^ 10) := mul_le_mul (by linarith) tq (abs_nonneg _) (by norm_num)
    have m0 : |a * t| ≤ 112 / 100 := by
      rw [abs_mul, abs_of_pos t0.1]
      norm_num at *
      linarith
    have m1 : |m| ≤ 113 / 100 := by
      have := abs_le_add_sub m (a * t)
      unfold singleError at *
      norm_num at *
      linarith
    have sm : |s + m| ≤ s + 113 / 100 := by
      have := abs_add_le s m
      rw [abs_of_nonneg hs] at this
      linarith
    have i2 : |nv - (s + m)| * (t / 2) ≤ singleError * (s + 113 / 100) * (1000001 / 20000000) :=
      mul_le_mul (h2.trans (mul_le_mul_of_nonneg_left sm (by unfold singleError; norm_num))) (by linarith) (by linarith)
        (by unfold singleError; positivity)
    have i3 : |m - a * t| * (t / 2) ≤ (singleError * (112 / 100) + 1 / 10 ^ 30) * (1000001 / 20000000) :=
      mul_le_mul (h1.trans (by have := mul_le_mul_of_nonneg_left m0 (by unfold singleError; norm_num : 0 ≤ singleError); linarith))
        (by linarith) (by linarith) (by unfold singleError; positivity)
    unfold singleError at *
    norm_num at *
    linarith
  have u2 : |(nv - s) * t / 2 - (ns - s) * t / 2| ≤ singleError * (46 / 100 * s + 56 / 100) := by
    rw [show (nv - s) * t / 2 - (ns - s) * t / 2 = -((ns - nv) * (t / 2)) by ring, abs_neg, abs_mul, abs_of_pos (by linarith : 0 < t / 2)]
    have b1 : |ns - nv| ≤ 9 * singleError * (s + 12 / 10) + 2 / 10 ^ 12 := by
      have := mul_le_mul_of_nonneg_left nvb (by unfold singleError; norm_num : 0 ≤ 9 * singleError)
      linarith
    have := mul_le_mul b1 (by linarith : t / 2 ≤ 1000001 / 20000000) (by linarith) (by unfold singleError; positivity)
    unfold singleError at *
    norm_num at *
    linarith
  have u3 : |a' / 2 * q - (ns - s) * t / 2| ≤ singleError * (42 / 100) := by
    have e : a' / 2 * q - (ns - s) * t / 2 = (a' - (ns - s) / t) * (q / 2) + (ns - s) / t / 2 * (q - t * t) := by
      have := t0.1.ne'
      field_simp
      ring
    rw [e]
    refine (abs_add_le _ _).trans ?_
    rw [abs_mul, abs_mul, abs_of_pos (by linarith : 0 < q / 2)]
    have i1 := mul_le_mul r4 (by linarith : q / 2 ≤ 1000001 / 200000000) (by linarith) (by unfold singleError; norm_num)
    have n1 : |(ns - s) / t / 2| ≤ 561 / 100 := by
      rw [abs_div, abs_div, abs_two, abs_of_pos t0.1, div_div, div_le_iff₀ (by linarith)]
      linarith
    have i2 := mul_le_mul n1 tq (abs_nonneg _) (by norm_num)
    unfold singleError at *
    norm_num at *
    linarith
  refine ⟨by linarith, ?_, ?_⟩
  · have : |Du - Di| ≤ |Du - (s * t + a / 2 * q)| + |a / 2 * q - (nv - s) * t / 2| + |(nv - s) * t / 2 - (ns - s) * t / 2| +
        |a' / 2 * q - (ns - s) * t / 2| + |Di - (s * t + a' / 2 * q)| := by
      rw [show Du - Di = (Du - (s * t + a / 2 * q)) + (a / 2 * q - (nv - s) * t / 2) + ((nv - s) * t / 2 - (ns - s) * t / 2) +
        -(a' / 2 * q - (ns - s) * t / 2) + -(Di - (s * t + a' / 2 * q)) by ring]
      have j1 := abs_add_le ((Du - (s * t + a / 2 * q)) + (a / 2 * q - (nv - s) * t / 2) + ((nv - s) * t / 2 - (ns - s) * t / 2) +
        -(a' / 2 * q - (ns - s) * t / 2)) (-(Di - (s * t + a' / 2 * q)))
      have j2 := abs_add_le ((Du - (s * t + a / 2 * q)) + (a / 2 * q - (nv - s) * t / 2) + ((nv - s) * t / 2 - (ns - s) * t / 2))
        (-(a' / 2 * q - (ns - s) * t / 2))
      have j3 := abs_add_three (Du - (s * t + a / 2 * q)) (a / 2 * q - (nv - s) * t / 2) ((nv - s) * t / 2 - (ns - s) * t / 2)
      rw [abs_neg] at j1 j2
      linarith
    unfold singleError at *
    norm_num at *
    linarith
  · have k1 := (abs_le.1 hi).1
    have k2 := (abs_le.1 u3).1
    have k3 : 999999 / 20000000 * (s + 599 / 1000) ≤ t / 2 * (s + ns) :=
      mul_le_mul (by linarith) (by linarith) (by linarith) (by linarith)
    have k4 : s * t + (ns - s) * t / 2 = t / 2 * (s + ns) := by ring
    unfold singleError at *
    norm_num at *
    linarith

end

end Waymax
