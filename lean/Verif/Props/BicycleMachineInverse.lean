import Verif.Props.BicycleMachineDrift
/-
C136 and C137, the inverse: how close the expert's action in machine arithmetic is to the expert's action over the real numbers, and which
turns the kinematic metric flags.
-/

namespace Waymax

open Real

/-! ### Angles of the smallest size -/

theorem abs_wrapYaws_le (x : ℝ) : |wrapYaws x| ≤ π := by
  obtain ⟨h1, h2⟩ := C21_wrap_range x
  exact abs_le.2 ⟨h1, h2.le⟩

/-- An angle within half a turn (up to `δ`) is no larger than any angle that differs by full turns (up to `2 δ`). -/
theorem abs_le_turn {w δ : ℝ} (hδ : 0 ≤ δ) (h : |w| ≤ π + δ) (k : ℤ) : |w| ≤ |w - k * (2 * π)| + 2 * δ := by
  have hp := pi_pos
  rcases lt_trichotomy k 0 with hk | hk | hk
  · have hk1 : (k : ℝ) ≤ -1 := by exact_mod_cast (by omega : k ≤ -1)
    rw [abs_le] at h
    have h3 := le_abs_self (w - k * (2 * π))
    rcases abs_cases w with ⟨e, -⟩ | ⟨e, -⟩ <;> rw [e] <;> nlinarith
  · subst hk
    simp only [Int.cast_zero, zero_mul, sub_zero]
    linarith
  · have hk1 : (1 : ℝ) ≤ k := by exact_mod_cast (by omega : 1 ≤ k)
    rw [abs_le] at h
    have h3 := neg_le_abs (w - k * (2 * π))
    rcases abs_cases w with ⟨e, -⟩ | ⟨e, -⟩ <;> rw [e] <;> nlinarith

/-- The sizes of two angles within half a turn that are the same up to full turns and `e`. -/
theorem AnglesWithin.abs_le {e a b δ : ℝ} (h : AnglesWithin e a b) (hδ : 0 ≤ δ) (ha : |a| ≤ π + δ) (hb : |b| ≤ π) :
    |(|a|) - (|b|)| ≤ e + 2 * δ := by
  obtain ⟨k, hk⟩ := h
  have h1 := abs_le_turn hδ ha k
  have h2 := abs_le_turn le_rfl (by simpa using hb) (-k)
  have h3 : |a - k * (2 * π)| ≤ |b| + e := by
    have := abs_add_le b (a - b - k * (2 * π))
    rw [show b + (a - b - k * (2 * π)) = a - k * (2 * π) by ring] at this
    linarith
  have h4 : |b - ((-k : ℤ) : ℝ) * (2 * π)| ≤ |a| + e := by
    have := abs_add_le a (-(a - b - k * (2 * π)))
    rw [show a + -(a - b - k * (2 * π)) = b - ((-k : ℤ) : ℝ) * (2 * π) by push_cast; ring, abs_neg] at this
    linarith
  rw [_root_.abs_le]
  constructor <;> linarith

/-- Away from half a turn the angles themselves are close. -/
theorem AnglesWithin.sub_le {e a b : ℝ} (h : AnglesWithin e a b) (he : e ≤ 1 / 100) (ha : |a| ≤ 32 / 10) (hb : |b| ≤ 3) : |a - b| ≤ e := by
  obtain ⟨k, hk⟩ := h
  have hp := pi_gt_d2
  have h0 : k = 0 := by
    rw [_root_.abs_le] at hk ha hb
    by_contra hc
    rcases lt_or_gt_of_ne hc with h1 | h1
    · have : (k : ℝ) ≤ -1 := by exact_mod_cast (by omega : k ≤ -1)
      nlinarith
    · have : (1 : ℝ) ≤ k := by exact_mod_cast (by omega : 1 ≤ k)
      nlinarith
  subst h0
  simpa using hk

theorem AnglesWithin.of_sub_le {e a b : ℝ} (h : |a - b| ≤ e) : AnglesWithin e a b := ⟨0, by simpa using h⟩

theorem AnglesWithin.sub {e e' a b c d : ℝ} (h : AnglesWithin e a b) (h' : AnglesWithin e' c d) : AnglesWithin (e + e') (a - c) (b - d) := by
  obtain ⟨k, hk⟩ := h
  obtain ⟨l, hl⟩ := h'
  refine ⟨k - l, ?_⟩
  rw [show a - c - (b - d) - ((k - l : ℤ) : ℝ) * (2 * π) = (a - b - k * (2 * π)) - (c - d - l * (2 * π)) by push_cast; ring]
  exact (abs_sub _ _).trans (add_le_add hk hl)

section
variable {φ : Format} {L : Libm φ} (h : L.Accurate singleError)
include h

/-- Wrapping in machine arithmetic keeps the angle up to rounding. -/
theorem wrap_within {y : Flt φ} (hy : |y.val| ≤ 8) : AnglesWithin (singleError * (|y.val| + 254 / 10)) y.wrapYaws.val y.val := by
  obtain ⟨k, hk⟩ := wrap_close h y
  obtain ⟨r0, r1⟩ := C132_range y
  have hpi := pi_close h
  have hpib := abs_le.1 hpi
  have hp3 := pi_gt_d6
  have hp4 := pi_lt_d6
  generalize (Flt.pi φ).val = p at *
  generalize y.wrapYaws.val = w at *
  generalize y.val = z at *
  have hk2 : |(k : ℝ)| ≤ 2 := by
    have hk' : |w - (z - k * (2 * p))| ≤ 1 / 1000 := by
      refine hk.trans ?_
      generalize |z| = Z at *
      unfold singleError at *
      norm_num at *
      linarith
    rw [abs_le] at hy hk'
    have hpl : 3141 / 1000 ≤ p ∧ p ≤ 3142 / 1000 := by
      obtain ⟨q1, q2⟩ := hpib
      unfold singleError at *
      norm_num at *
      constructor <;> linarith
    by_contra hc
    have hc' : 3 ≤ |k| := by
      have : (2 : ℝ) < ((|k| : ℤ) : ℝ) := by push_cast; linarith
      have : (2 : ℤ) < |k| := by exact_mod_cast this
      omega
    have hcr : (3 : ℝ) ≤ |(k : ℝ)| := by exact_mod_cast hc'
    rcases le_abs.1 hcr with hh | hh
    · nlinarith [hy.1, hy.2, hk'.1, hk'.2, hpl.1, hpl.2]
    · nlinarith [hy.1, hy.2, hk'.1, hk'.2, hpl.1, hpl.2]
  refine ⟨-k, ?_⟩
  have hkp : |(k : ℝ) * (2 * (p - π))| ≤ 128 / 10 * singleError := by
    rw [abs_mul, abs_mul, abs_of_pos (by norm_num : (0 : ℝ) < 2)]
    have := mul_le_mul hk2 (mul_le_mul_of_nonneg_left hpi (by norm_num : (0 : ℝ) ≤ 2)) (by positivity) (by norm_num)
    linarith
  rw [show w - z - ((-k : ℤ) : ℝ) * (2 * π) = (w - (z - k * (2 * p))) + -((k : ℝ) * (2 * (p - π))) by push_cast; ring]
  refine (abs_add_le _ _).trans ?_
  rw [abs_neg]
  linarith

/-- A wrapped yaw is within half a turn, up to the rounding of pi. -/
theorem abs_wrap_le (y : Flt φ) : |y.wrapYaws.val| ≤ π + 32 / 10 * singleError := by
  have h1 := C132_range y
  have h2 := (abs_le.1 (pi_close h)).2
  rw [abs_le]
  constructor <;> linarith [h1.1, h1.2]

/-- The change of speed over time, read off two steps. -/
theorem inverse_accel_close {p q : Pt (Flt φ)} {N N' : ℝ} (hN : norm2 (p.velX.val, p.velY.val) = N)
    (hN' : norm2 (q.velX.val, q.velY.val) = N') :
    |(bicycleInversePairFl L tenth p q).accel.val - (N' - N) / 0.1| ≤ singleError * (70 * (N + N') + 2) := by
  obtain ⟨v, hv1⟩ : ∃ v, v = speedFl L p.velX p.velY := ⟨_, rfl⟩
  obtain ⟨w, hw1⟩ : ∃ w, w = speedFl L q.velX q.velY := ⟨_, rfl⟩
  obtain ⟨t, ht⟩ : ∃ t, t = pyFloat φ tenth := ⟨_, rfl⟩
  obtain ⟨d, hd⟩ : ∃ d, d = w.sub v := ⟨_, rfl⟩
  obtain ⟨a', ha'⟩ : ∃ a', a' = L.div d t := ⟨_, rfl⟩
  have inv_accel : (bicycleInversePairFl L tenth p q).accel = a' := by
    rw [ha', hd, hv1, hw1, ht]
    rfl
  rw [inv_accel]
  have sN := speed_norm h p.velX p.velY
  have sN' := speed_norm h q.velX q.velY
  rw [← hv1] at sN
  rw [← hw1] at sN'
  have k40 : (2 : ℝ) ^ (-40 : ℤ) ≤ 1 / 10 ^ 12 := by norm_num
  have N0 : 0 ≤ N := by rw [← hN]; exact Real.sqrt_nonneg _
  have N0' : 0 ≤ N' := by rw [← hN']; exact Real.sqrt_nonneg _
  have hNe : √(p.velX.val ^ 2 + p.velY.val ^ 2) = N := hN
  have hNe' : √(q.velX.val ^ 2 + q.velY.val ^ 2) = N' := hN'
  rw [hNe] at sN
  rw [hNe'] at sN'
  generalize (2 : ℝ) ^ (-40 : ℤ) = k at *
  obtain ⟨t1, -⟩ := dt_close h
  rw [← ht] at t1
  have ta : 0 < t.val ∧ t.val ≤ 1 / 10 + 3 / 10 ^ 8 ∧ 1 / 10 - 3 / 10 ^ 8 ≤ t.val := by
    rw [abs_le] at t1
    norm_num at t1 ⊢
    refine ⟨?_, ?_, ?_⟩ <;> linarith [t1.1, t1.2]
  have e4 := h.sub w v
  rw [← hd] at e4
  have e5 := h.div d t ta.1.ne'
  rw [← ha'] at e5
  have i0 : |N' - N| ≤ N + N' := by rw [abs_le]; constructor <;> linarith
  have i1 : |w.val - v.val - (N' - N)| ≤ |w.val - N'| + |v.val - N| := by
    rw [show w.val - v.val - (N' - N) = (w.val - N') - (v.val - N) by ring]
    exact abs_sub _ _
  have i2 : |w.val - v.val| ≤ |N' - N| + |w.val - v.val - (N' - N)| := abs_le_add_sub _ _
  have i3 : |d.val - (N' - N)| ≤ |d.val - (w.val - v.val)| + |w.val - v.val - (N' - N)| := by
    rw [show d.val - (N' - N) = (d.val - (w.val - v.val)) + (w.val - v.val - (N' - N)) by ring]
    exact abs_add_le _ _
  have i4 : |d.val| ≤ |N' - N| + |d.val - (N' - N)| := abs_le_add_sub _ _
  have i5 : |d.val / t.val - d.val / 0.1| ≤ |d.val| * (31 / 10 ^ 7) := by
    rw [show d.val / t.val - d.val / 0.1 = d.val * ((0.1 - t.val) / (t.val * 0.1)) by field_simp [ta.1.ne'], abs_mul]
    refine mul_le_mul_of_nonneg_left ?_ (abs_nonneg _)
    rw [abs_div, abs_of_pos (by have := ta.1; positivity : 0 < t.val * 0.1), div_le_iff₀ (by have := ta.1; positivity), abs_sub_comm]
    have : |t.val - 0.1| ≤ 3 / 10 ^ 8 := by norm_num at t1 ⊢; exact t1
    refine this.trans ?_
    have := ta.2.2
    norm_num at *
    linarith
  have i6 : |d.val / t.val| ≤ |d.val| * (10 + 31 / 10 ^ 7) := by
    have j := abs_le_add_sub (d.val / t.val) (d.val / 0.1)
    have : |d.val / 0.1| = |d.val| * 10 := by rw [abs_div, abs_of_pos (by norm_num : (0 : ℝ) < 0.1)]; norm_num; ring
    rw [this] at j
    linarith
  have i7 : |a'.val - (N' - N) / 0.1| ≤ |a'.val - d.val / t.val| + |d.val / t.val - d.val / 0.1| + |d.val - (N' - N)| * 10 := by
    rw [show a'.val - (N' - N) / 0.1 = (a'.val - d.val / t.val) + (d.val / t.val - d.val / 0.1) + (d.val - (N' - N)) / 0.1 by ring]
    refine (abs_add_three _ _ _).trans ?_
    rw [abs_div, abs_of_pos (by norm_num : (0 : ℝ) < 0.1)]
    norm_num
    linarith
  refine i7.trans ?_
  clear i7
  generalize |N' - N| = X1 at *
  generalize |w.val - v.val - (N' - N)| = X2 at *
  generalize |w.val - v.val| = X3 at *
  generalize |d.val - (w.val - v.val)| = X4 at *
  generalize |d.val - (N' - N)| = X5 at *
  generalize |d.val / t.val - d.val / 0.1| = X6 at *
  generalize |a'.val - d.val / t.val| = X7 at *
  generalize |d.val / t.val| = X8 at *
  generalize |d.val| = X9 at *
  generalize |w.val - N'| = X10 at *
  generalize |v.val - N| = X11 at *
  unfold singleError at *
  norm_num at *
  linarith

/-- The distance driven between two steps. -/
theorem inverse_travel_close {p q : Pt (Flt φ)} {N N' : ℝ} (hN : norm2 (p.velX.val, p.velY.val) = N)
    (hN' : norm2 (q.velX.val, q.velY.val) = N') :
    |(travelFl tenth (speedFl L p.velX p.velY) (bicycleInversePairFl L tenth p q).accel).val - (N + N') / 20| ≤
      singleError * (2 * (N + N') + 1) := by
  have ac := inverse_accel_close h hN hN'
  generalize (bicycleInversePairFl L tenth p q).accel = a at *
  have s0 := speed_nonneg h p.velX p.velY
  have sN := speed_norm h p.velX p.velY
  have N0 : 0 ≤ N := by rw [← hN]; exact Real.sqrt_nonneg _
  have N0' : 0 ≤ N' := by rw [← hN']; exact Real.sqrt_nonneg _
  have hNe : √(p.velX.val ^ 2 + p.velY.val ^ 2) = N := hN
  rw [hNe] at sN
  generalize speedFl L p.velX p.velY = s at *
  have tc := travel_close h (c := a) s0
  obtain ⟨t1, t2⟩ := dt_close h
  generalize (travelFl tenth s a).val = D at *
  generalize (pyFloat φ tenth).val = t at *
  generalize (pySquare φ tenth).val = r at *
  have k40 : (2 : ℝ) ^ (-40 : ℤ) ≤ 1 / 10 ^ 12 := by norm_num
  generalize (2 : ℝ) ^ (-40 : ℤ) = k at *
  generalize s.val = v at *
  generalize a.val = c at *
  have i0 : |(N' - N) / 0.1| ≤ 10 * (N + N') := by
    rw [show (N' - N) / 0.1 = 10 * (N' - N) by norm_num; ring, abs_mul, abs_of_pos (by norm_num : (0 : ℝ) < 10)]
    refine mul_le_mul_of_nonneg_left ?_ (by norm_num)
    rw [abs_le]; constructor <;> linarith
  have i1 := abs_le_add_sub c ((N' - N) / 0.1)
  have j1 : |v * t - v / 10| ≤ v * (3 / 10 ^ 8) := by
    rw [show v * t - v / 10 = v * (t - 1 / 10) by ring, abs_mul, abs_of_nonneg s0]
    exact mul_le_mul_of_nonneg_left t1 s0
  have j2 : |c / 2 * r - c / 200| ≤ |c| * (15 / 10 ^ 10) := by
    rw [show c / 2 * r - c / 200 = c * ((r - 1 / 100) / 2) by ring, abs_mul]
    refine mul_le_mul_of_nonneg_left ?_ (abs_nonneg _)
    rw [abs_div, abs_of_pos (by norm_num : (0 : ℝ) < 2)]
    norm_num at t2 ⊢
    linarith
  have j3 : |D - (N + N') / 20| ≤ |D - (v * t + c / 2 * r)| + |v * t - v / 10| + |c / 2 * r - c / 200| + |v - N| * (1 / 10) +
      |c - (N' - N) / 0.1| * (1 / 200) := by
    rw [show D - (N + N') / 20 = (D - (v * t + c / 2 * r)) + (v * t - v / 10) + (c / 2 * r - c / 200) + ((v - N) * (1 / 10) +
      (c - (N' - N) / 0.1) * (1 / 200)) by norm_num; ring]
    refine (abs_add_le _ _).trans ?_
    have l1 := abs_add_three (D - (v * t + c / 2 * r)) (v * t - v / 10) (c / 2 * r - c / 200)
    have l2 := abs_add_le ((v - N) * (1 / 10)) ((c - (N' - N) / 0.1) * (1 / 200))
    rw [abs_mul, abs_mul, abs_of_pos (by norm_num : (0 : ℝ) < 1 / 10), abs_of_pos (by norm_num : (0 : ℝ) < 1 / 200)] at l2
    linarith
  have i2 : v ≤ N + |v - N| := by linarith [le_abs_self (v - N)]
  refine j3.trans ?_
  clear j3 t1 t2
  generalize |D - (v * t + c / 2 * r)| = X1 at *
  generalize |v * t - v / 10| = X2 at *
  generalize |c / 2 * r - c / 200| = X3 at *
  generalize |v - N| = X4 at *
  generalize |c - (N' - N) / 0.1| = X5 at *
  generalize |(N' - N) / 0.1| = X6 at *
  generalize |c| = X7 at *
  unfold singleError at *
  norm_num at *
  linarith

omit h in
theorem abs_arctan2_le (y x : ℝ) : |arctan2 y x| ≤ π := Complex.abs_arg_le_pi _

/-- The turn between two steps: the heading of the new velocity relative to the old yaw. -/
theorem inverse_turn_close {rn yaw : Flt φ} {g : ℝ} (hr : |rn.val - g| ≤ 4 * singleError) (hg : |g| ≤ π) (hy : |yaw.val| ≤ 4) :
    AnglesWithin (80 * singleError) (rn.sub yaw.wrapYaws).wrapYaws.val (wrapYaws (g - wrapYaws yaw.val)) := by
  have w1 := wrap_within h (y := yaw) (by linarith)
  have a1 := abs_wrap_le h yaw
  have e := h.sub rn yaw.wrapYaws
  have hp := pi_lt_d4
  have hrn := abs_le_add_sub rn.val g
  have hd : |rn.val - yaw.wrapYaws.val| ≤ |rn.val| + |yaw.wrapYaws.val| := abs_sub _ _
  have hs := abs_le_add_sub (rn.sub yaw.wrapYaws).val (rn.val - yaw.wrapYaws.val)
  have hs8 : |(rn.sub yaw.wrapYaws).val| ≤ 63 / 10 := by
    generalize |rn.val - yaw.wrapYaws.val| = X1 at *
    generalize |(rn.sub yaw.wrapYaws).val| = X2 at *
    unfold singleError at *
    norm_num at *
    linarith
  have w2 := wrap_within h (y := rn.sub yaw.wrapYaws) (by linarith)
  have w3 : AnglesWithin _ rn.val g := .of_sub_le hr
  have w4 : AnglesWithin _ (rn.sub yaw.wrapYaws).val (rn.val - yaw.wrapYaws.val) := .of_sub_le e
  have w5 := (w2.trans w4).trans (w3.sub w1.wrap)
  refine w5.wrap.mono ?_
  clear w5 w4 w3 w2 w1
  generalize |rn.val - yaw.wrapYaws.val| = X1 at *
  generalize |(rn.sub yaw.wrapYaws).val| = X2 at *
  generalize |(rn.sub yaw.wrapYaws).val - (rn.val - yaw.wrapYaws.val)| = X3 at *
  unfold singleError at *
  norm_num at *
  linarith

omit h in
/-- A quotient of two numbers known up to rounding. -/
theorem quotient_close {x θ w D Df N : ℝ} (hD : D = N / 20) (hN : 1201 / 1000 ≤ N) (hDf : |Df - D| ≤ singleError * (2 * N + 1))
    (hx : |x - θ / Df| ≤ singleError * |θ / Df| + singleError) (hw : |θ - w| ≤ 90 * singleError) :
    |x - w / D| ≤ singleError * (1600 + 70 * |w / D|) := by
  have D0 : 0 < D := by rw [hD]; linarith
  have hDl : 6005 / 100000 ≤ D := by rw [hD]; linarith
  have hrel : |Df - D| ≤ 57 * singleError * D := by
    refine hDf.trans ?_
    rw [hD]
    unfold singleError
    linarith
  have Df0 : 0 < Df := by
    have := (abs_le.1 hrel).1
    unfold singleError at this
    linarith
  obtain ⟨ρ, hρ⟩ : ∃ ρ, ρ = w / D := ⟨_, rfl⟩
  have hwρ : w = ρ * D := by rw [hρ]; field_simp
  rw [← hρ]
  have q1 : |θ / Df - ρ| * Df ≤ 90 * singleError + |ρ| * (57 * singleError * D) := by
    rw [← abs_of_pos Df0, ← abs_mul, abs_of_pos Df0, sub_mul, div_mul_cancel₀ _ Df0.ne']
    rw [show θ - ρ * Df = (θ - w) - ρ * (Df - D) by rw [hwρ]; ring]
    refine (abs_sub _ _).trans (add_le_add hw ?_)
    rw [abs_mul]
    exact mul_le_mul_of_nonneg_left hrel (abs_nonneg _)
  have q2 : D ≤ Df * (10001 / 10000) := by
    have := (abs_le.1 hrel).1
    unfold singleError at this
    linarith
  have q3 : |θ / Df - ρ| ≤ singleError * (1510 + 58 * |ρ|) := by
    by_contra hc
    push Not at hc
    have := mul_lt_mul_of_pos_right hc Df0
    have r0 := abs_nonneg ρ
    have z1 : |ρ| * D ≤ |ρ| * Df * (10001 / 10000) := by
      have := mul_le_mul_of_nonneg_left q2 r0
      linarith
    have z2 : 6 / 100 ≤ Df := by linarith
    have z3 : 0 ≤ |ρ| * Df := by positivity
    have z4 : |θ / Df - ρ| * Df ≤ singleError * (90 + 57 * (|ρ| * D)) := by linarith
    have z5 : singleError * (1510 * Df + 58 * (|ρ| * Df)) < |θ / Df - ρ| * Df := by linarith
    have z6 := z5.trans_le z4
    have se : 0 < singleError := by unfold singleError; norm_num
    have z7 := lt_of_mul_lt_mul_left z6 se.le
    linarith
  have q4 := abs_le_add_sub (θ / Df) ρ
  have q5 : |x - ρ| ≤ |x - θ / Df| + |θ / Df - ρ| := by
    rw [show x - ρ = (x - θ / Df) + (θ / Df - ρ) by ring]
    exact abs_add_le _ _
  have r0 := abs_nonneg ρ
  generalize |x - ρ| = X1 at *
  generalize |x - θ / Df| = X2 at *
  generalize |θ / Df - ρ| = X3 at *
  generalize |θ / Df| = X4 at *
  generalize |ρ| = X5 at *
  unfold singleError at *
  norm_num at *
  linarith

/-- The pair of steps whose inverse is computed: both speeds clearly above the limit of 0.6 m/s below which the steering is not computed. -/
theorem inverse_fast {p q : Pt (Flt φ)} {N N' : ℝ} (hN : norm2 (p.velX.val, p.velY.val) = N)
    (hN' : norm2 (q.velX.val, q.velY.val) = N') (hv : 601 / 1000 ≤ N) (hv' : 601 / 1000 ≤ N') (hy : |p.yaw.val| ≤ 4) :
    let w := wrapYaws (arctan2 q.velY.val q.velX.val - wrapYaws p.yaw.val)
    let D := (N + N') / 20
    let x := (bicycleInversePairFl L tenth p q).steering.val
    |(|x|) - (|w / D|)| ≤ singleError * (1600 + 70 * |w / D|) ∧ (|w| ≤ 3 → |x - w / D| ≤ singleError * (1600 + 70 * |w / D|)) := by
  intro w D x
  have hlim := abs_le.1 (speedLimit_close h)
  have k40 : (2 : ℝ) ^ (-40 : ℤ) ≤ 1 / 10 ^ 12 := by norm_num
  have fast : ∀ {vx vy : Flt φ} {M : ℝ}, norm2 (vx.val, vy.val) = M → 601 / 1000 ≤ M → (speedLimitFl φ).val < |(speedFl L vx vy).val| := by
    intro vx vy M hM hM1
    have sN := (abs_le.1 (speed_norm h vx vy)).1
    have e : √(vx.val ^ 2 + vy.val ^ 2) = M := hM
    rw [e] at sN
    refine lt_of_lt_of_le ?_ (le_abs_self _)
    obtain ⟨-, l2⟩ := hlim
    generalize (speedLimitFl φ).val = l at *
    generalize (speedFl L vx vy).val = sp at *
    generalize (2 : ℝ) ^ (-40 : ℤ) = k at *
    unfold singleError at *
    norm_num at *
    linarith
  have f1 := fast hN hv
  have f2 := fast hN' hv'
  have tc := inverse_travel_close h hN hN'
  obtain ⟨rn, hrn⟩ : ∃ rn, rn = L.arctan2 q.velY q.velX := ⟨_, rfl⟩
  obtain ⟨Df, hDf⟩ : ∃ Df, Df = travelFl tenth (speedFl L p.velX p.velY) (bicycleInversePairFl L tenth p q).accel := ⟨_, rfl⟩
  obtain ⟨θ, hθ⟩ : ∃ θ, θ = (rn.sub p.yaw.wrapYaws).wrapYaws := ⟨_, rfl⟩
  have hx : (bicycleInversePairFl L tenth p q).steering = L.div θ Df := by
    rw [hθ, hDf, hrn]
    unfold bicycleInversePairFl
    simp only
    rw [if_neg (show ¬ (speedFl L q.velX q.velY).abs < speedLimitFl φ from fun hc => absurd (show |(speedFl L q.velX q.velY).val| < _ from hc) f2.not_gt),
      if_neg (show ¬ (speedFl L p.velX p.velY).abs < speedLimitFl φ from fun hc => absurd (show |(speedFl L p.velX p.velY).val| < _ from hc) f1.not_gt),
      if_neg (show ¬ (speedFl L q.velX q.velY).abs ≤ speedLimitFl φ from fun hc => absurd (show |(speedFl L q.velX q.velY).val| ≤ _ from hc) f2.not_ge)]
  rw [← hDf] at tc
  have hr := h.arctan2 q.velY q.velX
  rw [← hrn] at hr
  have turn := inverse_turn_close h hr (abs_arctan2_le _ _) hy
  rw [← hθ] at turn
  have aθ : |θ.val| ≤ π + 32 / 10 * singleError := by rw [hθ]; exact abs_wrap_le h _
  have aw : |w| ≤ π := abs_wrapYaws_le _
  have Dpos : 0 < Df.val := by
    have := (abs_le.1 tc).1
    unfold singleError at this
    linarith
  have ed := h.div θ Df Dpos.ne'
  have se : 0 < singleError := by unfold singleError; norm_num
  have xe : x = (L.div θ Df).val := by show (bicycleInversePairFl L tenth p q).steering.val = _; rw [hx]
  rw [xe]
  constructor
  · have c := turn.abs_le (by positivity) aθ aw
    have ed' : |(|(L.div θ Df).val|) - (|θ.val|) / Df.val| ≤ singleError * |(|θ.val|) / Df.val| + singleError := by
      have e1 : (|θ.val|) / Df.val = |θ.val / Df.val| := by rw [abs_div, abs_of_pos Dpos]
      rw [e1, abs_abs]
      exact (abs_abs_sub_abs_le _ _).trans ed
    have := quotient_close (D := D) (N := N + N') rfl (by linarith) tc ed' (w := |w|) (c.trans (by linarith))
    have e2 : |w| / D = |w / D| := by rw [abs_div, abs_of_pos (show 0 < D by show 0 < (N + N') / 20; linarith)]
    rw [e2, abs_abs] at this
    exact this
  · intro hw
    have c := turn.sub_le (by unfold singleError; norm_num) (aθ.trans (by have := pi_lt_d4; unfold singleError; norm_num at this ⊢; linarith)) hw
    exact quotient_close (D := D) (N := N + N') rfl (by linarith) tc ed (c.trans (by linarith))

end

/-! ### C137, turns -/

section
variable {φ : Format} {L : Libm φ} {n T : Nat} [NeZero T]

/-- C137, the other side: in machine arithmetic too, a turn between two steps that exceeds the steering limit (turn per distance) by 2e-3 is
flagged, for an object that is valid and faster than 0.601 m/s at both steps. The turn is the heading of the new velocity against the old
yaw, the distance is the mean of the two speeds times the time step. -/
theorem C137_detects_turn (hL : L.Accurate (2 ^ (-22 : ℤ))) {K : KimParamsFl} (hdt : K.dt = Flt.round _ 0.1)
    (hK : 0 ≤ K.maxSteering.val ∧ K.maxSteering.val ≤ 10) {s : SimState (Flt φ) n T} {i : Fin n} {t t' : Fin T}
    (ht : (t : Int) = s.timestep - 1) (ht' : (t' : Nat) = t + 1) (hval : (s.simTrajectory i t).valid = true)
    (hval' : (s.simTrajectory i t').valid = true) (hyaw : |(s.simTrajectory i t).yaw.val| ≤ 4)
    (hv : 0.601 ≤ norm2 ((s.simTrajectory i t).velX.val, (s.simTrajectory i t).velY.val))
    (hv' : 0.601 ≤ norm2 ((s.simTrajectory i t').velX.val, (s.simTrajectory i t').velY.val))
    (hturn : ∀ a : ℝ, AnglesAgree a (arctan2 (s.simTrajectory i t').velY.val (s.simTrajectory i t').velX.val - (s.simTrajectory i t).yaw.val) →
      (K.maxSteering.val + 2e-3) * ((norm2 ((s.simTrajectory i t).velX.val, (s.simTrajectory i t).velY.val) +
        norm2 ((s.simTrajectory i t').velX.val, (s.simTrajectory i t').velY.val)) / 2 * 0.1) ≤ |a|) :
    kinematicsInfeasibilityMetricFl L K s i = { value := 1, valid := true } := by
  rw [← singleError_eq] at hL
  obtain ⟨h1, -, h3⟩ := metric_of_pair (L := L) (K := K) (s := s) (i := i) ht ht'
  have hvd := h1.2 ⟨hval, hval'⟩
  have hone : (kinematicsInfeasibilityMetricFl L K s i).value = 1 := by
    rw [h3 hvd, if_pos]
    right
    refine lt_of_le_of_lt (threshold_le hL hK.1 (hK.2.trans (by norm_num))) ?_
    generalize s.simTrajectory i t = p at *
    generalize s.simTrajectory i t' = q at *
    obtain ⟨N, hN⟩ : ∃ N, norm2 (p.velX.val, p.velY.val) = N := ⟨_, rfl⟩
    obtain ⟨N', hN'⟩ : ∃ N', norm2 (q.velX.val, q.velY.val) = N' := ⟨_, rfl⟩
    rw [hN, hN'] at hturn
    rw [hN] at hv
    rw [hN'] at hv'
    norm_num at hv hv'
    obtain ⟨f, -⟩ := inverse_fast hL hN hN' hv hv' hyaw
    rw [show K.dt = tenth from hdt]
    obtain ⟨w, hw⟩ : ∃ w, w = wrapYaws (arctan2 q.velY.val q.velX.val - wrapYaws p.yaw.val) := ⟨_, rfl⟩
    rw [← hw] at f
    have hwt := hturn w (by
      obtain ⟨k1, hk1⟩ := ((C21_wrap_unique _ _).1 hw).2.2
      obtain ⟨k2, hk2⟩ := ((C21_wrap_unique p.yaw.val _).1 rfl).2.2
      refine ⟨k2 - k1, ?_⟩
      rw [hk1, hk2]
      push_cast
      ring)
    obtain ⟨D, hD⟩ : ∃ D, D = (N + N') / 20 := ⟨_, rfl⟩
    have hD0 : 0 < D := by rw [hD]; linarith
    rw [← hD] at f
    have hρ : K.maxSteering.val + 2e-3 ≤ |w / D| := by
      rw [abs_div, abs_of_pos hD0, le_div_iff₀ hD0, hD]
      refine le_trans (le_of_eq ?_) hwt
      ring
    have f' := (abs_le.1 f).1
    obtain ⟨k1, k2⟩ := hK
    generalize |w / D| = ρ at *
    generalize |(bicycleInversePairFl L tenth p q).steering.val| = X at *
    unfold singleError at *
    norm_num at *
    linarith
  cases hr : kinematicsInfeasibilityMetricFl L K s i with
  | mk value valid =>
    rw [hr] at hone hvd
    simp only at hone hvd
    rw [hone, hvd]

/-- Non-vacuity of `C137_detects_turn`: at 10 m/s, from driving along x with yaw 0 to driving along y. -/
example : kinematicsInfeasibilityMetricFl (exactLibm float32) .default { tenScen with
    simTrajectory := fun _ t => { quarterPt (quarter 0) (quarter 0) (quarter 0) with
      velX := if t = 0 then quarter 40 else quarter 0, velY := if t = 0 then quarter 0 else quarter 40 },
    timestep := 1 } 0 = { value := 1, valid := true } := by
  have hn : ∀ k : ℤ, 0 ≤ k → norm2 ((k : ℝ) * 2 ^ (-2 : ℤ), ((0 : ℤ) : ℝ) * 2 ^ (-2 : ℤ)) = k / 4 ∧
      norm2 (((0 : ℤ) : ℝ) * 2 ^ (-2 : ℤ), (k : ℝ) * 2 ^ (-2 : ℤ)) = k / 4 := fun k hk => by
    have h0 : (0 : ℝ) ≤ k := by exact_mod_cast hk
    unfold norm2
    constructor
    · rw [show ((k : ℝ) * 2 ^ (-2 : ℤ)) ^ 2 + (((0 : ℤ) : ℝ) * 2 ^ (-2 : ℤ)) ^ 2 = ((k : ℝ) / 4) ^ 2 by norm_num; ring,
        Real.sqrt_sq (by positivity)]
    · rw [show (((0 : ℤ) : ℝ) * 2 ^ (-2 : ℤ)) ^ 2 + ((k : ℝ) * 2 ^ (-2 : ℤ)) ^ 2 = ((k : ℝ) / 4) ^ 2 by norm_num; ring,
        Real.sqrt_sq (by positivity)]
  obtain ⟨n1, n2⟩ := hn 40 (by norm_num)
  have hs := float64_err 0.3
  rw [abs_of_pos (by norm_num : (0 : ℝ) < 0.3), abs_le] at hs
  have es : KimParamsFl.default.maxSteering.val = (Flt.round float64 0.3).val := rfl
  generalize (Flt.round float64 0.3).val = m at *
  norm_num at hs
  refine C137_detects_turn exactLibm_accurate rfl ?_ (t := 0) (t' := 1) rfl rfl rfl rfl ?_ ?_ ?_ ?_
  · rw [es]
    constructor <;> linarith [hs.1, hs.2]
  · show |((0 : ℤ) : ℝ) * 2 ^ (-2 : ℤ)| ≤ 4
    norm_num
  · show 0.601 ≤ norm2 (((40 : ℤ) : ℝ) * 2 ^ (-2 : ℤ), ((0 : ℤ) : ℝ) * 2 ^ (-2 : ℤ))
    rw [n1]
    norm_num
  · show 0.601 ≤ norm2 (((0 : ℤ) : ℝ) * 2 ^ (-2 : ℤ), ((40 : ℤ) : ℝ) * 2 ^ (-2 : ℤ))
    rw [n2]
    norm_num
  · show ∀ a : ℝ, AnglesAgree a (arctan2 (((40 : ℤ) : ℝ) * 2 ^ (-2 : ℤ)) (((0 : ℤ) : ℝ) * 2 ^ (-2 : ℤ)) - ((0 : ℤ) : ℝ) * 2 ^ (-2 : ℤ)) →
      (KimParamsFl.default.maxSteering.val + 2e-3) * ((norm2 (((40 : ℤ) : ℝ) * 2 ^ (-2 : ℤ), ((0 : ℤ) : ℝ) * 2 ^ (-2 : ℤ)) +
        norm2 (((0 : ℤ) : ℝ) * 2 ^ (-2 : ℤ), ((40 : ℤ) : ℝ) * 2 ^ (-2 : ℤ))) / 2 * 0.1) ≤ |a|
    rw [n1, n2, es]
    have e : arctan2 (((40 : ℤ) : ℝ) * 2 ^ (-2 : ℤ)) (((0 : ℤ) : ℝ) * 2 ^ (-2 : ℤ)) - ((0 : ℤ) : ℝ) * 2 ^ (-2 : ℤ) = π / 2 := by
      unfold arctan2
      rw [show (⟨((0 : ℤ) : ℝ) * 2 ^ (-2 : ℤ), ((40 : ℤ) : ℝ) * 2 ^ (-2 : ℤ)⟩ : ℂ) = ((10 : ℝ) : ℂ) * Complex.I by
        apply Complex.ext <;> norm_num, Complex.arg_real_mul _ (by norm_num), Complex.arg_I]
      norm_num
    rw [e]
    rintro a ⟨k, rfl⟩
    have hp := pi_gt_d2
    have h1 := abs_le_turn (w := π / 2) (δ := 0) le_rfl (by rw [abs_of_pos (by positivity)]; linarith) (-k)
    rw [show π / 2 - ((-k : ℤ) : ℝ) * (2 * π) = π / 2 + k * (2 * π) by push_cast; ring, abs_of_pos (by positivity : 0 < π / 2)] at h1
    norm_num at *
    linarith [hs.2]

/-! ### C136, the expert's action -/

/-- Clipping brings numbers that are close, relative to their size, within an absolute distance. -/
theorem clip_rel {x X b e0 δ : ℝ} (hb : 0 ≤ b) (he : 0 ≤ e0) (hδ0 : 0 ≤ δ) (hδ : δ ≤ 1 / 2) (hx : |x - X| ≤ e0 + δ * |X|) :
    |clip x (-b) b - clip X (-b) b| ≤ e0 + 2 * δ * b + 2 * δ * e0 := by
  have e00 : 0 ≤ e0 + δ * |X| := (abs_nonneg _).trans hx
  have lip : |clip x (-b) b - clip X (-b) b| ≤ |x - X| := by
    unfold clip
    have h1 : |max x (-b) - max X (-b)| ≤ |x - X| := by
      have := abs_max_sub_max_le_max x (-b) X (-b)
      rw [sub_self, abs_zero] at this
      exact this.trans (max_le le_rfl (abs_nonneg _))
    refine (abs_min_sub_min_le_max _ _ _ _).trans (max_le h1 ?_)
    rw [sub_self, abs_zero]
    exact abs_nonneg _
  by_cases hX : |X| ≤ 2 * b + 2 * e0
  · refine (lip.trans hx).trans ?_
    have := mul_le_mul_of_nonneg_left hX hδ0
    linarith
  · push Not at hX
    rcases abs_cases X with ⟨e, hs⟩ | ⟨e, hs⟩
    · rw [e] at hx hX e00
      have h1 := (abs_le.1 hx).1
      have hx' : b ≤ x := by nlinarith
      have c1 : clip x (-b) b = b := by
        unfold clip
        rw [max_eq_left (by linarith), min_eq_right hx']
      have c2 : clip X (-b) b = b := by
        unfold clip
        rw [max_eq_left (by linarith), min_eq_right (by linarith)]
      rw [c1, c2, sub_self, abs_zero]
      positivity
    · rw [e] at hx hX e00
      have h1 := (abs_le.1 hx).2
      have hx' : x ≤ -b := by nlinarith
      have c1 : clip x (-b) b = -b := by
        unfold clip
        rw [max_eq_right (by linarith), min_eq_left (by linarith)]
      have c2 : clip X (-b) b = -b := by
        unfold clip
        rw [max_eq_right (by linarith), min_eq_left (by linarith)]
      rw [c1, c2, sub_self, abs_zero]
      positivity

/-- Dividing by a limit. -/
theorem scaled_close (h : L.Accurate singleError) {x : Flt φ} {X m : ℝ} (hm : 1 / 10 ≤ m) :
    |(L.div x (pyFloat φ (Flt.round float64 m))).val - X / m| ≤ |x.val - X| / m * (1001 / 1000) + singleError * (3 * |X / m| + 2) := by
  have c := pyFloat_round_close h (x := m) (by linarith)
  obtain ⟨f, hf⟩ : ∃ f, f = pyFloat φ (Flt.round float64 m) := ⟨_, rfl⟩
  rw [← hf] at c ⊢
  have crel : |f.val - m| ≤ 102 / 100 * singleError * m := by
    refine c.trans ?_
    unfold singleError
    norm_num
    linarith
  have m0 : 0 < m := by linarith
  have f0 : 0 < f.val ∧ m ≤ f.val * (10001 / 10000) := by
    have := (abs_le.1 crel).1
    unfold singleError at this
    constructor <;> linarith
  have e := h.div x f f0.1.ne'
  obtain ⟨Y, hY⟩ : ∃ Y, Y = X / m := ⟨_, rfl⟩
  have hXY : X = Y * m := by rw [hY]; field_simp
  rw [← hY]
  have q1 : |x.val / f.val - Y| * f.val ≤ |x.val - X| + |Y| * (102 / 100 * singleError * m) := by
    rw [← abs_of_pos f0.1, ← abs_mul, abs_of_pos f0.1, sub_mul, div_mul_cancel₀ _ f0.1.ne']
    rw [show x.val - Y * f.val = (x.val - X) - Y * (f.val - m) by rw [hXY]; ring]
    refine (abs_sub _ _).trans (add_le_add le_rfl ?_)
    rw [abs_mul]
    exact mul_le_mul_of_nonneg_left crel (abs_nonneg _)
  have se : 0 < singleError := by unfold singleError; norm_num
  have q2 : |x.val / f.val - Y| ≤ |x.val - X| / m * (10001 / 10000) + 103 / 100 * singleError * |Y| := by
    have z0 : |x.val / f.val - Y| * m ≤ (|x.val - X| + |Y| * (102 / 100 * singleError * m)) * (10001 / 10000) := by
      have := mul_le_mul_of_nonneg_left f0.2 (abs_nonneg (x.val / f.val - Y))
      linarith
    rw [← mul_le_mul_iff_left₀ m0]
    refine z0.trans ?_
    rw [show (|x.val - X| / m * (10001 / 10000) + 103 / 100 * singleError * |Y|) * m =
      |x.val - X| / m * m * (10001 / 10000) + 103 / 100 * singleError * |Y| * m by ring, div_mul_cancel₀ _ m0.ne']
    have : 0 ≤ singleError * |Y| * m := by positivity
    linarith
  have q3 := abs_le_add_sub (x.val / f.val) Y
  have q4 : |(L.div x f).val - Y| ≤ |(L.div x f).val - x.val / f.val| + |x.val / f.val - Y| := by
    rw [show (L.div x f).val - Y = ((L.div x f).val - x.val / f.val) + (x.val / f.val - Y) by ring]
    exact abs_add_le _ _
  have q5 : 0 ≤ |x.val - X| / m := by positivity
  have q6 := abs_nonneg Y
  generalize |(L.div x f).val - Y| = X1 at *
  generalize |(L.div x f).val - x.val / f.val| = X2 at *
  generalize |x.val / f.val - Y| = X3 at *
  generalize |x.val / f.val| = X4 at *
  generalize |x.val - X| / m = X5 at *
  generalize |Y| = X6 at *
  unfold singleError at *
  norm_num at *
  linarith

/-- The bound of an entry of the action, and the clipped entry. -/
theorem clipped_close (h : L.Accurate singleError) {x : Flt φ} {X m e0 δ : ℝ} (hm0 : 0 ≤ m) (hm : m ≤ 11) (he : 0 ≤ e0) (hδ0 : 0 ≤ δ)
    (hδ : δ ≤ 1 / 2) (hx : |x.val - X| ≤ e0 + δ * |X|) :
    |(x.clip (pyFloat φ (Flt.round float64 m)).neg (pyFloat φ (Flt.round float64 m))).val - clip X (-m) m| ≤
      e0 + 2 * δ * m + 2 * δ * e0 + 20 * singleError := by
  have c := pyFloat_round_close h hm0
  rw [Flt.clip_val]
  have c1 := clip_close (x := x.val) c
  have c2 := clip_rel hm0 he hδ0 hδ hx
  have := abs_add_le (clip x.val (-(pyFloat φ (Flt.round float64 m)).val) (pyFloat φ (Flt.round float64 m)).val - clip x.val (-m) m)
    (clip x.val (-m) m - clip X (-m) m)
  rw [sub_add_sub_cancel] at this
  refine (this.trans (add_le_add c1 c2)).trans ?_
  unfold singleError
  norm_num
  linarith

theorem clipped_one_close {x : Flt φ} {X e0 δ : ℝ} (he : 0 ≤ e0) (hδ0 : 0 ≤ δ) (hδ : δ ≤ 1 / 2) (hx : |x.val - X| ≤ e0 + δ * |X|) :
    |(x.clip (Flt.round φ 1).neg (Flt.round φ 1)).val - clip X (-1) 1| ≤ e0 + 2 * δ + 2 * δ * e0 := by
  have h1 : (Flt.round φ 1).val = 1 := Format.fl_of_rep Flt.rep_one
  rw [Flt.clip_val, h1]
  have := clip_rel (b := 1) (by norm_num) he hδ0 hδ hx
  linarith

/-- The steps on which rounding does not decide whether the steering is computed: both speeds above 0.601 m/s and a turn of at most 3 rad,
or one of the speeds below 0.599 m/s. -/
def ClearPair (p q : Pt ℝ) : Prop :=
  (0.601 ≤ norm2 (p.velX, p.velY) ∧ 0.601 ≤ norm2 (q.velX, q.velY) ∧
    ∃ a : ℝ, |a| ≤ 3 ∧ AnglesAgree a (arctan2 q.velY q.velX - p.yaw)) ∨
  norm2 (p.velX, p.velY) ≤ 0.599 ∨ norm2 (q.velX, q.velY) ≤ 0.599

/-- The inverse of one pair of steps. -/
theorem inverse_pair_close (h : L.Accurate singleError) {p q : Pt (Flt φ)} (hv : norm2 (p.velX.val, p.velY.val) ≤ 99)
    (hv' : norm2 (q.velX.val, q.velY.val) ≤ 99) (hy : |p.yaw.val| ≤ 4) (hc : ClearPair p.real q.real) :
    let a := bicycleInversePairFl L tenth p q
    let r := bicycleInversePair 0.1 true p.real q.real
    |a.accel.val - r.accel| ≤ 332 / 100000 ∧ |r.accel| ≤ 990 ∧
      |a.steering.val - r.steering| ≤ singleError * 1600 + 70 * singleError * |r.steering| := by
  intro a r
  obtain ⟨N, hN⟩ : ∃ N, norm2 (p.velX.val, p.velY.val) = N := ⟨_, rfl⟩
  obtain ⟨N', hN'⟩ : ∃ N', norm2 (q.velX.val, q.velY.val) = N' := ⟨_, rfl⟩
  have N0 : 0 ≤ N := by rw [← hN]; exact norm2_nonneg _
  have N0' : 0 ≤ N' := by rw [← hN']; exact norm2_nonneg _
  have ac := inverse_accel_close h hN hN'
  have s1 : √(p.real.velX ^ 2 + p.real.velY ^ 2) = N := hN
  have s2 : √(q.real.velX ^ 2 + q.real.velY ^ 2) = N' := hN'
  have rac : r.accel = (N' - N) / 0.1 := by
    show (√(q.real.velX ^ 2 + q.real.velY ^ 2) - √(p.real.velX ^ 2 + p.real.velY ^ 2)) / 0.1 = _
    rw [s1, s2]
  rw [hN] at hv
  rw [hN'] at hv'
  refine ⟨?_, ?_, ?_⟩
  · rw [rac]
    refine ac.trans ?_
    unfold singleError
    norm_num
    linarith
  · rw [rac, show (N' - N) / 0.1 = 10 * (N' - N) by norm_num; ring, abs_le]
    constructor <;> linarith
  · have rst : r.steering = if |N'| < 0.6 then 0 else if |N| < 0.6 then 0 else
        wrapYaws ((if |N'| ≤ 0.6 then wrapYaws q.real.yaw else arctan2 q.real.velY q.real.velX) - wrapYaws p.real.yaw) /
          (N * 0.1 + 0.5 * ((N' - N) / 0.1) * 0.1 ^ 2) := by
      show (bicycleInversePair 0.1 true p.real q.real).steering = _
      unfold bicycleInversePair
      simp only [s1, s2, if_true]
    rcases hc with ⟨c1, c2, b, hb, hba⟩ | hc
    · have c1' : 601 / 1000 ≤ N := by have : (0.601 : ℝ) ≤ N := by rw [← hN]; exact c1
                                      norm_num at this ⊢; exact this
      have c2' : 601 / 1000 ≤ N' := by have : (0.601 : ℝ) ≤ N' := by rw [← hN']; exact c2
                                       norm_num at this ⊢; exact this
      obtain ⟨-, f⟩ := inverse_fast h hN hN' c1' c2' hy
      obtain ⟨w, hw⟩ : ∃ w, w = wrapYaws (arctan2 q.velY.val q.velX.val - wrapYaws p.yaw.val) := ⟨_, rfl⟩
      rw [← hw] at f
      have hwb : w = b := by
        refine hw.trans (Eq.symm ((C21_wrap_unique _ _).2 ?_))
        have hp := pi_gt_d2
        obtain ⟨k, hk⟩ := hba
        obtain ⟨k2, hk2⟩ := ((C21_wrap_unique p.yaw.val _).1 rfl).2.2
        rw [abs_le] at hb
        refine ⟨by linarith [hb.1], by linarith [hb.2], -k - k2 + 2 * k2, ?_⟩
        rw [hk, hk2]
        show arctan2 q.velY.val q.velX.val - p.yaw.val + _ = _
        push_cast
        ring
      have hr : r.steering = w / ((N + N') / 20) := by
        rw [rst, if_neg (by rw [abs_of_nonneg N0']; norm_num; linarith), if_neg (by rw [abs_of_nonneg N0]; norm_num; linarith),
          if_neg (by rw [abs_of_nonneg N0']; norm_num; linarith), hw]
        show wrapYaws (arctan2 q.velY.val q.velX.val - wrapYaws p.yaw.val) / _ = _
        congr 1
        norm_num
        ring
      rw [hr]
      refine (f (by rw [hwb]; exact hb)).trans (le_of_eq ?_)
      ring
    · have hlim := (abs_le.1 (speedLimit_close h)).1
      have k40 : (2 : ℝ) ^ (-40 : ℤ) ≤ 1 / 10 ^ 12 := by norm_num
      have slow : ∀ {vx vy : Flt φ} {M : ℝ}, norm2 (vx.val, vy.val) = M → M ≤ 599 / 1000 →
          (speedFl L vx vy).abs < speedLimitFl φ := by
        intro vx vy M hM hM1
        have sN := (abs_le.1 (speed_norm h vx vy)).2
        have e : √(vx.val ^ 2 + vy.val ^ 2) = M := hM
        have M0 : 0 ≤ M := by rw [← hM]; exact norm2_nonneg _
        rw [e] at sN
        show |(speedFl L vx vy).val| < (speedLimitFl φ).val
        rw [abs_of_nonneg (speed_nonneg h _ _)]
        generalize (speedLimitFl φ).val = l at *
        generalize (speedFl L vx vy).val = sp at *
        generalize (2 : ℝ) ^ (-40 : ℤ) = k at *
        unfold singleError at *
        norm_num at *
        linarith
      have zero : a.steering.val = 0 ∧ r.steering = 0 := by
        rcases hc with hc | hc
        · have hc' : N ≤ 599 / 1000 := by have : N ≤ 0.599 := by rw [← hN]; exact hc
                                          norm_num at this ⊢; exact this
          constructor
          · show (bicycleInversePairFl L tenth p q).steering.val = 0
            unfold bicycleInversePairFl
            simp only
            rw [if_pos (slow hN hc')]
            split_ifs <;> rfl
          · rw [rst, if_pos (show |N| < 0.6 by rw [abs_of_nonneg N0]; norm_num; linarith)]
            split_ifs <;> rfl
        · have hc' : N' ≤ 599 / 1000 := by have : N' ≤ 0.599 := by rw [← hN']; exact hc
                                           norm_num at this ⊢; exact this
          constructor
          · show (bicycleInversePairFl L tenth p q).steering.val = 0
            unfold bicycleInversePairFl
            simp only
            rw [if_pos (slow hN' hc')]
          · rw [rst, if_pos (show |N'| < 0.6 by rw [abs_of_nonneg N0']; norm_num; linarith)]
      rw [zero.1, zero.2, sub_zero, abs_zero]
      unfold singleError
      norm_num

/-- C136: the expert's action in machine arithmetic is the expert's action over the real numbers up to 5e-3 in each entry, normalised or
not, on every pair of steps of a trajectory below 99 m/s on which rounding does not decide whether the steering is computed. -/
theorem C136_expert_accurate (hL : L.Accurate (2 ^ (-22 : ℤ))) {R : BicycleParams} (hdt : R.dt = 0.1)
    (ha : 1 ≤ R.maxAccel ∧ R.maxAccel ≤ 11) (hs : 0.1 ≤ R.maxSteering ∧ R.maxSteering ≤ 1) (traj : Fin n → Fin T → Pt (Flt φ))
    (info : Fin n → ObjMeta) {t t' : Fin T} (ht' : (t' : Nat) = t + 1) (i : Fin n)
    (hv : norm2 ((traj i t).velX.val, (traj i t).velY.val) ≤ 99) (hv' : norm2 ((traj i t').velX.val, (traj i t').velY.val) ≤ 99)
    (hy : |(traj i t).yaw.val| ≤ 4) (hc : ClearPair (traj i t).real (traj i t').real) :
    let a := (bicycleFl L R.machine).inverse traj info t i
    let r := (bicycle R).inverse (fun i t => (traj i t).real) info t i
    a.valid = r.valid ∧ |a.data.accel.val - r.data.accel| ≤ 5e-3 ∧ |a.data.steering.val - r.data.steering| ≤ 5e-3 := by
  rw [← singleError_eq] at hL
  intro a r
  have w1 := window2_eq (traj i) ht'
  have w2 := window2_eq (fun t => (traj i t).real) ht'
  have hsb : 1 / 10 ≤ R.maxSteering := by have := hs.1; norm_num at this ⊢; exact this
  obtain ⟨b, hb⟩ : ∃ b, b = bicycleComputeInverseFl L (traj i) t R.machine.dt := ⟨_, rfl⟩
  obtain ⟨c, hcc⟩ : ∃ c, c = bicycleComputeInverse (fun t => (traj i t).real) t R.dt := ⟨_, rfl⟩
  have hd1 : R.machine.dt = tenth := by
    show Flt.round float64 R.dt = Flt.round float64 0.1
    rw [hdt]
  have hvalid : b.valid = c.valid := by
    rw [hb, hcc]
    unfold bicycleComputeInverseFl bicycleComputeInverse
    simp only [w1, w2]
    rfl
  have hclose : |b.data.accel.val - c.data.accel| ≤ 332 / 100000 ∧ |c.data.accel| ≤ 990 ∧
      |b.data.steering.val - c.data.steering| ≤ singleError * 1600 + 70 * singleError * |c.data.steering| := by
    rw [hb, hcc]
    unfold bicycleComputeInverseFl bicycleComputeInverse
    simp only [w1, w2]
    show |(if ((traj i t).valid && (traj i t').valid) = true then bicycleInversePairFl L R.machine.dt (traj i t) (traj i t') else _).accel.val -
      (if ((traj i t).valid && (traj i t').valid) = true then bicycleInversePair R.dt true (traj i t).real (traj i t').real else _).accel| ≤ _ ∧
      |(if ((traj i t).valid && (traj i t').valid) = true then bicycleInversePair R.dt true (traj i t).real (traj i t').real else _).accel| ≤ _ ∧
      |(if ((traj i t).valid && (traj i t').valid) = true then bicycleInversePairFl L R.machine.dt (traj i t) (traj i t') else _).steering.val -
      (if ((traj i t).valid && (traj i t').valid) = true then bicycleInversePair R.dt true (traj i t).real (traj i t').real else _).steering| ≤
      _ + _ * |(if ((traj i t).valid && (traj i t').valid) = true then bicycleInversePair R.dt true (traj i t).real (traj i t').real else _).steering|
    cases ((traj i t).valid && (traj i t').valid) with
    | true =>
      simp only [if_true]
      rw [hd1, hdt]
      exact inverse_pair_close hL hv hv' hy hc
    | false =>
      simp only [Bool.false_eq_true, if_false]
      unfold singleError
      norm_num
  obtain ⟨k1, k2, k3⟩ := hclose
  have ea : a = { data := bicycleClipFl R.machine (if R.machine.normalizeActions then
      { accel := L.div b.data.accel (pyFloat φ R.machine.maxAccel), steering := L.div b.data.steering (pyFloat φ R.machine.maxSteering) }
      else b.data), valid := b.valid } := by rw [hb]; rfl
  have er : r = { data := bicycleClip R (if R.normalizeActions then
      { accel := c.data.accel / R.maxAccel, steering := c.data.steering / R.maxSteering } else c.data), valid := c.valid } := by
    rw [hcc]; rfl
  have se : 0 < singleError := by unfold singleError; norm_num
  have d0 := abs_nonneg c.data.steering
  refine ⟨by rw [ea, er]; exact hvalid, ?_⟩
  rw [ea, er]
  show |(Flt.clip _ (R.machine.accelBound φ).neg (R.machine.accelBound φ)).val - clip _ (-R.accelBound) R.accelBound| ≤ _ ∧
    |(Flt.clip _ (R.machine.steeringBound φ).neg (R.machine.steeringBound φ)).val - clip _ (-R.steeringBound) R.steeringBound| ≤ _
  unfold BicycleParamsFl.accelBound BicycleParamsFl.steeringBound BicycleParams.accelBound BicycleParams.steeringBound
  have hn : R.machine.normalizeActions = R.normalizeActions := rfl
  rw [hn]
  cases R.normalizeActions with
  | false =>
    simp only [Bool.false_eq_true, if_false]
    constructor
    · refine (clipped_close hL (X := c.data.accel) (m := R.maxAccel) (e0 := 332 / 100000) (δ := 0) (by linarith [ha.1]) ha.2 (by norm_num)
        (by norm_num) (by norm_num) (by linarith)).trans ?_
      unfold singleError
      norm_num
    · refine (clipped_close hL (X := c.data.steering) (m := R.maxSteering) (e0 := singleError * 1600) (δ := 70 * singleError) (by linarith)
        (by linarith [hs.2]) (by positivity) (by positivity) (by unfold singleError; norm_num) k3).trans ?_
      have := hs.2
      unfold singleError
      norm_num
      linarith
  | true =>
    simp only [if_true]
    constructor
    · have sc := scaled_close hL (x := b.data.accel) (X := c.data.accel) (m := R.maxAccel) (by linarith [ha.1])
      have m0 : 0 < R.maxAccel := by linarith [ha.1]
      have z1 : |c.data.accel / R.maxAccel| ≤ 990 := by
        rw [abs_div, abs_of_pos m0, div_le_iff₀ m0]
        nlinarith [ha.1]
      have z2 : |b.data.accel.val - c.data.accel| / R.maxAccel ≤ 332 / 100000 := by
        rw [div_le_iff₀ m0]
        nlinarith [ha.1]
      refine (clipped_one_close (e0 := 45 / 10000) (δ := 0) (X := c.data.accel / R.maxAccel) (by norm_num) (by norm_num) (by norm_num)
        (sc.trans ?_)).trans ?_
      · generalize |c.data.accel / R.maxAccel| = Y at *
        generalize |b.data.accel.val - c.data.accel| / R.maxAccel = Z at *
        unfold singleError
        norm_num
        linarith
      · norm_num
    · have sc := scaled_close hL (x := b.data.steering) (X := c.data.steering) (m := R.maxSteering) hsb
      have m0 : 0 < R.maxSteering := by linarith
      have z2 : |b.data.steering.val - c.data.steering| / R.maxSteering ≤
          singleError * 16000 + 70 * singleError * |c.data.steering / R.maxSteering| := by
        rw [div_le_iff₀ m0, add_mul, abs_div, abs_of_pos m0, mul_assoc _ (_ / _), div_mul_cancel₀ _ m0.ne']
        nlinarith
      refine (clipped_one_close (e0 := singleError * 16050) (δ := 74 * singleError) (X := c.data.steering / R.maxSteering) (by positivity)
        (by positivity) (by unfold singleError; norm_num) (sc.trans ?_)).trans ?_
      · have y0 := abs_nonneg (c.data.steering / R.maxSteering)
        generalize |c.data.steering / R.maxSteering| = Y at *
        generalize |b.data.steering.val - c.data.steering| / R.maxSteering = Z at *
        unfold singleError at *
        norm_num at *
        linarith
      · unfold singleError
        norm_num

end

/-- Non-vacuity of `C136_expert_accurate`: braking from 10 m/s to 9 m/s on a straight line. -/
example (normalize : Bool) :
    let traj : Fin 1 → Fin 4 → Pt (Flt float32) := fun _ t => { quarterPt (quarter 0) (quarter 0) (quarter 0) with
      velX := if t = 0 then quarter 40 else quarter 36 }
    |((bicycleFl (exactLibm float32) (BicycleParams.machine { normalizeActions := normalize })).inverse traj soloMeta 0 0).data.accel.val -
      (if normalize then -1 else -6)| ≤ 5e-3 := by
  intro traj
  have hn : ∀ k : ℤ, 0 ≤ k → norm2 ((k : ℝ) * 2 ^ (-2 : ℤ), ((0 : ℤ) : ℝ) * 2 ^ (-2 : ℤ)) = k / 4 := fun k hk => by
    unfold norm2
    rw [show ((k : ℝ) * 2 ^ (-2 : ℤ)) ^ 2 + (((0 : ℤ) : ℝ) * 2 ^ (-2 : ℤ)) ^ 2 = ((k : ℝ) / 4) ^ 2 by norm_num; ring,
      Real.sqrt_sq (by have : (0 : ℝ) ≤ k := by exact_mod_cast hk
                       positivity)]
  have n1 := hn 40 (by norm_num)
  have n2 := hn 36 (by norm_num)
  obtain ⟨-, h, -⟩ := C136_expert_accurate (R := { normalizeActions := normalize }) exactLibm_accurate rfl (by norm_num) (by norm_num)
    traj soloMeta (t := 0) (t' := 1) rfl 0
    (by show norm2 (((40 : ℤ) : ℝ) * 2 ^ (-2 : ℤ), ((0 : ℤ) : ℝ) * 2 ^ (-2 : ℤ)) ≤ 99; rw [n1]; norm_num)
    (by show norm2 (((36 : ℤ) : ℝ) * 2 ^ (-2 : ℤ), ((0 : ℤ) : ℝ) * 2 ^ (-2 : ℤ)) ≤ 99; rw [n2]; norm_num)
    (by show |((0 : ℤ) : ℝ) * 2 ^ (-2 : ℤ)| ≤ 4; norm_num)
    (Or.inl ⟨by show 0.601 ≤ norm2 (((40 : ℤ) : ℝ) * 2 ^ (-2 : ℤ), ((0 : ℤ) : ℝ) * 2 ^ (-2 : ℤ)); rw [n1]; norm_num,
      by show 0.601 ≤ norm2 (((36 : ℤ) : ℝ) * 2 ^ (-2 : ℤ), ((0 : ℤ) : ℝ) * 2 ^ (-2 : ℤ)); rw [n2]; norm_num, 0, by norm_num, 0, by
        show 0 = arctan2 (((0 : ℤ) : ℝ) * 2 ^ (-2 : ℤ)) (((36 : ℤ) : ℝ) * 2 ^ (-2 : ℤ)) - ((0 : ℤ) : ℝ) * 2 ^ (-2 : ℤ) + _
        unfold arctan2
        rw [show (⟨((36 : ℤ) : ℝ) * 2 ^ (-2 : ℤ), ((0 : ℤ) : ℝ) * 2 ^ (-2 : ℤ)⟩ : ℂ) = ((9 : ℝ) : ℂ) by
          apply Complex.ext <;> norm_num, Complex.arg_ofReal_of_nonneg (by norm_num)]
        norm_num⟩)
  refine le_trans (le_of_eq ?_) h
  congr 2
  have hw := window2_eq (fun t => (traj 0 t).real) (t := 0) (t' := 1) rfl
  have key : (bicycleComputeInverse (fun t => (traj 0 t).real) (0 : Fin 4) 0.1).data.accel = -10 := by
    unfold bicycleComputeInverse
    simp only [hw]
    show (if (true && true) = true then bicycleInversePair 0.1 true (traj 0 0).real (traj 0 1).real else _).accel = -10
    rw [Bool.and_self, if_pos rfl]
    show (norm2 (((36 : ℤ) : ℝ) * 2 ^ (-2 : ℤ), ((0 : ℤ) : ℝ) * 2 ^ (-2 : ℤ)) -
      norm2 (((40 : ℤ) : ℝ) * 2 ^ (-2 : ℤ), ((0 : ℤ) : ℝ) * 2 ^ (-2 : ℤ))) / 0.1 = -10
    rw [n1, n2]
    norm_num
  cases normalize with
  | true =>
    show -1 = clip ((bicycleComputeInverse (fun t => (traj 0 t).real) (0 : Fin 4) 0.1).data.accel / 6) (-1) 1
    rw [key]
    unfold clip
    norm_num
  | false =>
    show -6 = clip ((bicycleComputeInverse (fun t => (traj 0 t).real) (0 : Fin 4) 0.1).data.accel) (-6) 6
    rw [key]
    unfold clip
    norm_num

end Waymax
