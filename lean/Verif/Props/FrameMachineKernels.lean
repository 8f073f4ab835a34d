import Verif.Props.FrameMachine
/-
C156, continued: kernels that meet the accuracy assumptions, the observer at the origin, the cases in which accuracy is lost, and the
selection of the nearest road points.
-/

namespace Waymax

open Real

section
variable {φ : Format}

/-- The exact inverse, rounded. -/
noncomputable def roundedInv (φ : Format) (m : MatFl φ) : MatFl φ :=
  fun i j => Flt.round φ ((Matrix.of fun a b => (m a b).val)⁻¹ i j)

/-- Correctly rounded functions; products and sums are rounded one by one, from left to right. -/
noncomputable def FrameKernel.rounded (φ : Format) : FrameKernel φ where
  sin x := Flt.round φ (Real.sin x.val)
  cos x := Flt.round φ (Real.cos x.val)
  dot2 a b := ((a 0).mul (b 0)).add ((a 1).mul (b 1))
  dot3 a b := (((a 0).mul (b 0)).add ((a 1).mul (b 1))).add ((a 2).mul (b 2))
  inv := roundedInv φ

/-- Correctly rounded functions; a sum of products is rounded once. -/
noncomputable def FrameKernel.fused (φ : Format) : FrameKernel φ where
  sin x := Flt.round φ (Real.sin x.val)
  cos x := Flt.round φ (Real.cos x.val)
  dot2 a b := Flt.round φ ((a 0).val * (b 0).val + (a 1).val * (b 1).val)
  dot3 a b := Flt.round φ ((a 0).val * (b 0).val + (a 1).val * (b 1).val + (a 2).val * (b 2).val)
  inv := roundedInv φ

theorem roundedInv_one : roundedInv φ (identityFl φ) = identityFl φ := by
  have h1 : (Matrix.of fun a b => (identityFl φ a b).val) = (1 : Matrix (Fin 3) (Fin 3) ℝ) := by
    ext i j
    by_cases h : i = j <;> simp [identityFl, h, Flt.one_val, Flt.zero_val, Matrix.one_apply]
  funext i j
  unfold roundedInv
  rw [h1, inv_one]
  apply Flt.ext'
  by_cases h : i = j
  · rw [h]
    simp only [identityFl, if_true, Matrix.one_apply]
    rfl
  · simp only [identityFl, if_neg h, Matrix.one_apply]
    exact Format.fl_zero

theorem fl_one (φ : Format) : φ.fl 1 = 1 := Flt.one_val φ

theorem FrameKernel.rounded_accurate (hu : φ.u ≤ 1 / 64) : (FrameKernel.rounded φ).Accurate (4 * φ.u) where
  unit := by linarith [φ.u_pos]
  small := by linarith
  cos x := round_unit (Real.abs_cos_le_one _)
  sin x := round_unit (Real.abs_sin_le_one _)
  cos_zero x hx := by
    show φ.fl (Real.cos x.val) = 1
    rw [hx, Real.cos_zero, fl_one]
  sin_zero x hx := by
    show φ.fl (Real.sin x.val) = 0
    rw [hx, Real.sin_zero, Format.fl_zero]
  dot2 a b := by
    have u0 := φ.u_pos
    have e0 := φ.fl_err ((a 0).val * (b 0).val)
    have e1 := φ.fl_err ((a 1).val * (b 1).val)
    have e2 : |φ.fl (φ.fl ((a 0).val * (b 0).val) + φ.fl ((a 1).val * (b 1).val)) -
        (φ.fl ((a 0).val * (b 0).val) + φ.fl ((a 1).val * (b 1).val))| ≤ _ := Format.fl_add_rel (Format.rep_fl φ _) (Format.rep_fl φ _)
    show |φ.fl (φ.fl ((a 0).val * (b 0).val) + φ.fl ((a 1).val * (b 1).val)) - _| ≤ _
    generalize (a 0).val * (b 0).val = p at *
    generalize (a 1).val * (b 1).val = q at *
    generalize φ.fl p = p' at *
    generalize φ.fl q = q' at *
    generalize φ.fl (p' + q') = s at *
    have hp : |p'| ≤ |p| + (φ.u * |p| + φ.u) := by linarith [abs_sub_abs_le_abs_sub p' p]
    have hq : |q'| ≤ |q| + (φ.u * |q| + φ.u) := by linarith [abs_sub_abs_le_abs_sub q' q]
    have ht : |s - (p + q)| ≤ |s - (p' + q')| + |p' - p| + |q' - q| := by
      rw [show s - (p + q) = (s - (p' + q')) + (p' - p) + (q' - q) by ring]
      linarith [abs_add_le ((s - (p' + q')) + (p' - p)) (q' - q), abs_add_le (s - (p' + q')) (p' - p)]
    have hs : φ.u * |p' + q'| ≤ φ.u * (|p| + |q| + (φ.u * (|p| + |q|) + 2 * φ.u)) :=
      mul_le_mul_of_nonneg_left (by linarith [abs_add_le p' q']) u0.le
    have hz : φ.u * (φ.u * (|p| + |q|) + 2 * φ.u) ≤ φ.u * (|p| + |q| + 1) := by
      apply mul_le_mul_of_nonneg_left _ u0.le
      have : φ.u * (|p| + |q|) ≤ 1 / 64 * (|p| + |q|) := mul_le_mul_of_nonneg_right hu (by positivity)
      linarith [abs_nonneg p, abs_nonneg q]
    have h5 : 0 ≤ φ.u * |p| := by positivity
    have h6 : 0 ≤ φ.u * |q| := by positivity
    linarith
  dot3 a b := by
    have u0 := φ.u_pos
    have e0 := φ.fl_err ((a 0).val * (b 0).val)
    have e1 := φ.fl_err ((a 1).val * (b 1).val)
    have e3 := φ.fl_err ((a 2).val * (b 2).val)
    have e2 : |φ.fl (φ.fl ((a 0).val * (b 0).val) + φ.fl ((a 1).val * (b 1).val)) -
        (φ.fl ((a 0).val * (b 0).val) + φ.fl ((a 1).val * (b 1).val))| ≤ _ := Format.fl_add_rel (Format.rep_fl φ _) (Format.rep_fl φ _)
    have e4 : |φ.fl (φ.fl (φ.fl ((a 0).val * (b 0).val) + φ.fl ((a 1).val * (b 1).val)) + φ.fl ((a 2).val * (b 2).val)) -
        (φ.fl (φ.fl ((a 0).val * (b 0).val) + φ.fl ((a 1).val * (b 1).val)) + φ.fl ((a 2).val * (b 2).val))| ≤ _ :=
      Format.fl_add_rel (Format.rep_fl φ _) (Format.rep_fl φ _)
    show |φ.fl (φ.fl (φ.fl ((a 0).val * (b 0).val) + φ.fl ((a 1).val * (b 1).val)) + φ.fl ((a 2).val * (b 2).val)) - _| ≤ _
    generalize (a 0).val * (b 0).val = p at *
    generalize (a 1).val * (b 1).val = q at *
    generalize (a 2).val * (b 2).val = r at *
    generalize φ.fl p = p' at *
    generalize φ.fl q = q' at *
    generalize φ.fl r = r' at *
    generalize φ.fl (p' + q') = s at *
    generalize φ.fl (s + r') = w at *
    have hp : |p'| ≤ |p| + (φ.u * |p| + φ.u) := by linarith [abs_sub_abs_le_abs_sub p' p]
    have hq : |q'| ≤ |q| + (φ.u * |q| + φ.u) := by linarith [abs_sub_abs_le_abs_sub q' q]
    have hr : |r'| ≤ |r| + (φ.u * |r| + φ.u) := by linarith [abs_sub_abs_le_abs_sub r' r]
    have ht : |w - (p + q + r)| ≤ |w - (s + r')| + |s - (p' + q')| + |p' - p| + |q' - q| + |r' - r| := by
      rw [show w - (p + q + r) = (w - (s + r')) + (s - (p' + q')) + (p' - p) + (q' - q) + (r' - r) by ring]
      linarith [abs_add_le ((w - (s + r')) + (s - (p' + q')) + (p' - p) + (q' - q)) (r' - r),
        abs_add_le ((w - (s + r')) + (s - (p' + q')) + (p' - p)) (q' - q),
        abs_add_le ((w - (s + r')) + (s - (p' + q'))) (p' - p), abs_add_le (w - (s + r')) (s - (p' + q'))]
    have P0 := abs_nonneg p
    have Q0 := abs_nonneg q
    have R0 := abs_nonneg r
    have s1 : |p' + q'| ≤ |p| + |q| + (φ.u * (|p| + |q|) + 2 * φ.u) := by linarith [abs_add_le p' q']
    have s2 : |s| ≤ |p' + q'| + φ.u * |p' + q'| := by linarith [abs_sub_abs_le_abs_sub s (p' + q')]
    have s3 : |s + r'| ≤ |p' + q'| + φ.u * |p' + q'| + (|r| + (φ.u * |r| + φ.u)) := by linarith [abs_add_le s r']
    generalize |p| = P at *
    generalize |q| = Q at *
    generalize |r| = R at *
    generalize |p' + q'| = A at *
    generalize |s + r'| = B at *
    generalize φ.u = u at *
    have hA : A ≤ 65 / 64 * (P + Q) + 2 * u := by
      have : u * (P + Q) ≤ 1 / 64 * (P + Q) := mul_le_mul_of_nonneg_right hu (by linarith)
      linarith
    have hA' : A ≤ 65 / 64 * (P + Q) + 1 / 32 := by linarith
    have huA : u * A ≤ 1 / 64 * (65 / 64 * (P + Q) + 1 / 32) := by
      refine (mul_le_mul_of_nonneg_left hA' u0.le).trans (mul_le_mul_of_nonneg_right hu (by linarith))
    have hB : B ≤ 21 / 20 * (P + Q + R) + 1 / 16 := by
      have : u * R ≤ 1 / 64 * R := mul_le_mul_of_nonneg_right hu R0
      linarith
    have m1 : u * A ≤ u * (65 / 64 * (P + Q) + 1 / 32) := mul_le_mul_of_nonneg_left hA' u0.le
    have m2 : u * B ≤ u * (21 / 20 * (P + Q + R) + 1 / 16) := mul_le_mul_of_nonneg_left hB u0.le
    have z1 : 0 ≤ u * P := by positivity
    have z2 : 0 ≤ u * Q := by positivity
    have z3 : 0 ≤ u * R := by positivity
    linarith
  dot3_single a b j hz h1 := by
    have fz : φ.fl 0 = 0 := Format.fl_zero
    have ff (x : Flt φ) : φ.fl x.val = x.val := Format.fl_of_rep x.property
    show φ.fl (φ.fl (φ.fl ((a 0).val * (b 0).val) + φ.fl ((a 1).val * (b 1).val)) + φ.fl ((a 2).val * (b 2).val)) = _
    fin_cases j
    · have h1' : (b 0).val = 1 := h1
      rw [h1', hz 1 (by decide), hz 2 (by decide)]
      simp [fz, ff]
    · have h1' : (b 1).val = 1 := h1
      rw [h1', hz 0 (by decide), hz 2 (by decide)]
      simp [fz, ff]
    · have h1' : (b 2).val = 1 := h1
      rw [h1', hz 0 (by decide), hz 1 (by decide)]
      simp [fz, ff]
  inv_one := roundedInv_one

theorem FrameKernel.fused_accurate (hu : φ.u ≤ 1 / 64) : (FrameKernel.fused φ).Accurate (4 * φ.u) where
  unit := by linarith [φ.u_pos]
  small := by linarith
  cos x := round_unit (Real.abs_cos_le_one _)
  sin x := round_unit (Real.abs_sin_le_one _)
  cos_zero x hx := by
    show φ.fl (Real.cos x.val) = 1
    rw [hx, Real.cos_zero, fl_one]
  sin_zero x hx := by
    show φ.fl (Real.sin x.val) = 0
    rw [hx, Real.sin_zero, Format.fl_zero]
  dot2 a b := by
    have u0 := φ.u_pos
    refine (φ.fl_err _).trans ?_
    have := mul_le_mul_of_nonneg_left (abs_add_le ((a 0).val * (b 0).val) ((a 1).val * (b 1).val)) u0.le
    have h5 : 0 ≤ φ.u * |(a 0).val * (b 0).val| := by positivity
    have h6 : 0 ≤ φ.u * |(a 1).val * (b 1).val| := by positivity
    linarith
  dot3 a b := by
    have u0 := φ.u_pos
    refine (φ.fl_err _).trans ?_
    have t := (abs_add_le ((a 0).val * (b 0).val + (a 1).val * (b 1).val) ((a 2).val * (b 2).val)).trans
      (add_le_add_left (abs_add_le ((a 0).val * (b 0).val) ((a 1).val * (b 1).val)) _)
    have := mul_le_mul_of_nonneg_left t u0.le
    have h5 : 0 ≤ φ.u * |(a 0).val * (b 0).val| := by positivity
    have h6 : 0 ≤ φ.u * |(a 1).val * (b 1).val| := by positivity
    have h7 : 0 ≤ φ.u * |(a 2).val * (b 2).val| := by positivity
    linarith
  dot3_single a b j hz h1 := by
    have ff (x : Flt φ) : φ.fl x.val = x.val := Format.fl_of_rep x.property
    show φ.fl ((a 0).val * (b 0).val + (a 1).val * (b 1).val + (a 2).val * (b 2).val) = _
    fin_cases j
    · have h1' : (b 0).val = 1 := h1
      rw [h1', hz 1 (by decide), hz 2 (by decide)]
      simp [ff]
    · have h1' : (b 1).val = 1 := h1
      rw [h1', hz 0 (by decide), hz 2 (by decide)]
      simp [ff]
    · have h1' : (b 2).val = 1 := h1
      rw [h1', hz 0 (by decide), hz 1 (by decide)]
      simp [ff]
  inv_one := roundedInv_one

theorem float32_unit : float32.u ≤ 1 / 64 := by
  show (2 : ℝ) ^ (-(24 : ℤ)) ≤ 1 / 64
  norm_num

/-- With products and sums rounded one by one, an observer sees itself exactly at the origin, wherever it is and whatever its heading. -/
theorem C156_observer_rounded (hu : φ.u ≤ 1 / 64) : ObserverAtOriginFl (FrameKernel.rounded φ) := by
  intro n k traj rg tls i t
  obtain ⟨hm, hy, hv⟩ := combine_global (FrameKernel.rounded_accurate hu)
    (Pose2DFl.fromCenterAndYaw (FrameKernel.rounded φ) ((traj i t).x, (traj i t).y) (traj i t).yaw (traj i t).valid)
  simp only [observeFromFl, transformObservationFl, transformTrajectoryPtFl, hm, hy, hv]
  have ff (x : Flt φ) : φ.fl x.val = x.val := Format.fl_of_rep x.property
  generalize (traj i t).x = x
  generalize (traj i t).y = y
  have hone : φ.fl 1 = 1 := fl_one φ
  constructor
  · generalize hc : (FrameKernel.rounded φ).cos (traj i t).yaw.neg = c
    generalize hs : (FrameKernel.rounded φ).sin (traj i t).yaw.neg = s
    have : (transformPointsFl (FrameKernel.rounded φ) (poseMatrixFl (FrameKernel.rounded φ) (x, y) (traj i t).yaw) (x, y)).1.val =
        φ.fl (φ.fl (φ.fl (x.val * c.val) + φ.fl (y.val * -s.val)) + φ.fl (φ.fl 1 * -φ.fl (φ.fl (c.val * x.val) - φ.fl (s.val * y.val)))) := by
      rw [← hc, ← hs]
      rfl
    refine this.trans ?_
    rw [hone, one_mul, Format.fl_neg, Format.fl_fl, mul_neg, Format.fl_neg, mul_comm x.val, mul_comm y.val, sub_eq_add_neg,
      add_neg_cancel, Format.fl_zero]
  · generalize hc : (FrameKernel.rounded φ).cos (traj i t).yaw.neg = c
    generalize hs : (FrameKernel.rounded φ).sin (traj i t).yaw.neg = s
    have : (transformPointsFl (FrameKernel.rounded φ) (poseMatrixFl (FrameKernel.rounded φ) (x, y) (traj i t).yaw) (x, y)).2.val =
        φ.fl (φ.fl (φ.fl (x.val * s.val) + φ.fl (y.val * c.val)) + φ.fl (φ.fl 1 * -φ.fl (φ.fl (s.val * x.val) + φ.fl (c.val * y.val)))) := by
      rw [← hc, ← hs]
      rfl
    refine this.trans ?_
    rw [hone, one_mul, Format.fl_neg, Format.fl_fl, mul_comm x.val, mul_comm y.val, add_neg_cancel, Format.fl_zero]

end

/-! ### Where accuracy is lost -/

/-- A number of single precision that is an integer. -/
noncomputable def intFl (k : ℤ) (hk : |k| < 2 ^ 24) : Flt float32 := ⟨k, k, 0, hk, by decide, by norm_num⟩

/-- A car at `(2 ^ 24 - 1, 0)` with heading 1/2. -/
noncomputable def farCar : Pt (Flt float32) :=
  { x := intFl 16777215 (by norm_num), y := Flt.zero _, z := Flt.zero _, velX := Flt.zero _, velY := Flt.zero _,
    yaw := ⟨1 * 2 ^ (-1 : ℤ), 1, -1, by decide, by decide, by norm_num⟩, valid := true, timestampMicros := 0, length := intFl 4 (by norm_num),
    width := intFl 2 (by norm_num), height := intFl 2 (by norm_num) }

theorem cos_half : 7 / 8 ≤ Real.cos (1 / 2) ∧ Real.cos (1 / 2) ≤ 31 / 32 := by
  constructor
  · have := Real.one_sub_sq_div_two_le_cos (x := 1 / 2)
    linarith
  · have hpi := Real.pi_le_four
    have hpi3 := Real.pi_gt_three
    have := Real.cos_le_one_sub_mul_cos_sq (x := 1 / 2) (by rw [abs_of_pos] <;> linarith)
    have h2 : 2 / π ^ 2 ≥ 1 / 8 := by
      rw [ge_iff_le, div_le_div_iff₀ (by norm_num) (by positivity)]
      nlinarith
    nlinarith

/-- With fused products an observer does not see itself at the origin. -/
theorem C156_observer_violated : ¬ ObserverAtOriginFl (FrameKernel.fused float32) := by
  intro hall
  have h1 := (hall (n := 1) (k := 1) (fun _ _ => farCar) [] [] 0 0).1
  obtain ⟨hm, hy, hv⟩ := combine_global (FrameKernel.fused_accurate float32_unit)
    (Pose2DFl.fromCenterAndYaw (FrameKernel.fused float32) (farCar.x, farCar.y) farCar.yaw farCar.valid)
  simp only [observeFromFl, transformObservationFl, transformTrajectoryPtFl, hm, hy, hv] at h1
  obtain ⟨c, hc⟩ : ∃ c, c = (FrameKernel.fused float32).cos farCar.yaw.neg := ⟨_, rfl⟩
  obtain ⟨s, hs⟩ : ∃ s, s = (FrameKernel.fused float32).sin farCar.yaw.neg := ⟨_, rfl⟩
  have e : (transformPointsFl (FrameKernel.fused float32) (poseMatrixFl (FrameKernel.fused float32) (farCar.x, farCar.y) farCar.yaw)
      (farCar.x, farCar.y)).1.val = float32.fl (((16777215 : ℤ) : ℝ) * c.val + 0 * -s.val +
        float32.fl 1 * -float32.fl (float32.fl (c.val * ((16777215 : ℤ) : ℝ)) - float32.fl (s.val * 0))) := by
    rw [hc, hs]
    rfl
  have e' := e.symm.trans h1
  rw [fl_one, one_mul, zero_mul, add_zero, mul_zero, Format.fl_zero, sub_zero, Format.fl_fl, mul_comm c.val, ← sub_eq_add_neg] at e'
  -- the product is a number of the format
  have hcv : c.val = float32.fl (Real.cos (1 / 2)) := by
    rw [hc]
    show float32.fl (Real.cos (-(1 * 2 ^ (-1 : ℤ)))) = _
    rw [Real.cos_neg]
    norm_num
  have r1 : float32.Rep (7 / 8) := ⟨7, -3, by decide, by decide, by norm_num⟩
  have r2 : float32.Rep (31 / 32) := ⟨31, -5, by decide, by decide, by norm_num⟩
  have c1 : 7 / 8 ≤ c.val := hcv ▸ Format.le_fl_of_rep r1 cos_half.1
  have c2 : c.val ≤ 31 / 32 := hcv ▸ Format.fl_le_of_rep r2 cos_half.2
  obtain ⟨m, hm'⟩ := c.property.gap (e := -24) (by
    rw [abs_of_pos (by linarith)]
    norm_num [float32]
    linarith)
  have m1 : 0 < m := by
    by_contra hneg
    have : (m : ℝ) ≤ 0 := by exact_mod_cast not_lt.1 hneg
    have h2 : (0 : ℝ) < 2 ^ (-24 : ℤ) := by norm_num
    nlinarith
  have m2 : m < 16777216 := by
    by_contra hneg
    have : (16777216 : ℝ) ≤ m := by exact_mod_cast not_lt.1 hneg
    have h2 : (2 : ℝ) ^ (-24 : ℤ) = 1 / 16777216 := by norm_num
    rw [h2] at hm'
    linarith
  have hprod : ((16777215 : ℤ) : ℝ) * c.val = ((16777215 * m : ℤ) : ℝ) * 2 ^ (-24 : ℤ) := by
    rw [hm']
    push_cast
    ring
  obtain ⟨j, hj⟩ := Format.fl_grid (φ := float32) (k := 16777215 * m) (e := -24) (by decide)
  rw [← hprod] at hj
  have hz : ((16777215 : ℤ) : ℝ) * c.val - float32.fl (((16777215 : ℤ) : ℝ) * c.val) = ((16777215 * m - j : ℤ) : ℝ) * 2 ^ (-24 : ℤ) := by
    rw [hj, hprod]
    push_cast
    ring
  rw [hz] at e'
  have r3 : float32.Rep (2 ^ (-24 : ℤ)) := ⟨1, -24, by decide, by decide, by norm_num⟩
  have r4 : (0 : ℝ) < 2 ^ (-24 : ℤ) := by norm_num
  have hk : 16777215 * m - j = 0 := by
    by_contra hne
    rcases lt_or_gt_of_ne hne with hlt | hgt
    · have : ((16777215 * m - j : ℤ) : ℝ) ≤ -1 := by exact_mod_cast (by omega : 16777215 * m - j ≤ -1)
      have := Format.fl_le_of_rep r3.neg (x := ((16777215 * m - j : ℤ) : ℝ) * 2 ^ (-24 : ℤ)) (by nlinarith)
      linarith
    · have : (1 : ℝ) ≤ ((16777215 * m - j : ℤ) : ℝ) := by exact_mod_cast (by omega : 1 ≤ 16777215 * m - j)
      have := Format.le_fl_of_rep r3 (x := ((16777215 * m - j : ℤ) : ℝ) * 2 ^ (-24 : ℤ)) (by nlinarith)
      linarith
  have hrep : float32.Rep (((16777215 : ℤ) : ℝ) * c.val) := by
    rw [hprod, show 16777215 * m = j by omega, ← hj]
    exact Format.rep_fl _ _
  obtain ⟨k, hk'⟩ := hrep.gap (e := 0) (by
    rw [abs_of_pos (by push_cast; linarith)]
    push_cast
    norm_num [float32]
    linarith)
  rw [hprod] at hk'
  have : (16777215 * m : ℤ) = k * 16777216 := by
    have h2 : (2 : ℝ) ^ (-24 : ℤ) = 1 / 16777216 := by norm_num
    rw [h2, zpow_zero, mul_one] at hk'
    have h3 : ((16777215 * m : ℤ) : ℝ) = ((k * 16777216 : ℤ) : ℝ) := by
      push_cast at hk' ⊢
      linarith
    exact_mod_cast h3
  omega

/-- A car that creeps, seen from sixteen kilometres east of the origin of the map. -/
noncomputable def creeping : Row7Fl float32 :=
  { xy := (intFl 16384 (by norm_num), Flt.zero _), length := intFl 4 (by norm_num), width := intFl 2 (by norm_num), yaw := Flt.zero _,
    vel := (⟨1 * 2 ^ (-12 : ℤ), 1, -12, by decide, by decide, by norm_num⟩, Flt.zero _) }

/-- `transform_trajectories` loses velocities: a car that moves is reported to stand still. -/
theorem creeping_stands : (transformTrajectoriesFl (FrameKernel.rounded float32) creeping
    (poseMatrixFl (FrameKernel.rounded float32) creeping.xy creeping.yaw) creeping.yaw.neg).vel.1.val = 0 := by
  have hc : ((FrameKernel.rounded float32).cos creeping.yaw.neg).val = 1 :=
    (FrameKernel.rounded_accurate float32_unit).cos_zero _ (by show -(0 : ℝ) = 0; simp)
  have hs : ((FrameKernel.rounded float32).sin creeping.yaw.neg).val = 0 :=
    (FrameKernel.rounded_accurate float32_unit).sin_zero _ (by show -(0 : ℝ) = 0; simp)
  have e : ((transformTrajectoriesFl (FrameKernel.rounded float32) creeping
      (poseMatrixFl (FrameKernel.rounded float32) creeping.xy creeping.yaw) creeping.yaw.neg).vel.1).val =
      float32.fl (float32.fl (float32.fl (float32.fl (1 * 2 ^ (-12 : ℤ) * ((FrameKernel.rounded float32).cos creeping.yaw.neg).val) +
        float32.fl (0 * -((FrameKernel.rounded float32).sin creeping.yaw.neg).val)) +
        float32.fl (float32.fl 1 * -float32.fl (float32.fl (((FrameKernel.rounded float32).cos creeping.yaw.neg).val * ((16384 : ℤ) : ℝ)) -
          float32.fl (((FrameKernel.rounded float32).sin creeping.yaw.neg).val * 0)))) -
      float32.fl (float32.fl (float32.fl (0 * ((FrameKernel.rounded float32).cos creeping.yaw.neg).val) +
        float32.fl (0 * -((FrameKernel.rounded float32).sin creeping.yaw.neg).val)) +
        float32.fl (float32.fl 1 * -float32.fl (float32.fl (((FrameKernel.rounded float32).cos creeping.yaw.neg).val * ((16384 : ℤ) : ℝ)) -
          float32.fl (((FrameKernel.rounded float32).sin creeping.yaw.neg).val * 0))))) := rfl
  refine e.trans ?_
  rw [hc, hs]
  have r1 : float32.fl (2 ^ (-12 : ℤ)) = 2 ^ (-12 : ℤ) := Format.fl_of_rep ⟨1, -12, by decide, by decide, by norm_num⟩
  have r2 : float32.fl 16384 = 16384 := Format.fl_of_rep ⟨16384, 0, by decide, by decide, by norm_num⟩
  have r3 : float32.fl (2 ^ (-12 : ℤ) + -16384) = -16384 := by
    rw [Format.fl_eq (φ := float32) (x := 2 ^ (-12 : ℤ) + -16384) (e := -10) (by norm_num [float32, abs_of_neg])
      (by norm_num [float32, abs_of_neg]) (by decide), rint_eq_of_abs_lt (k := -16777216) (by norm_num)]
    norm_num
  have r4 : float32.fl (-16384) = -16384 := by rw [Format.fl_neg, r2]
  push_cast
  simp only [mul_one, one_mul, neg_zero, mul_zero, zero_mul, Format.fl_zero, add_zero, zero_add, sub_zero, fl_one, r1, r2, r4, r3,
    sub_self]

/-- Velocities given by `transform_trajectories` are not as accurate as those of an observation. -/
theorem C156_transform_trajectories_violated : ¬ VelocitiesAccurateFl (FrameKernel.rounded float32) (4 * float32.u) := by
  intro hall
  obtain ⟨e, he, h1, -⟩ := hall creeping creeping.xy creeping.yaw
  rw [creeping_stands] at h1
  unfold SeenDir heading leftOf at he
  have h2 := congrArg Prod.fst he
  have hy : creeping.yaw.val = 0 := rfl
  have hv : creeping.vel.1.val = 1 * 2 ^ (-12 : ℤ) := rfl
  have hw : creeping.vel.2.val = 0 := rfl
  simp only [hy, Real.cos_zero, Real.sin_zero, hv] at h2
  have he1 : e.1 = 2 ^ (-12 : ℤ) := by linarith
  have hu : float32.u = 2 ^ (-(24 : ℤ)) := rfl
  rw [hv, hw, hu] at h1
  unfold dirMargin size2 at h1
  simp only [he1] at h1
  norm_num at h1

/-- The numbers in single precision: with map coordinates of at most ten kilometres in each direction, everything within a hundred metres
of the observer in each direction is seen with an error below three centimetres. -/
theorem C156_numbers {c p : ℝ × ℝ} (hc1 : |c.1| ≤ 10000) (hc2 : |c.2| ≤ 10000) (hp1 : |p.1| ≤ 10000) (hp2 : |p.2| ≤ 10000)
    (h1 : |p.1 - c.1| ≤ 100) (h2 : |p.2 - c.2| ≤ 100) : frameMargin (4 * float32.u) c p < 3 / 100 := by
  have hu : float32.u = 2 ^ (-(24 : ℤ)) := rfl
  unfold frameMargin size2
  rw [hu, show (2 : ℝ) ^ (-(24 : ℤ)) = 1 / 16777216 by norm_num]
  simp only
  linarith

/-- Velocities of at most a hundred metres per second in each direction are seen with an error below a tenth of a millimetre per second,
wherever the observer is. -/
theorem C156_velocity_numbers {v : ℝ × ℝ} (h1 : |v.1| ≤ 100) (h2 : |v.2| ≤ 100) : dirMargin (4 * float32.u) v < 1 / 10000 := by
  have hu : float32.u = 2 ^ (-(24 : ℤ)) := rfl
  unfold dirMargin size2
  rw [hu, show (2 : ℝ) ^ (-(24 : ℤ)) = 1 / 16777216 by norm_num]
  linarith

/-! ### Nearest road points -/

/-- The selected road points are the nearest ones up to the rounding of distances: every valid point that is left out is, up to the
tolerance, no nearer than any selected one, and then all selected points are valid. Geometry and validity are copied. -/
theorem C156_nearest {L : Libm float32} {ε : ℝ} (h : L.Accurate ε) {rg out : List (RgPoint (Flt float32))} {ref : Flt float32 × Flt float32}
    {topk : Nat} (hk : topk < rg.length) (ho : filterTopkFl L rg ref topk = .ok out) :
    ∃ sel : List (Fin rg.length), sel.Nodup ∧ sel.length = topk ∧
      List.Forall₂ (fun i q => q.x = rg[i].x ∧ q.y = rg[i].y ∧ q.z = rg[i].z ∧ q.dirX = rg[i].dirX ∧ q.dirY = rg[i].dirY ∧
        q.dirZ = rg[i].dirZ ∧ q.valid = rg[i].valid) sel out ∧
      ∀ i ∈ sel, ∀ j, j ∉ sel → rg[j].valid = true →
        rg[i].valid = true ∧
        let d := fun k : Fin rg.length => dist2 (ref.1.val, ref.2.val) (rg[k].x.val, rg[k].y.val)
        d i - distanceTolerance ε (d i) ≤ d j + distanceTolerance ε (d j) := by
  unfold filterTopkFl at ho
  rw [if_neg (by omega), if_pos hk] at ho
  simp only [Except.ok.injEq] at ho
  obtain ⟨key, hkey⟩ : ∃ key : Fin rg.length → WithTop ℝ, key = fun i : Fin rg.length =>
    (orInf rg[i].valid (distFl L ref (rg[i].x, rg[i].y)).val : WithTop ℝ) := ⟨_, rfl⟩
  obtain ⟨rest, hperm, hpw⟩ := topKIdx_lex key topk
  have hnd : (topKIdx key topk ++ rest).Nodup := hperm.nodup_iff.2 (List.nodup_finRange _)
  refine ⟨topKIdx key topk, (List.nodup_append.1 hnd).1, ?_, ?_, ?_⟩
  · unfold topKIdx
    rw [List.length_take, List.length_mergeSort, List.length_finRange]
    omega
  · rw [← ho, ← hkey, List.forall₂_map_right_iff]
    exact List.forall₂_same.2 fun i _ => ⟨rfl, rfl, rfl, rfl, rfl, rfl, rfl⟩
  · intro i hi j hj hv
    have hjr : j ∈ rest := by
      have : j ∈ topKIdx key topk ++ rest := hperm.mem_iff.2 (List.mem_finRange j)
      rcases List.mem_append.1 this with h1 | h1
      · exact absurd h1 hj
      · exact h1
    have hle : key i ≤ key j := by
      rcases (List.pairwise_append.1 hpw).2.2 i hi j hjr with h1 | h1
      · exact h1.le
      · exact h1.1.le
    rw [hkey] at hle
    simp only [orInf, hv, if_true] at hle
    have hvi : rg[i].valid = true := by
      by_contra hn
      rw [if_neg hn] at hle
      exact absurd (top_le_iff.1 hle) (WithTop.coe_ne_top)
    rw [if_pos hvi] at hle
    have hle' := WithTop.coe_le_coe.1 hle
    refine ⟨hvi, ?_⟩
    have a1 := abs_le.1 (distFl_close h ref (rg[i].x, rg[i].y))
    have a2 := abs_le.1 (distFl_close h ref (rg[j].x, rg[j].y))
    show dist2 _ _ - distanceTolerance ε (dist2 _ _) ≤ dist2 _ _ + distanceTolerance ε (dist2 _ _)
    linarith [a1.1, a1.2, a2.1, a2.2]

/-- The selection is possible exactly when no more points are asked for than there are; asking for all of them returns the map
unchanged. -/
theorem C156_nearest_possible (L : Libm float32) (rg : List (RgPoint (Flt float32))) (ref : Flt float32 × Flt float32) (topk : Nat) :
    ((∃ out, filterTopkFl L rg ref topk = .ok out) ↔ topk ≤ rg.length) ∧ filterTopkFl L rg ref rg.length = .ok rg := by
  unfold filterTopkFl
  refine ⟨⟨fun ⟨out, ho⟩ => ?_, fun h => ?_⟩, ?_⟩
  · by_contra hn
    rw [if_pos (by omega)] at ho
    exact absurd ho (by simp)
  · rw [if_neg (by omega)]
    split <;> exact ⟨_, rfl⟩
  · rw [if_neg (by omega), if_neg (by omega)]

/-- Types and identifiers that single precision represents (up to 2^24 in size) are those of points of the map. -/
theorem C156_nearest_labels {L : Libm float32} {rg out : List (RgPoint (Flt float32))} {ref : Flt float32 × Flt float32}
    {topk : Nat} (ho : filterTopkFl L rg ref topk = .ok out)
    (hsmall : ∀ p ∈ rg, p.type.natAbs ≤ 2 ^ 24 ∧ p.id.natAbs ≤ 2 ^ 24) : ∀ q ∈ out, q ∈ rg := by
  unfold filterTopkFl at ho
  split at ho
  · exact absurd ho (by simp)
  · split at ho
    · simp only [Except.ok.injEq] at ho
      intro q hq
      rw [← ho, List.mem_map] at hq
      obtain ⟨i, -, rfl⟩ := hq
      have hm : rg[i] ∈ rg := List.getElem_mem _
      obtain ⟨h1, h2⟩ := hsmall _ hm
      rw [f32OfInt_small h1, f32OfInt_small h2]
      exact hm
    · simp only [Except.ok.injEq] at ho
      rw [ho]
      exact fun q hq => hq

/-! ### Non-vacuity -/

example : (FrameKernel.rounded float32).Accurate (4 * float32.u) := FrameKernel.rounded_accurate float32_unit
example : (FrameKernel.fused float32).Accurate (4 * float32.u) := FrameKernel.fused_accurate float32_unit

/-- A car at `(x, 3)` with heading 1/2, moving. -/
noncomputable def movingCar (x : ℤ) (hx : |x| < 2 ^ 24) : Pt (Flt float32) :=
  { farCar with x := intFl x hx, y := intFl 3 (by norm_num), velX := intFl 5 (by norm_num) }

/-- Two cars forty metres apart, four kilometres east of the origin: the second is seen by the first forty metres away, to within six
centimetres. -/
example : let traj : Traj (Flt float32) 2 1 := fun i _ => if i = 0 then movingCar 4000 (by norm_num) else movingCar 4040 (by norm_num)
    let o := observeFromFl (FrameKernel.rounded float32) traj [] [] (traj 0 0)
    |dist2 (0, 0) ((o.trajectory 1 0).x.val, (o.trajectory 1 0).y.val) - 40| < 6 / 100 := by
  intro traj o
  obtain ⟨h0, h1⟩ : (o.trajectory 0 0).x.val = 0 ∧ (o.trajectory 0 0).y.val = 0 := C156_observer_rounded float32_unit traj [] [] 0 0
  have h := C156_distances (FrameKernel.rounded_accurate float32_unit) traj [] [] (traj 0 0) 0 1 0 0
  have e0 : ((traj 0 0).x.val, (traj 0 0).y.val) = (4000, 3) := by simp [traj, movingCar, intFl]
  have e1 : ((traj 1 0).x.val, (traj 1 0).y.val) = (4040, 3) := by simp [traj, movingCar, intFl]
  simp only [e0, e1] at h
  change |dist2 ((o.trajectory 0 0).x.val, (o.trajectory 0 0).y.val) ((o.trajectory 1 0).x.val, (o.trajectory 1 0).y.val) - _| ≤ _ at h
  rw [h0, h1] at h
  have hd : dist2 ((4000 : ℝ), (3 : ℝ)) (4040, 3) = 40 := by
    unfold dist2
    rw [show ((4000 : ℝ), (3 : ℝ)).1 = 4000 from rfl]
    norm_num
    rw [show (1600 : ℝ) = 40 ^ 2 by norm_num, Real.sqrt_sq (by norm_num)]
  rw [hd] at h
  have m1 : frameMargin (4 * float32.u) ((4000 : ℝ), (3 : ℝ)) (4000, 3) < 3 / 200 := by
    have hu : float32.u = 2 ^ (-(24 : ℤ)) := rfl
    unfold frameMargin size2
    rw [hu]
    norm_num
  have m2 : frameMargin (4 * float32.u) ((4000 : ℝ), (3 : ℝ)) (4040, 3) < 3 / 200 := by
    have hu : float32.u = 2 ^ (-(24 : ℤ)) := rfl
    unfold frameMargin size2
    rw [hu]
    norm_num
  linarith

/-- One road point of two is selected. -/
example : ∃ out, filterTopkFl (exactLibm float32)
    [⟨intFl 5 (by norm_num), Flt.zero _, Flt.zero _, Flt.zero _, Flt.zero _, Flt.zero _, 1, 7, true⟩,
     ⟨intFl 1 (by norm_num), Flt.zero _, Flt.zero _, Flt.zero _, Flt.zero _, Flt.zero _, 1, 8, true⟩] (Flt.zero _, Flt.zero _) 1 = .ok out :=
  ⟨_, rfl⟩

end Waymax
