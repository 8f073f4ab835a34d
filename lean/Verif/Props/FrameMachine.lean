import Verif.Model.MachineFrame
import Verif.Spec.Frame
import Verif.Props.OverlapMachine
import Verif.Props.MetricsMachine
import Verif.Props.Roadgraph
/-
C156: what an observer sees, in machine arithmetic.
-/

namespace Waymax

open Real

/-- The matrix that changes nothing. -/
noncomputable def identityFl (φ : Format) : MatFl φ := fun i j => if i = j then Flt.one φ else Flt.zero φ

/-- The kernel computes sine, cosine and sums of products with errors of at most `ε`; sine and cosine of zero, sums with one term and
the inverse of the identity are exact. -/
structure FrameKernel.Accurate {φ : Format} (K : FrameKernel φ) (ε : ℝ) : Prop where
  unit : 2 * φ.u ≤ ε
  small : ε ≤ 1 / 16
  cos : ∀ x : Flt φ, |(K.cos x).val - Real.cos x.val| ≤ ε ∧ |(K.cos x).val| ≤ 1
  sin : ∀ x : Flt φ, |(K.sin x).val - Real.sin x.val| ≤ ε ∧ |(K.sin x).val| ≤ 1
  cos_zero : ∀ x : Flt φ, x.val = 0 → (K.cos x).val = 1
  sin_zero : ∀ x : Flt φ, x.val = 0 → (K.sin x).val = 0
  dot2 : ∀ a b : Fin 2 → Flt φ, |(K.dot2 a b).val - ((a 0).val * (b 0).val + (a 1).val * (b 1).val)| ≤
    ε * (|(a 0).val * (b 0).val| + |(a 1).val * (b 1).val|) + ε
  dot3 : ∀ a b : Fin 3 → Flt φ, |(K.dot3 a b).val - ((a 0).val * (b 0).val + (a 1).val * (b 1).val + (a 2).val * (b 2).val)| ≤
    ε * (|(a 0).val * (b 0).val| + |(a 1).val * (b 1).val| + |(a 2).val * (b 2).val|) + ε
  dot3_single : ∀ (a b : Fin 3 → Flt φ) (j : Fin 3), (∀ k, k ≠ j → (b k).val = 0) → (b j).val = 1 → (K.dot3 a b).val = (a j).val
  inv_one : K.inv (identityFl φ) = identityFl φ

section
variable {φ : Format} {K : FrameKernel φ} {ε : ℝ}

theorem Flt.one_val (φ : Format) : (Flt.one φ).val = 1 := by
  show φ.fl 1 = 1
  have := φ.two_le
  have := φ.normal_one
  refine Format.fl_of_rep ⟨1, 0, ?_, by omega, by norm_num⟩
  rw [abs_one]
  exact_mod_cast Nat.one_lt_two_pow (by omega)

theorem Flt.zero_val (φ : Format) : (Flt.zero φ).val = 0 := rfl

theorem Flt.neg_val (a : Flt φ) : a.neg.val = -a.val := rfl

namespace FrameKernel.Accurate

variable (h : K.Accurate ε)

include h

theorem pos : 0 < ε := by have := φ.u_pos; linarith [h.unit]

/-- The translation column of a pose. -/
theorem shift {a b x y : Flt φ} (ha : |a.val| ≤ 1) (hb : |b.val| ≤ 1) :
    |((a.mul x).add (b.mul y)).val - (a.val * x.val + b.val * y.val)| ≤ ε * (51 / 50 * (|x.val| + |y.val|) + 21 / 20) := by
  have hu := φ.u_pos
  have h2 := h.unit
  have hs := h.small
  have e1 : |(a.mul x).val - a.val * x.val| ≤ φ.u * |x.val| + φ.u := by
    refine (φ.fl_err _).trans ?_
    rw [abs_mul]
    have := mul_le_mul_of_nonneg_right ha (abs_nonneg x.val)
    have := mul_le_mul_of_nonneg_left this hu.le
    linarith
  have e2 : |(b.mul y).val - b.val * y.val| ≤ φ.u * |y.val| + φ.u := by
    refine (φ.fl_err _).trans ?_
    rw [abs_mul]
    have := mul_le_mul_of_nonneg_right hb (abs_nonneg y.val)
    have := mul_le_mul_of_nonneg_left this hu.le
    linarith
  have e3 : |((a.mul x).add (b.mul y)).val - ((a.mul x).val + (b.mul y).val)| ≤ φ.u * |(a.mul x).val + (b.mul y).val| :=
    Format.fl_add_rel (a.mul x).property (b.mul y).property
  have bx : |a.val * x.val| ≤ |x.val| := by
    rw [abs_mul]
    have := mul_le_mul_of_nonneg_right ha (abs_nonneg x.val)
    linarith
  have by' : |b.val * y.val| ≤ |y.val| := by
    rw [abs_mul]
    have := mul_le_mul_of_nonneg_right hb (abs_nonneg y.val)
    linarith
  have hx := abs_nonneg x.val
  have hy := abs_nonneg y.val
  generalize ((a.mul x).add (b.mul y)).val = R at *
  generalize (a.mul x).val = P at *
  generalize (b.mul y).val = Q at *
  generalize a.val * x.val = p at *
  generalize b.val * y.val = q at *
  generalize |x.val| = X at *
  generalize |y.val| = Y at *
  have e4 : |P + Q| ≤ (1 + φ.u) * (X + Y) + 2 * φ.u := by
    rw [show P + Q = (P - p) + (Q - q) + (p + q) by ring]
    have t1 := abs_add_le ((P - p) + (Q - q)) (p + q)
    have t2 := abs_add_le (P - p) (Q - q)
    have t3 := abs_add_le p q
    linarith
  have e5 := mul_le_mul_of_nonneg_left e4 hu.le
  have e6 : |R - (p + q)| ≤ |R - (P + Q)| + (|P - p| + |Q - q|) := by
    rw [show R - (p + q) = (R - (P + Q)) + ((P - p) + (Q - q)) by ring]
    exact (abs_add_le _ _).trans (by linarith [abs_add_le (P - p) (Q - q)])
  have e7 : |R - (p + q)| ≤ (2 * φ.u + φ.u * φ.u) * (X + Y) + (2 * φ.u + 2 * (φ.u * φ.u)) := by linarith
  have m1 : φ.u * φ.u ≤ ε / 64 := by nlinarith
  have m2 : (2 * φ.u + φ.u * φ.u) * (X + Y) ≤ (51 / 50 * ε) * (X + Y) := by
    apply mul_le_mul_of_nonneg_right _ (by linarith)
    linarith
  linarith

/-- One coordinate in the frame of an observer. -/
theorem coord {a b x y x0 y0 t : Flt φ} {A B : ℝ} {v w : Fin 3 → Flt φ} (ha : |a.val - A| ≤ ε ∧ |a.val| ≤ 1)
    (hb : |b.val - B| ≤ ε ∧ |b.val| ≤ 1) (ht : t.val = -((a.mul x0).add (b.mul y0)).val) (v0 : v 0 = x) (v1 : v 1 = y)
    (v2 : (v 2).val = 1) (w0 : w 0 = a) (w1 : w 1 = b) (w2 : w 2 = t) :
    |(K.dot3 v w).val - (A * (x.val - x0.val) + B * (y.val - y0.val))| ≤ frameMargin ε (x0.val, y0.val) (x.val, y.val) := by
  have h0 := h.pos
  have hs := h.small
  have e1 := h.shift (x := x0) (y := y0) ha.2 hb.2
  have e2 := h.dot3 v w
  rw [v0, v1, v2, w0, w1, w2, one_mul, ht, abs_neg] at e2
  obtain ⟨ha1, ha2⟩ := ha
  obtain ⟨hb1, hb2⟩ := hb
  unfold frameMargin size2
  show _ ≤ ε * (|x.val - x0.val| + |y.val - y0.val|) + 3 * ε * (1 + (|x.val| + |y.val|) + (|x0.val| + |y0.val|))
  have pr {r z : ℝ} (hr : |r| ≤ 1) : |z * r| ≤ |z| := by
    rw [abs_mul]
    have := mul_le_mul_of_nonneg_left hr (abs_nonneg z)
    linarith
  have p1 := pr (z := x.val) ha2
  have p2 := pr (z := y.val) hb2
  have p3 := pr (z := x0.val) ha2
  have p4 := pr (z := y0.val) hb2
  have d1 : |(a.val - A) * (x.val - x0.val)| ≤ ε * |x.val - x0.val| := by
    rw [abs_mul]
    exact mul_le_mul_of_nonneg_right ha1 (abs_nonneg _)
  have d2 : |(b.val - B) * (y.val - y0.val)| ≤ ε * |y.val - y0.val| := by
    rw [abs_mul]
    exact mul_le_mul_of_nonneg_right hb1 (abs_nonneg _)
  have hx0 := abs_nonneg x0.val
  have hy0 := abs_nonneg y0.val
  have hx := abs_nonneg x.val
  have hy := abs_nonneg y.val
  generalize ((a.mul x0).add (b.mul y0)).val = R at *
  generalize (K.dot3 v w).val = D at *
  generalize a.val = a' at *
  generalize b.val = b' at *
  generalize x.val = x' at *
  generalize y.val = y' at *
  generalize x0.val = c at *
  generalize y0.val = d at *
  have eR : |R| ≤ (|c| + |d|) + ε * (51 / 50 * (|c| + |d|) + 21 / 20) := by
    have t1 := abs_sub_abs_le_abs_sub R (a' * c + b' * d)
    have t2 := abs_add_le (a' * c) (b' * d)
    rw [mul_comm a' c, mul_comm b' d] at *
    linarith
  have eT : |D - (A * (x' - c) + B * (y' - d))| ≤
      |D - (x' * a' + y' * b' + -R)| + |R - (a' * c + b' * d)| + |(a' - A) * (x' - c)| + |(b' - B) * (y' - d)| := by
    rw [show D - (A * (x' - c) + B * (y' - d)) =
      (D - (x' * a' + y' * b' + -R)) + -(R - (a' * c + b' * d)) + (a' - A) * (x' - c) + (b' - B) * (y' - d) by ring]
    have t1 := abs_add_le ((D - (x' * a' + y' * b' + -R)) + -(R - (a' * c + b' * d)) + (a' - A) * (x' - c)) ((b' - B) * (y' - d))
    have t2 := abs_add_le ((D - (x' * a' + y' * b' + -R)) + -(R - (a' * c + b' * d))) ((a' - A) * (x' - c))
    have t3 := abs_add_le (D - (x' * a' + y' * b' + -R)) (-(R - (a' * c + b' * d)))
    rw [abs_neg] at t3
    linarith
  generalize |c| = C at *
  generalize |d| = E at *
  generalize |x'| = X at *
  generalize |y'| = Y at *
  have g1 : ε * (51 / 50 * (C + E) + 21 / 20) ≤ 1 / 16 * (51 / 50 * (C + E) + 21 / 20) := mul_le_mul_of_nonneg_right hs (by linarith)
  have g2 : |R| ≤ 27 / 25 * (C + E) + 7 / 100 := by linarith
  have g3 : ε * (|x' * a'| + |y' * b'| + |R|) ≤ ε * (X + Y + (27 / 25 * (C + E) + 7 / 100)) :=
    mul_le_mul_of_nonneg_left (by linarith) h0.le
  have g4 : ε * (X + Y + (27 / 25 * (C + E) + 7 / 100)) + ε + ε * (51 / 50 * (C + E) + 21 / 20) ≤ 3 * ε * (1 + (X + Y) + (C + E)) := by
    rw [show ε * (X + Y + (27 / 25 * (C + E) + 7 / 100)) + ε + ε * (51 / 50 * (C + E) + 21 / 20) =
      ε * (X + Y + (27 / 25 * (C + E) + 7 / 100) + 1 + (51 / 50 * (C + E) + 21 / 20)) by ring,
      show 3 * ε * (1 + (X + Y) + (C + E)) = ε * (3 * (1 + (X + Y) + (C + E))) by ring]
    apply mul_le_mul_of_nonneg_left _ h0.le
    linarith
  linarith

/-- One component of a direction. -/
theorem comp {a b x y : Flt φ} {A B : ℝ} {v w : Fin 2 → Flt φ} (ha : |a.val - A| ≤ ε ∧ |a.val| ≤ 1) (hb : |b.val - B| ≤ ε ∧ |b.val| ≤ 1)
    (v0 : v 0 = a) (v1 : v 1 = b) (w0 : w 0 = x) (w1 : w 1 = y) :
    |(K.dot2 v w).val - (A * x.val + B * y.val)| ≤ dirMargin ε (x.val, y.val) := by
  have h0 := h.pos
  have e2 := h.dot2 v w
  rw [v0, v1, w0, w1] at e2
  obtain ⟨ha1, ha2⟩ := ha
  obtain ⟨hb1, hb2⟩ := hb
  unfold dirMargin size2
  show _ ≤ 2 * ε * (1 + (|x.val| + |y.val|))
  have pr {r z : ℝ} (hr : |r| ≤ 1) : |r * z| ≤ |z| := by
    rw [abs_mul]
    have := mul_le_mul_of_nonneg_right hr (abs_nonneg z)
    linarith
  have p1 := pr (z := x.val) ha2
  have p2 := pr (z := y.val) hb2
  have d1 : |(a.val - A) * x.val| ≤ ε * |x.val| := by
    rw [abs_mul]
    exact mul_le_mul_of_nonneg_right ha1 (abs_nonneg _)
  have d2 : |(b.val - B) * y.val| ≤ ε * |y.val| := by
    rw [abs_mul]
    exact mul_le_mul_of_nonneg_right hb1 (abs_nonneg _)
  generalize (K.dot2 v w).val = D at *
  have eT : |D - (A * x.val + B * y.val)| ≤
      |D - (a.val * x.val + b.val * y.val)| + |(a.val - A) * x.val| + |(b.val - B) * y.val| := by
    rw [show D - (A * x.val + B * y.val) = (D - (a.val * x.val + b.val * y.val)) + (a.val - A) * x.val + (b.val - B) * y.val by ring]
    have t1 := abs_add_le ((D - (a.val * x.val + b.val * y.val)) + (a.val - A) * x.val) ((b.val - B) * y.val)
    have t2 := abs_add_le (D - (a.val * x.val + b.val * y.val)) ((a.val - A) * x.val)
    linarith
  have g3 : ε * (|a.val * x.val| + |b.val * y.val|) ≤ ε * (|x.val| + |y.val|) := mul_le_mul_of_nonneg_left (by linarith) h0.le
  have := mul_nonneg h0.le (abs_nonneg x.val)
  linarith

end FrameKernel.Accurate

theorem Flt.ext' {a b : Flt φ} (h : a.val = b.val) : a = b := Subtype.ext h

theorem Flt.neg_mul' (a b : Flt φ) : (a.neg.mul b) = (a.mul b).neg := by
  apply Flt.ext'
  show φ.fl (-a.val * b.val) = -φ.fl (a.val * b.val)
  rw [neg_mul, Format.fl_neg]

/-- The entries of the matrix of a pose: the heading in the first row, the direction to the left in the second. -/
theorem pose_row (h : K.Accurate ε) (yaw : Flt φ) :
    (|(K.cos yaw.neg).val - Real.cos yaw.val| ≤ ε ∧ |(K.cos yaw.neg).val| ≤ 1) ∧
    (|(K.sin yaw.neg).neg.val - Real.sin yaw.val| ≤ ε ∧ |(K.sin yaw.neg).neg.val| ≤ 1) ∧
    (|(K.sin yaw.neg).val - -Real.sin yaw.val| ≤ ε ∧ |(K.sin yaw.neg).val| ≤ 1) := by
  have h1 := h.cos yaw.neg
  have h2 := h.sin yaw.neg
  rw [Flt.neg_val, Real.cos_neg] at h1
  rw [Flt.neg_val, Real.sin_neg] at h2
  refine ⟨h1, ⟨?_, ?_⟩, h2⟩
  · rw [Flt.neg_val, show -(K.sin yaw.neg).val - Real.sin yaw.val = -((K.sin yaw.neg).val - -Real.sin yaw.val) by ring, abs_neg]
    exact h2.1
  · rw [Flt.neg_val, abs_neg]
    exact h2.2

/-- Points, transformed by the pose of an observer. -/
theorem pose_point (h : K.Accurate ε) (xy : Flt φ × Flt φ) (yaw : Flt φ) (p : Flt φ × Flt φ) :
    NearlySeenPoint (frameMargin ε (xy.1.val, xy.2.val) (p.1.val, p.2.val)) (xy.1.val, xy.2.val) yaw.val (p.1.val, p.2.val)
      ((transformPointsFl K (poseMatrixFl K xy yaw) p).1.val, (transformPointsFl K (poseMatrixFl K xy yaw) p).2.val) := by
  obtain ⟨hc, hns, hs⟩ := pose_row h yaw
  refine ⟨(Real.cos yaw.val * (p.1.val - xy.1.val) + Real.sin yaw.val * (p.2.val - xy.2.val),
    -Real.sin yaw.val * (p.1.val - xy.1.val) + Real.cos yaw.val * (p.2.val - xy.2.val)), ?_, ?_, ?_⟩
  · have hsq := Real.sin_sq_add_cos_sq yaw.val
    unfold SeenPoint pointAt heading leftOf
    ext
    · show p.1.val = _
      simp only
      linear_combination (p.1.val - xy.1.val) * -hsq
    · show p.2.val = _
      simp only
      linear_combination (p.2.val - xy.2.val) * -hsq
  · refine h.coord hc hns (t := ((K.cos yaw.neg).mul xy.1 |>.sub ((K.sin yaw.neg).mul xy.2)).neg) ?_ rfl rfl (Flt.one_val φ) rfl rfl rfl
    rw [Flt.neg_val, Flt.neg_mul', ← sub_eq_add_neg']
  · exact h.coord hs hc (t := ((K.sin yaw.neg).mul xy.1 |>.add ((K.cos yaw.neg).mul xy.2)).neg) rfl rfl rfl (Flt.one_val φ) rfl rfl rfl

/-- Directions, transformed by the pose of an observer. -/
theorem pose_dir (h : K.Accurate ε) (xy : Flt φ × Flt φ) (yaw : Flt φ) (d : Flt φ × Flt φ) :
    NearlySeenDir (dirMargin ε (d.1.val, d.2.val)) yaw.val (d.1.val, d.2.val)
      ((transformDirectionFl K (poseMatrixFl K xy yaw) d).1.val, (transformDirectionFl K (poseMatrixFl K xy yaw) d).2.val) := by
  obtain ⟨hc, hns, hs⟩ := pose_row h yaw
  refine ⟨(Real.cos yaw.val * d.1.val + Real.sin yaw.val * d.2.val, -Real.sin yaw.val * d.1.val + Real.cos yaw.val * d.2.val), ?_, ?_, ?_⟩
  · have hsq := Real.sin_sq_add_cos_sq yaw.val
    unfold SeenDir heading leftOf
    ext
    · show d.1.val = _
      simp only
      linear_combination d.1.val * -hsq
    · show d.2.val = _
      simp only
      linear_combination d.2.val * -hsq
  · exact h.comp hc hns rfl rfl rfl rfl
  · exact h.comp hs hc rfl rfl rfl rfl

/-- The pose of an observation in global coordinates is exactly the identity. -/
theorem globalPose_matrix (h : K.Accurate ε) : (globalPoseFl K).matrix = identityFl φ := by
  have hz : (Flt.zero φ).neg.val = 0 := by simp [Flt.neg_val, Flt.zero_val]
  have hc := h.cos_zero _ hz
  have hs := h.sin_zero _ hz
  have m0 (a : Flt φ) : (a.mul (Flt.zero φ)).val = 0 := Flt.mul_zero a rfl
  funext i j
  apply Flt.ext'
  have a0 : φ.fl (0 + 0) = 0 := by rw [add_zero, Format.fl_zero]
  have s0 : φ.fl (0 - 0) = 0 := by rw [sub_zero, Format.fl_zero]
  fin_cases i <;> fin_cases j
  · exact hc.trans (Flt.one_val φ).symm
  · show -(K.sin (Flt.zero φ).neg).val = 0
    rw [hs, neg_zero]
  · show -φ.fl (((K.cos (Flt.zero φ).neg).mul (Flt.zero φ)).val - ((K.sin (Flt.zero φ).neg).mul (Flt.zero φ)).val) = 0
    rw [m0, m0, s0, neg_zero]
  · exact hs
  · exact hc.trans (Flt.one_val φ).symm
  · show -φ.fl (((K.sin (Flt.zero φ).neg).mul (Flt.zero φ)).val + ((K.cos (Flt.zero φ).neg).mul (Flt.zero φ)).val) = 0
    rw [m0, m0, a0, neg_zero]
  · rfl
  · rfl
  · rfl

/-- Coming from global coordinates, the pose of the observer is used as it is. -/
theorem combine_global (h : K.Accurate ε) (dst : Pose2DFl φ) :
    (combineTwoObjectPose2dFl K (globalPoseFl K) dst).matrix = dst.matrix ∧
    (combineTwoObjectPose2dFl K (globalPoseFl K) dst).deltaYaw = dst.deltaYaw ∧
    (combineTwoObjectPose2dFl K (globalPoseFl K) dst).valid = dst.valid := by
  refine ⟨?_, ?_, Bool.and_true _⟩
  · funext i j
    show K.dot3 (dst.matrix i) (fun k => K.inv (globalPoseFl K).matrix k j) = _
    rw [globalPose_matrix h, h.inv_one]
    apply Flt.ext'
    apply h.dot3_single _ _ j
    · intro k hk
      simp [identityFl, hk, Flt.zero_val]
    · simp [identityFl, Flt.one_val]
  · apply Flt.ext'
    show φ.fl (dst.deltaYaw.val - -0) = _
    rw [neg_zero, sub_zero, Format.fl_of_rep dst.deltaYaw.property]

/-- Objects are seen where they are, up to rounding: positions, velocities and headings, with the error of each. Validity is exact, and
size, height and time stamp are those of the map. -/
theorem C156_objects (h : K.Accurate ε) {n k : Nat} (traj : Traj (Flt φ) n k) (rg : List (RgPoint (Flt φ)))
    (tls : List (Fin k → TlState (Flt φ))) (e : Pt (Flt φ)) (i : Fin n) (t : Fin k) :
    let p := traj i t
    let q := (observeFromFl K traj rg tls e).trajectory i t
    NearlySeenPoint (frameMargin ε (e.x.val, e.y.val) (p.x.val, p.y.val)) (e.x.val, e.y.val) e.yaw.val (p.x.val, p.y.val) (q.x.val, q.y.val) ∧
    NearlySeenDir (dirMargin ε (p.velX.val, p.velY.val)) e.yaw.val (p.velX.val, p.velY.val) (q.velX.val, q.velY.val) ∧
    |q.yaw.val - (p.yaw.val - e.yaw.val)| ≤ φ.u * |p.yaw.val - e.yaw.val| ∧
    q.valid = (p.valid && e.valid) ∧
    q.z = p.z ∧ q.length = p.length ∧ q.width = p.width ∧ q.height = p.height ∧ q.timestampMicros = p.timestampMicros := by
  obtain ⟨hm, hy, hv⟩ := combine_global h (Pose2DFl.fromCenterAndYaw K (e.x, e.y) e.yaw e.valid)
  simp only [observeFromFl, transformObservationFl, transformTrajectoryPtFl, hm, hy, hv]
  refine ⟨pose_point h (e.x, e.y) e.yaw ((traj i t).x, (traj i t).y),
    pose_dir h (e.x, e.y) e.yaw ((traj i t).velX, (traj i t).velY), ?_, rfl, trivial, trivial, trivial, trivial, trivial⟩
  have := Format.fl_sub_rel (φ := φ) (traj i t).yaw.property e.yaw.property
  rw [sub_eq_add_neg] at this ⊢
  exact this

/-- Road points are seen where they are, up to rounding, in the same order; validity, height, type and identifier are exact. -/
theorem C156_roads (h : K.Accurate ε) {n k : Nat} (traj : Traj (Flt φ) n k) (rg : List (RgPoint (Flt φ)))
    (tls : List (Fin k → TlState (Flt φ))) (e : Pt (Flt φ)) :
    List.Forall₂ (fun p q : RgPoint (Flt φ) =>
      NearlySeenPoint (frameMargin ε (e.x.val, e.y.val) (p.x.val, p.y.val)) (e.x.val, e.y.val) e.yaw.val (p.x.val, p.y.val) (q.x.val, q.y.val) ∧
      NearlySeenDir (dirMargin ε (p.dirX.val, p.dirY.val)) e.yaw.val (p.dirX.val, p.dirY.val) (q.dirX.val, q.dirY.val) ∧
      q.valid = (p.valid && e.valid) ∧ q.z = p.z ∧ q.dirZ = p.dirZ ∧ q.type = p.type ∧ q.id = p.id)
      rg (observeFromFl K traj rg tls e).roadgraph := by
  obtain ⟨hm, hy, hv⟩ := combine_global h (Pose2DFl.fromCenterAndYaw K (e.x, e.y) e.yaw e.valid)
  simp only [observeFromFl, transformObservationFl, transformRoadgraphPtFl, hm, hv]
  rw [List.forall₂_map_right_iff]
  exact List.forall₂_same.2 fun p _ => ⟨pose_point h (e.x, e.y) e.yaw (p.x, p.y), pose_dir h (e.x, e.y) e.yaw (p.dirX, p.dirY),
    rfl, rfl, rfl, rfl, rfl⟩

/-- Traffic lights are seen where they are, up to rounding; validity, height, colour and lane are exact. -/
theorem C156_lights (h : K.Accurate ε) {n k : Nat} (traj : Traj (Flt φ) n k) (rg : List (RgPoint (Flt φ)))
    (tls : List (Fin k → TlState (Flt φ))) (e : Pt (Flt φ)) :
    List.Forall₂ (fun a b : Fin k → TlState (Flt φ) => ∀ t,
      NearlySeenPoint (frameMargin ε (e.x.val, e.y.val) ((a t).x.val, (a t).y.val)) (e.x.val, e.y.val) e.yaw.val
        ((a t).x.val, (a t).y.val) ((b t).x.val, (b t).y.val) ∧
      (b t).valid = ((a t).valid && e.valid) ∧ (b t).z = (a t).z ∧ (b t).state = (a t).state ∧ (b t).laneId = (a t).laneId)
      tls (observeFromFl K traj rg tls e).trafficLights := by
  obtain ⟨hm, hy, hv⟩ := combine_global h (Pose2DFl.fromCenterAndYaw K (e.x, e.y) e.yaw e.valid)
  simp only [observeFromFl, transformObservationFl, transformTrafficLightFl, hm, hv]
  rw [List.forall₂_map_right_iff]
  exact List.forall₂_same.2 fun p _ t => ⟨pose_point h (e.x, e.y) e.yaw ((p t).x, (p t).y), rfl, rfl, rfl, rfl⟩

/-- Seen coordinates keep distances. -/
theorem seenPoint_dist {c : ℝ × ℝ} {yaw : ℝ} {g g' l l' : ℝ × ℝ} (h : SeenPoint c yaw g l) (h' : SeenPoint c yaw g' l') :
    dist2 g g' = dist2 l l' := by
  have hsq := Real.sin_sq_add_cos_sq yaw
  unfold SeenPoint at h h'
  rw [h, h']
  unfold dist2 pointAt heading leftOf
  congr 1
  simp only
  linear_combination ((l.1 - l'.1) ^ 2 + (l.2 - l'.2) ^ 2) * hsq

theorem dist2_le_size (p q : ℝ × ℝ) {E : ℝ} (h1 : |p.1 - q.1| ≤ E) (h2 : |p.2 - q.2| ≤ E) : dist2 p q ≤ 2 * E := by
  have hE : 0 ≤ E := (abs_nonneg _).trans h1
  unfold dist2
  rw [Real.sqrt_le_left (by linarith)]
  have e1 := sq_le_sq' (abs_le.1 h1).1 (abs_le.1 h1).2
  have e2 := sq_le_sq' (abs_le.1 h2).1 (abs_le.1 h2).2
  nlinarith

theorem nearlySeen_dist {E E' : ℝ} {c : ℝ × ℝ} {yaw : ℝ} {g g' l l' : ℝ × ℝ} (h : NearlySeenPoint E c yaw g l)
    (h' : NearlySeenPoint E' c yaw g' l') : |dist2 l l' - dist2 g g'| ≤ 2 * (E + E') := by
  obtain ⟨e, he, a1, a2⟩ := h
  obtain ⟨e', he', b1, b2⟩ := h'
  rw [seenPoint_dist he he']
  have d1 := dist2_le_size l e a1 a2
  have d2 := dist2_le_size l' e' b1 b2
  have t1 := dist2_triangle l e l'
  have t2 := dist2_triangle e e' l'
  have t3 := dist2_triangle e l e'
  have t4 := dist2_triangle l l' e'
  rw [dist2_comm e' l'] at t2
  rw [dist2_comm e l] at t3
  rw [abs_le]
  constructor <;> linarith

/-- Distances between objects, as seen by an observer, are those on the map up to rounding. -/
theorem C156_distances (h : K.Accurate ε) {n k : Nat} (traj : Traj (Flt φ) n k) (rg : List (RgPoint (Flt φ)))
    (tls : List (Fin k → TlState (Flt φ))) (e : Pt (Flt φ)) (i j : Fin n) (t u : Fin k) :
    let p := traj i t
    let p' := traj j u
    let q := (observeFromFl K traj rg tls e).trajectory i t
    let q' := (observeFromFl K traj rg tls e).trajectory j u
    |dist2 (q.x.val, q.y.val) (q'.x.val, q'.y.val) - dist2 (p.x.val, p.y.val) (p'.x.val, p'.y.val)| ≤
      2 * (frameMargin ε (e.x.val, e.y.val) (p.x.val, p.y.val) + frameMargin ε (e.x.val, e.y.val) (p'.x.val, p'.y.val)) :=
  nearlySeen_dist (C156_objects h traj rg tls e i t).1 (C156_objects h traj rg tls e j u).1

theorem seenPoint_center {c : ℝ × ℝ} {yaw : ℝ} {l : ℝ × ℝ} (h : SeenPoint c yaw c l) : l = (0, 0) := by
  have hsq := Real.sin_sq_add_cos_sq yaw
  unfold SeenPoint pointAt heading leftOf at h
  have h1 := congrArg Prod.fst h
  have h2 := congrArg Prod.snd h
  simp only at h1 h2
  ext
  · show l.1 = 0
    linear_combination Real.cos yaw * -h1 - Real.sin yaw * h2 - l.1 * hsq
  · show l.2 = 0
    linear_combination Real.sin yaw * h1 - Real.cos yaw * h2 - l.2 * hsq

/-- An observer sees itself at the origin, up to an error that grows with its distance from the origin of the map, and with heading
exactly zero. Missing: the position is not exactly the origin when the products are fused. -/
theorem C156_observer_partial (h : K.Accurate ε) {n k : Nat} (traj : Traj (Flt φ) n k) (rg : List (RgPoint (Flt φ)))
    (tls : List (Fin k → TlState (Flt φ))) (i : Fin n) (t : Fin k) :
    let p := traj i t
    let q := (observeFromFl K traj rg tls p).trajectory i t
    |q.x.val| ≤ 3 * ε * (1 + 2 * size2 (p.x.val, p.y.val)) ∧ |q.y.val| ≤ 3 * ε * (1 + 2 * size2 (p.x.val, p.y.val)) ∧
    q.yaw.val = 0 ∧ q.valid = p.valid := by
  obtain ⟨⟨e, he, h1, h2⟩, -, hy, hv, -⟩ := C156_objects h traj rg tls (traj i t) i t
  have := seenPoint_center he
  subst this
  have hm : frameMargin ε ((traj i t).x.val, (traj i t).y.val) ((traj i t).x.val, (traj i t).y.val) =
      3 * ε * (1 + 2 * size2 ((traj i t).x.val, (traj i t).y.val)) := by
    unfold frameMargin size2
    simp only [sub_self, abs_zero]
    ring
  simp only [sub_zero, hm] at h1 h2
  rw [sub_self, sub_zero, abs_zero, mul_zero] at hy
  refine ⟨h1, h2, abs_eq_zero.1 (le_antisymm hy (abs_nonneg _)), ?_⟩
  rw [hv, Bool.and_self]

/-- What one would expect: an observer sees itself exactly at the origin. -/
def ObserverAtOriginFl (K : FrameKernel φ) : Prop :=
  ∀ {n k : Nat} (traj : Traj (Flt φ) n k) (rg : List (RgPoint (Flt φ))) (tls : List (Fin k → TlState (Flt φ))) (i : Fin n) (t : Fin k),
    let q := (observeFromFl K traj rg tls (traj i t)).trajectory i t
    q.x.val = 0 ∧ q.y.val = 0

/-- `transform_trajectories`: positions, sizes and headings are as accurate as in an observation. Missing: the velocity. Its error grows
with the distance of the pose from the origin of the map. -/
theorem C156_transform_trajectories_partial (h : K.Accurate ε) (r : Row7Fl φ) (xy : Flt φ × Flt φ) (yaw : Flt φ) :
    let q := transformTrajectoriesFl K r (poseMatrixFl K xy yaw) yaw.neg
    NearlySeenPoint (frameMargin ε (xy.1.val, xy.2.val) (r.xy.1.val, r.xy.2.val)) (xy.1.val, xy.2.val) yaw.val (r.xy.1.val, r.xy.2.val)
      (q.xy.1.val, q.xy.2.val) ∧
    q.length = r.length ∧ q.width = r.width ∧
    |q.yaw.val - (r.yaw.val - yaw.val)| ≤ φ.u * |r.yaw.val - yaw.val| ∧
    NearlySeenDir (3 * ε * (1 + size2 (r.vel.1.val, r.vel.2.val) + size2 (xy.1.val, xy.2.val))) yaw.val (r.vel.1.val, r.vel.2.val)
      (q.vel.1.val, q.vel.2.val) := by
  have h0 := h.pos
  have hu := φ.u_pos
  have hs := h.small
  refine ⟨pose_point h xy yaw r.xy, rfl, rfl, ?_, ?_⟩
  · have := Format.fl_sub_rel (φ := φ) r.yaw.property yaw.property
    rw [sub_eq_add_neg] at this ⊢
    exact this
  obtain ⟨hc, hns, hsn⟩ := pose_row h yaw
  have key {a b x0 y0 t : Flt φ} {A B : ℝ} {w : Fin 3 → Flt φ} (ha : |a.val - A| ≤ ε ∧ |a.val| ≤ 1)
      (hb : |b.val - B| ≤ ε ∧ |b.val| ≤ 1) (ht : t.val = -((a.mul x0).add (b.mul y0)).val)
      (w0 : w 0 = a) (w1 : w 1 = b) (w2 : w 2 = t) :
      |((K.dot3 ![r.vel.1, r.vel.2, Flt.one φ] w).sub (K.dot3 ![Flt.zero φ, Flt.zero φ, Flt.one φ] w)).val -
        (A * r.vel.1.val + B * r.vel.2.val)| ≤
        3 * ε * (1 + (|r.vel.1.val| + |r.vel.2.val|) + (|x0.val| + |y0.val|)) := by
    have e1 := h.shift (x := x0) (y := y0) ha.2 hb.2
    have e2 := h.dot3 ![r.vel.1, r.vel.2, Flt.one φ] w
    have e3 := h.dot3 ![Flt.zero φ, Flt.zero φ, Flt.one φ] w
    have e4 : |((K.dot3 ![r.vel.1, r.vel.2, Flt.one φ] w).sub (K.dot3 ![Flt.zero φ, Flt.zero φ, Flt.one φ] w)).val -
        ((K.dot3 ![r.vel.1, r.vel.2, Flt.one φ] w).val - (K.dot3 ![Flt.zero φ, Flt.zero φ, Flt.one φ] w).val)| ≤
        φ.u * |(K.dot3 ![r.vel.1, r.vel.2, Flt.one φ] w).val - (K.dot3 ![Flt.zero φ, Flt.zero φ, Flt.one φ] w).val| :=
      Format.fl_sub_rel (Subtype.property _) (Subtype.property _)
    rw [w0, w1, w2] at e2 e3
    simp only [Matrix.cons_val, Flt.one_val, one_mul, Flt.zero_val, zero_mul, abs_zero, zero_add, add_zero] at e2 e3
    rw [ht, abs_neg] at e2 e3
    generalize ((K.dot3 ![r.vel.1, r.vel.2, Flt.one φ] w).sub (K.dot3 ![Flt.zero φ, Flt.zero φ, Flt.one φ] w)).val = F at *
    generalize (K.dot3 ![r.vel.1, r.vel.2, Flt.one φ] w).val = D at *
    generalize (K.dot3 ![Flt.zero φ, Flt.zero φ, Flt.one φ] w).val = O at *
    obtain ⟨ha1, ha2⟩ := ha
    obtain ⟨hb1, hb2⟩ := hb
    have pr {q z : ℝ} (hq : |q| ≤ 1) : |z * q| ≤ |z| := by
      rw [abs_mul]
      have := mul_le_mul_of_nonneg_left hq (abs_nonneg z)
      linarith
    have p1 := pr (z := r.vel.1.val) ha2
    have p2 := pr (z := r.vel.2.val) hb2
    have p3 := pr (z := x0.val) ha2
    have p4 := pr (z := y0.val) hb2
    have d1 : |(a.val - A) * r.vel.1.val| ≤ ε * |r.vel.1.val| := by
      rw [abs_mul]
      exact mul_le_mul_of_nonneg_right ha1 (abs_nonneg _)
    have d2 : |(b.val - B) * r.vel.2.val| ≤ ε * |r.vel.2.val| := by
      rw [abs_mul]
      exact mul_le_mul_of_nonneg_right hb1 (abs_nonneg _)
    have hx0 := abs_nonneg x0.val
    have hy0 := abs_nonneg y0.val
    have hx := abs_nonneg r.vel.1.val
    have hy := abs_nonneg r.vel.2.val
    generalize ((a.mul x0).add (b.mul y0)).val = R at *
    have eR : |R| ≤ (|x0.val| + |y0.val|) + ε * (51 / 50 * (|x0.val| + |y0.val|) + 21 / 20) := by
      have t1 := abs_sub_abs_le_abs_sub R (a.val * x0.val + b.val * y0.val)
      have t2 := abs_add_le (a.val * x0.val) (b.val * y0.val)
      rw [mul_comm a.val x0.val, mul_comm b.val y0.val] at *
      linarith
    generalize |x0.val| = C at *
    generalize |y0.val| = E at *
    have g1 : ε * (51 / 50 * (C + E) + 21 / 20) ≤ 1 / 16 * (51 / 50 * (C + E) + 21 / 20) := mul_le_mul_of_nonneg_right hs (by linarith)
    have g2 : |R| ≤ 27 / 25 * (C + E) + 7 / 100 := by linarith
    have f1 : |(D - O) - (r.vel.1.val * a.val + r.vel.2.val * b.val)| ≤ ε * (|r.vel.1.val| + |r.vel.2.val| + 2 * |R|) + 2 * ε := by
      rw [show (D - O) - (r.vel.1.val * a.val + r.vel.2.val * b.val) =
        (D - (r.vel.1.val * a.val + r.vel.2.val * b.val + -R)) + -(O - -R) by ring]
      have t1 := abs_add_le (D - (r.vel.1.val * a.val + r.vel.2.val * b.val + -R)) (-(O - -R))
      rw [abs_neg] at t1
      have t2 : ε * (|r.vel.1.val * a.val| + |r.vel.2.val * b.val| + |R|) ≤ ε * (|r.vel.1.val| + |r.vel.2.val| + |R|) :=
        mul_le_mul_of_nonneg_left (by linarith) h0.le
      linarith
    have f2 : |D - O| ≤ |r.vel.1.val| + |r.vel.2.val| + (ε * (|r.vel.1.val| + |r.vel.2.val| + 2 * |R|) + 2 * ε) := by
      have t1 := abs_sub_abs_le_abs_sub (D - O) (r.vel.1.val * a.val + r.vel.2.val * b.val)
      have t2 := abs_add_le (r.vel.1.val * a.val) (r.vel.2.val * b.val)
      linarith
    have f3 : |F - (A * r.vel.1.val + B * r.vel.2.val)| ≤ |F - (D - O)| +
        |(D - O) - (r.vel.1.val * a.val + r.vel.2.val * b.val)| + |(a.val - A) * r.vel.1.val| + |(b.val - B) * r.vel.2.val| := by
      rw [show F - (A * r.vel.1.val + B * r.vel.2.val) = (F - (D - O)) + ((D - O) - (r.vel.1.val * a.val + r.vel.2.val * b.val)) +
        (a.val - A) * r.vel.1.val + (b.val - B) * r.vel.2.val by ring]
      have t1 := abs_add_le ((F - (D - O)) + ((D - O) - (r.vel.1.val * a.val + r.vel.2.val * b.val)) + (a.val - A) * r.vel.1.val)
        ((b.val - B) * r.vel.2.val)
      have t2 := abs_add_le ((F - (D - O)) + ((D - O) - (r.vel.1.val * a.val + r.vel.2.val * b.val))) ((a.val - A) * r.vel.1.val)
      have t3 := abs_add_le (F - (D - O)) ((D - O) - (r.vel.1.val * a.val + r.vel.2.val * b.val))
      linarith
    have hU := h.unit
    have hR := abs_nonneg R
    generalize |r.vel.1.val| = X at *
    generalize |r.vel.2.val| = Y at *
    generalize |R| = Q at *
    generalize |F - (A * r.vel.1.val + B * r.vel.2.val)| = G at *
    generalize |F - (D - O)| = H at *
    generalize |(D - O) - (r.vel.1.val * a.val + r.vel.2.val * b.val)| = I at *
    generalize |D - O| = J at *
    have k1 : ε * (X + Y + 2 * Q) ≤ ε * (X + Y + 2 * (27 / 25 * (C + E) + 7 / 100)) := mul_le_mul_of_nonneg_left (by linarith) h0.le
    have k2 : ε * (X + Y + 2 * Q) ≤ 1 / 16 * (X + Y + 2 * (27 / 25 * (C + E) + 7 / 100)) :=
      k1.trans (mul_le_mul_of_nonneg_right hs (by linarith))
    have k3 : J ≤ 17 / 16 * (X + Y) + 14 / 100 * (C + E) + 14 / 100 := by linarith
    have k4 : φ.u * J ≤ (ε / 2) * (17 / 16 * (X + Y) + 14 / 100 * (C + E) + 14 / 100) := by
      refine (mul_le_mul_of_nonneg_left k3 hu.le).trans ?_
      exact mul_le_mul_of_nonneg_right (by linarith) (by linarith)
    have k5 : (ε / 2) * (17 / 16 * (X + Y) + 14 / 100 * (C + E) + 14 / 100) +
        (ε * (X + Y + 2 * (27 / 25 * (C + E) + 7 / 100)) + 2 * ε) + ε * X + ε * Y ≤ 3 * ε * (1 + (X + Y) + (C + E)) := by
      rw [show (ε / 2) * (17 / 16 * (X + Y) + 14 / 100 * (C + E) + 14 / 100) +
        (ε * (X + Y + 2 * (27 / 25 * (C + E) + 7 / 100)) + 2 * ε) + ε * X + ε * Y =
        ε * ((17 / 16 * (X + Y) + 14 / 100 * (C + E) + 14 / 100) / 2 + (X + Y + 2 * (27 / 25 * (C + E) + 7 / 100)) + 2 + X + Y) by ring,
        show 3 * ε * (1 + (X + Y) + (C + E)) = ε * (3 * (1 + (X + Y) + (C + E))) by ring]
      exact mul_le_mul_of_nonneg_left (by linarith) h0.le
    linarith
  refine ⟨(Real.cos yaw.val * r.vel.1.val + Real.sin yaw.val * r.vel.2.val, -Real.sin yaw.val * r.vel.1.val + Real.cos yaw.val * r.vel.2.val),
    ?_, ?_, ?_⟩
  · have hsq := Real.sin_sq_add_cos_sq yaw.val
    unfold SeenDir heading leftOf
    ext
    · show r.vel.1.val = _
      simp only
      linear_combination r.vel.1.val * -hsq
    · show r.vel.2.val = _
      simp only
      linear_combination r.vel.2.val * -hsq
  · refine key hc hns (t := ((K.cos yaw.neg).mul xy.1 |>.sub ((K.sin yaw.neg).mul xy.2)).neg) ?_ rfl rfl rfl
    rw [Flt.neg_val, Flt.neg_mul', ← sub_eq_add_neg']
  · exact key hsn hc (t := ((K.sin yaw.neg).mul xy.1 |>.add ((K.cos yaw.neg).mul xy.2)).neg) rfl rfl rfl rfl

/-- What one would expect: velocities are as accurate as in an observation, wherever the pose is. -/
def VelocitiesAccurateFl (K : FrameKernel φ) (ε : ℝ) : Prop :=
  ∀ (r : Row7Fl φ) (xy : Flt φ × Flt φ) (yaw : Flt φ),
    let q := transformTrajectoriesFl K r (poseMatrixFl K xy yaw) yaw.neg
    NearlySeenDir (dirMargin ε (r.vel.1.val, r.vel.2.val)) yaw.val (r.vel.1.val, r.vel.2.val) (q.vel.1.val, q.vel.2.val)

end

end Waymax
