import Verif.Model.MachineGeometry
import Verif.Props.DiscretizerMachine
import Verif.Props.Metrics
/-
C135: the overlap test and the overlap metric in machine arithmetic.
-/

namespace Waymax

open Real Sat

/-- The kernel computes sine, cosine and sums of two products with errors of at most `ε`; no format is more accurate than its unit. -/
structure Kernel.Accurate {φ : Format} (K : Kernel φ) (ε : ℝ) : Prop where
  unit : φ.u ≤ ε
  small : ε ≤ 1 / 4
  cos : ∀ x : Flt φ, |(K.cos x).val - Real.cos x.val| ≤ ε ∧ |(K.cos x).val| ≤ 1
  sin : ∀ x : Flt φ, |(K.sin x).val - Real.sin x.val| ≤ ε ∧ |(K.sin x).val| ≤ 1
  dot : ∀ p q : Flt φ × Flt φ, |(K.dot p q).val - (p.1.val * q.1.val + p.2.val * q.2.val)| ≤
    ε * (|p.1.val * q.1.val| + |p.2.val * q.2.val|) + ε

/-- The same box in exact arithmetic. -/
def BoxFl.toBox {φ : Format} (b : BoxFl φ) : Box :=
  { x := b.x.val, y := b.y.val, length := b.length.val, width := b.width.val, yaw := b.yaw.val }

/-- How large the numbers of a box are. -/
def BoxFl.size {φ : Format} (b : BoxFl φ) : ℝ := |b.x.val| + |b.y.val| + |b.length.val| + |b.width.val|

/-- The margin within which rounding errors can change the answer. -/
noncomputable def overlapMargin {φ : Format} (ε : ℝ) (a b : BoxFl φ) : ℝ := 25 * ε * (1 + a.size + b.size)

section
variable {φ : Format} {K : Kernel φ} {ε : ℝ}

namespace Kernel.Accurate

variable (h : K.Accurate ε)

include h

theorem pos : 0 < ε := φ.u_pos.trans_le h.unit

theorem fl (x : ℝ) : |φ.fl x - x| ≤ ε * |x| + ε := by
  refine (φ.fl_err x).trans ?_
  have := mul_le_mul_of_nonneg_right h.unit (abs_nonneg x)
  linarith [h.unit]

/-- Half of a side times a sine or cosine. -/
theorem side {l c : Flt φ} {t : ℝ} (hc : |c.val - t| ≤ ε) (hc1 : |c.val| ≤ 1) :
    |((l.div (Flt.round φ 2)).mul c).val - l.val / 2 * t| ≤ ε * (17 / 10 * |l.val| + 9 / 4) := by
  have h0 := h.pos
  have hs := h.small
  have e2 : (Flt.round φ 2).val = 2 := by
    show φ.fl 2 = 2
    have := φ.two_le
    have := φ.normal_one
    refine Format.fl_of_rep ⟨1, 1, ?_, by omega, by norm_num⟩
    rw [abs_one]
    exact_mod_cast Nat.one_lt_two_pow (by omega)
  obtain ⟨H, hH⟩ : ∃ H, H = (l.div (Flt.round φ 2)).val := ⟨_, rfl⟩
  have e1 : |H - l.val / 2| ≤ ε * (|l.val| / 2) + ε := by
    have := h.fl (l.val / 2)
    rw [abs_div, abs_two] at this
    rw [hH]
    show |φ.fl (l.val / (Flt.round φ 2).val) - _| ≤ _
    rw [e2]
    exact this
  have e3 : |((l.div (Flt.round φ 2)).mul c).val - H * c.val| ≤ ε * |H| + ε := by
    have h1 := h.fl (H * c.val)
    rw [abs_mul] at h1
    have h2 : |H| * |c.val| ≤ |H| := by
      have := mul_le_mul_of_nonneg_left hc1 (abs_nonneg H)
      rwa [mul_one] at this
    have h3 := mul_le_mul_of_nonneg_left h2 h0.le
    rw [hH] at h1 h3 ⊢
    exact h1.trans (by linarith)
  have e4 : |H * c.val - l.val / 2 * c.val| ≤ |H - l.val / 2| := by
    rw [← sub_mul, abs_mul]
    have := mul_le_mul_of_nonneg_left hc1 (abs_nonneg (H - l.val / 2))
    rwa [mul_one] at this
  have e5 : |l.val / 2 * c.val - l.val / 2 * t| ≤ |l.val| / 2 * ε := by
    rw [← mul_sub, abs_mul, abs_div, abs_two]
    exact mul_le_mul_of_nonneg_left hc (by positivity)
  have e6 : |H| ≤ |l.val| / 2 + (ε * (|l.val| / 2) + ε) := by
    have := abs_sub_abs_le_abs_sub H (l.val / 2)
    rw [abs_div, abs_two] at this
    linarith
  have t1 := abs_sub_le ((l.div (Flt.round φ 2)).mul c).val (H * c.val) (l.val / 2 * t)
  have t2 := abs_sub_le (H * c.val) (l.val / 2 * c.val) (l.val / 2 * t)
  have hl := abs_nonneg l.val
  generalize |l.val| = L at *
  generalize |H| = H' at *
  have e7 : ε * H' ≤ ε * (L / 2 + (ε * (L / 2) + ε)) := mul_le_mul_of_nonneg_left e6 h0.le
  have e8 : ε * (ε * (L / 2) + ε) ≤ ε * (1 / 4 * (L / 2) + 1 / 4) := by
    apply mul_le_mul_of_nonneg_left _ h0.le
    have : ε * (L / 2) ≤ 1 / 4 * (L / 2) := mul_le_mul_of_nonneg_right hs (by linarith)
    linarith
  nlinarith

/-- One coordinate of a corner: two signed half sides and the centre. -/
theorem coord {a b x : Flt φ} {s : ℝ} {A B L W : ℝ} (hL : 0 ≤ L) (hW : 0 ≤ W) (ha : |a.val - A| ≤ ε * (17 / 10 * L + 9 / 4))
    (hb : |b.val - B| ≤ ε * (17 / 10 * W + 9 / 4)) (hA : |A| ≤ L / 2) (hB : |B| ≤ W / 2)
    (hs : s = A + B) : |((a.add b).add x).val - (s + x.val)| ≤ ε * (39 / 10 * (L + W) + |x.val| + 94 / 10) ∧ |s| ≤ (L + W) / 2 := by
  have h0 := h.pos
  have hsm := h.small
  have hsb : |s| ≤ (L + W) / 2 := by
    rw [hs]
    exact (abs_add_le _ _).trans (by linarith)
  refine ⟨?_, hsb⟩
  obtain ⟨p, hp⟩ : ∃ p, p = (a.add b).val := ⟨_, rfl⟩
  have e1 : |p - (a.val + b.val)| ≤ ε * |a.val + b.val| + ε := by
    rw [hp]
    exact h.fl _
  have e2 : |a.val + b.val - s| ≤ ε * (17 / 10 * (L + W) + 9 / 2) := by
    rw [hs, show a.val + b.val - (A + B) = (a.val - A) + (b.val - B) by ring]
    exact (abs_add_le _ _).trans (by linarith)
  have e3 : |a.val + b.val| ≤ (L + W) / 2 + ε * (17 / 10 * (L + W) + 9 / 2) := by
    have := abs_sub_abs_le_abs_sub (a.val + b.val) s
    linarith
  have e4 : |((a.add b).add x).val - (p + x.val)| ≤ ε * |p + x.val| + ε := by
    rw [hp]
    exact h.fl _
  have e5 : |p + x.val| ≤ |p| + |x.val| := abs_add_le _ _
  have t1 := abs_sub_le p (a.val + b.val) s
  have e6 : |p| ≤ (L + W) / 2 + |p - s| := by
    have := abs_sub_abs_le_abs_sub p s
    linarith
  have t2 := abs_sub_le ((a.add b).add x).val (p + x.val) (s + x.val)
  rw [show p + x.val - (s + x.val) = p - s by ring] at t2
  have hx := abs_nonneg x.val
  have hV0 : 0 ≤ L + W := by linarith
  clear hs hA hB ha hb
  generalize L + W = V at *
  generalize |x.val| = X at *
  generalize |a.val + b.val| = Y at *
  generalize |p - s| = Z at *
  generalize |p| = P at *
  generalize |p + x.val| = Q at *
  generalize |((a.add b).add x).val - (s + x.val)| = R at *
  have m1 : ε * (17 / 10 * V + 9 / 2) ≤ 1 / 4 * (17 / 10 * V + 9 / 2) := mul_le_mul_of_nonneg_right hsm (by linarith)
  have hY : Y ≤ 37 / 40 * V + 9 / 8 := by linarith
  have m2 : ε * Y ≤ ε * (37 / 40 * V + 9 / 8) := mul_le_mul_of_nonneg_left hY h0.le
  have hZ : Z ≤ ε * (21 / 8 * V + 53 / 8) := by linarith
  have m3 : ε * (21 / 8 * V + 53 / 8) ≤ 1 / 4 * (21 / 8 * V + 53 / 8) := mul_le_mul_of_nonneg_right hsm (by linarith)
  have hQ : Q ≤ 37 / 32 * V + 53 / 32 + X := by linarith
  have m4 : ε * Q ≤ ε * (37 / 32 * V + 53 / 32 + X) := mul_le_mul_of_nonneg_left hQ h0.le
  have hR : R ≤ ε * (37 / 32 * V + 53 / 32 + X) + ε + ε * (21 / 8 * V + 53 / 8) := by linarith
  have hf : ε * (37 / 32 * V + 53 / 32 + X) + ε + ε * (21 / 8 * V + 53 / 8) ≤ ε * (39 / 10 * V + X + 94 / 10) := by
    rw [show ε * (37 / 32 * V + 53 / 32 + X) + ε + ε * (21 / 8 * V + 53 / 8) = ε * (37 / 32 * V + 53 / 32 + X + 1 + (21 / 8 * V + 53 / 8)) by ring]
    apply mul_le_mul_of_nonneg_left _ h0.le
    linarith
  exact hR.trans hf

end Kernel.Accurate

theorem sub_eq_add_neg' (a b : Flt φ) : a.sub b = a.add b.neg := by
  unfold Flt.sub Flt.add Flt.neg
  rw [sub_eq_add_neg]

theorem abs_half_mul {l t : ℝ} (ht : |t| ≤ 1) : |l / 2 * t| ≤ |l| / 2 := by
  rw [abs_mul, abs_div, abs_two]
  have := mul_le_mul_of_nonneg_left ht (by positivity : 0 ≤ |l| / 2)
  linarith

/-- The corners of a box are computed with a small error. -/
theorem corner_close (h : K.Accurate ε) (b : BoxFl φ) (k : Fin 4) :
    (|(cornersFl K b k).1.val - (cornersFromBbox b.toBox k).1| ≤
      ε * (39 / 10 * (|b.length.val| + |b.width.val|) + |b.x.val| + 94 / 10) ∧
    |(cornersFromBbox b.toBox k).1| ≤ |b.x.val| + (|b.length.val| + |b.width.val|) / 2) ∧
    (|(cornersFl K b k).2.val - (cornersFromBbox b.toBox k).2| ≤
      ε * (39 / 10 * (|b.length.val| + |b.width.val|) + |b.y.val| + 94 / 10) ∧
    |(cornersFromBbox b.toBox k).2| ≤ |b.y.val| + (|b.length.val| + |b.width.val|) / 2) := by
  obtain ⟨c1, c2⟩ := h.cos b.yaw
  obtain ⟨s1, s2⟩ := h.sin b.yaw
  have lc := h.side (l := b.length) c1 c2
  have ls := h.side (l := b.length) s1 s2
  have wc := h.side (l := b.width) c1 c2
  have ws := h.side (l := b.width) s1 s2
  have neg {a : Flt φ} {A E : ℝ} (ha : |a.val - A| ≤ E) : |a.neg.val - -A| ≤ E := by
    rw [show a.neg.val - -A = -(a.val - A) by simp [Flt.neg]; ring, abs_neg]
    exact ha
  have hl := abs_nonneg b.length.val
  have hw := abs_nonneg b.width.val
  have bl (t : ℝ) (ht : |t| ≤ 1) := abs_half_mul (l := b.length.val) ht
  have bw (t : ℝ) (ht : |t| ≤ 1) := abs_half_mul (l := b.width.val) ht
  have fin {z : Flt φ} {s x L B : ℝ} (hz : |z.val - (s + x)| ≤ B ∧ |s| ≤ L) : |z.val - (s + x)| ≤ B ∧ |s + x| ≤ |x| + L :=
    ⟨hz.1, (abs_add_le _ _).trans (by linarith [hz.2])⟩
  have hc := Real.abs_cos_le_one b.yaw.val
  have hs := Real.abs_sin_le_one b.yaw.val
  have nl (t : ℝ) (ht : |t| ≤ 1) : |-(b.length.val / 2 * t)| ≤ |b.length.val| / 2 := by rw [abs_neg]; exact bl t ht
  have nw (t : ℝ) (ht : |t| ≤ 1) : |-(b.width.val / 2 * t)| ≤ |b.width.val| / 2 := by rw [abs_neg]; exact bw t ht
  fin_cases k
  · exact ⟨fin (h.coord hl hw lc ws (bl _ hc) (bw _ hs) rfl),
      fin (by
        simp only [cornersFl, BoxFl.toBox, Matrix.cons_val_zero, Fin.zero_eta, sub_eq_add_neg']
        exact h.coord hl hw ls (neg wc) (bl _ hs) (nw _ hc) (sub_eq_add_neg _ _))⟩
  · refine ⟨fin ?_, fin ?_⟩
    · simp only [cornersFl, BoxFl.toBox, sub_eq_add_neg']
      exact h.coord hl hw lc (neg ws) (bl _ hc) (nw _ hs) (sub_eq_add_neg _ _)
    · exact h.coord hl hw ls wc (bl _ hs) (bw _ hc) rfl
  · refine ⟨fin ?_, fin ?_⟩
    · simp only [cornersFl, BoxFl.toBox, sub_eq_add_neg']
      exact h.coord hl hw (neg lc) (neg ws) (nl _ hc) (nw _ hs) (sub_eq_add_neg _ _)
    · exact h.coord hl hw (neg ls) wc (nl _ hs) (bw _ hc) rfl
  · refine ⟨fin ?_, fin ?_⟩
    · exact h.coord hl hw (neg lc) ws (nl _ hc) (bw _ hs) rfl
    · simp only [cornersFl, BoxFl.toBox, sub_eq_add_neg']
      exact h.coord hl hw (neg ls) (neg wc) (nl _ hs) (nw _ hc) (sub_eq_add_neg _ _)

/-- The direction of an axis in exact arithmetic. -/
noncomputable def axisOf (yaw : ℝ) (axis : Fin 2) : ℝ × ℝ := if axis = 0 then heading yaw else leftOf yaw

theorem axis_close (h : K.Accurate ε) (a : BoxFl φ) (axis : Fin 2) :
    (|(axisFl K a axis).1.val - (axisOf a.yaw.val axis).1| ≤ ε ∧ |(axisFl K a axis).1.val| ≤ 1) ∧
    (|(axisFl K a axis).2.val - (axisOf a.yaw.val axis).2| ≤ ε ∧ |(axisFl K a axis).2.val| ≤ 1) := by
  fin_cases axis
  · exact ⟨h.cos a.yaw, h.sin a.yaw⟩
  · refine ⟨?_, h.cos a.yaw⟩
    obtain ⟨h1, h2⟩ := h.sin a.yaw
    constructor
    · show |-(K.sin a.yaw).val - -Real.sin a.yaw.val| ≤ ε
      rw [show -(K.sin a.yaw).val - -Real.sin a.yaw.val = -((K.sin a.yaw).val - Real.sin a.yaw.val) by ring, abs_neg]
      exact h1
    · show |-(K.sin a.yaw).val| ≤ 1
      rw [abs_neg]
      exact h2

/-- The projections of the corners are computed with a small error. -/
theorem proj_close (h : K.Accurate ε) (a b : BoxFl φ) (axis : Fin 2) (k : Fin 4) :
    |(K.dot (cornersFl K b k) (axisFl K a axis)).val - dot (axisOf a.yaw.val axis) (cornersFromBbox b.toBox k)| ≤
      25 * ε * (1 + b.size) := by
  have h0 := h.pos
  have hsm := h.small
  obtain ⟨⟨c1, c2⟩, c3, c4⟩ := corner_close h b k
  obtain ⟨⟨n1, n2⟩, n3, n4⟩ := axis_close h a axis
  have hd := h.dot (cornersFl K b k) (axisFl K a axis)
  have hx := abs_nonneg b.x.val
  have hy := abs_nonneg b.y.val
  have hL := abs_nonneg b.length.val
  have hW := abs_nonneg b.width.val
  have hV : 0 ≤ |b.length.val| + |b.width.val| := by linarith
  unfold BoxFl.size dot
  generalize (cornersFl K b k).1.val = q1 at *
  generalize (cornersFl K b k).2.val = q2 at *
  generalize (cornersFromBbox b.toBox k).1 = r1 at *
  generalize (cornersFromBbox b.toBox k).2 = r2 at *
  generalize (axisFl K a axis).1.val = m1 at *
  generalize (axisFl K a axis).2.val = m2 at *
  generalize (axisOf a.yaw.val axis).1 = t1 at *
  generalize (axisOf a.yaw.val axis).2 = t2 at *
  generalize (K.dot (cornersFl K b k) (axisFl K a axis)).val = D at *
  rw [show |b.x.val| + |b.y.val| + |b.length.val| + |b.width.val| = |b.x.val| + |b.y.val| + (|b.length.val| + |b.width.val|) by ring]
  generalize |b.x.val| = X at *
  generalize |b.y.val| = Y at *
  generalize |b.length.val| + |b.width.val| = V at *
  -- one product
  have prod {q r m t X : ℝ} (hX : 0 ≤ X) (c1 : |q - r| ≤ ε * (39 / 10 * V + X + 94 / 10)) (c2 : |r| ≤ X + V / 2) (n1 : |m - t| ≤ ε)
      (n2 : |m| ≤ 1) : |q * m - t * r| ≤ ε * (44 / 10 * V + 2 * X + 94 / 10) ∧ |q * m| ≤ 59 / 40 * V + 5 / 4 * X + 94 / 40 := by
    constructor
    · rw [show q * m - t * r = (q - r) * m + r * (m - t) by ring]
      refine (abs_add_le _ _).trans ?_
      rw [abs_mul, abs_mul]
      have e1 : |q - r| * |m| ≤ ε * (39 / 10 * V + X + 94 / 10) := by
        have := mul_le_mul c1 n2 (abs_nonneg _) (by positivity)
        rwa [mul_one] at this
      have e2 : |r| * |m - t| ≤ (X + V / 2) * ε := mul_le_mul c2 n1 (abs_nonneg _) (by positivity)
      nlinarith
    · rw [abs_mul]
      have e1 : |q| ≤ |r| + |q - r| := by
        have := abs_sub_abs_le_abs_sub q r
        linarith
      have e2 : ε * (39 / 10 * V + X + 94 / 10) ≤ 1 / 4 * (39 / 10 * V + X + 94 / 10) :=
        mul_le_mul_of_nonneg_right hsm (by linarith)
      have e3 : |q| * |m| ≤ |q| := by
        have := mul_le_mul_of_nonneg_left n2 (abs_nonneg q)
        rwa [mul_one] at this
      linarith
  obtain ⟨p1, p2⟩ := prod hx c1 c2 n1 n2
  obtain ⟨p3, p4⟩ := prod hy c3 c4 n3 n4
  have tri : |D - (t1 * r1 + t2 * r2)| ≤ |D - (q1 * m1 + q2 * m2)| + (|q1 * m1 - t1 * r1| + |q2 * m2 - t2 * r2|) := by
    rw [show D - (t1 * r1 + t2 * r2) = (D - (q1 * m1 + q2 * m2)) + ((q1 * m1 - t1 * r1) + (q2 * m2 - t2 * r2)) by ring]
    exact (abs_add_le _ _).trans (add_le_add le_rfl (abs_add_le _ _))
  have e1 : ε * (|q1 * m1| + |q2 * m2|) ≤ ε * (59 / 20 * V + 5 / 4 * (X + Y) + 94 / 20) :=
    mul_le_mul_of_nonneg_left (by linarith) h0.le
  have tot : |D - (t1 * r1 + t2 * r2)| ≤ ε * (59 / 20 * V + 5 / 4 * (X + Y) + 94 / 20 + 1 + (88 / 10 * V + 2 * (X + Y) + 188 / 10)) := by
    linarith
  refine tot.trans ?_
  rw [mul_comm 25 ε, mul_assoc]
  apply mul_le_mul_of_nonneg_left _ h0.le
  linarith

theorem max4_close {f g : Fin 4 → ℝ} {E : ℝ} (h : ∀ k, |f k - g k| ≤ E) : |max4 f - max4 g| ≤ E := by
  unfold max4
  refine (abs_max_sub_max_le_max _ _ _ _).trans (max_le ?_ ?_)
  · exact (abs_max_sub_max_le_max _ _ _ _).trans (max_le (h 0) (h 1))
  · exact (abs_max_sub_max_le_max _ _ _ _).trans (max_le (h 2) (h 3))

theorem min4_close {f g : Fin 4 → ℝ} {E : ℝ} (h : ∀ k, |f k - g k| ≤ E) : |min4 f - min4 g| ≤ E := by
  unfold min4
  refine (abs_min_sub_min_le_max _ _ _ _).trans (max_le ?_ ?_)
  · exact (abs_min_sub_min_le_max _ _ _ _).trans (max_le (h 0) (h 1))
  · exact (abs_min_sub_min_le_max _ _ _ _).trans (max_le (h 2) (h 3))

/-- The rounded difference of two numbers of the format is positive exactly when the difference is. -/
theorem Format.fl_sub_pos {x y : ℝ} (hx : φ.Rep x) (hy : φ.Rep y) : 0 < φ.fl (x - y) ↔ 0 < x - y := by
  constructor
  · intro h
    by_contra hc
    exact absurd h (not_lt.2 (Format.fl_le_of_rep Format.Rep.zero (not_lt.1 hc)))
  · intro h
    have hr : φ.Rep (2 ^ φ.emin) := by
      have := φ.two_le
      refine ⟨1, φ.emin, ?_, le_rfl, by simp⟩
      rw [abs_one]
      exact_mod_cast Nat.one_lt_two_pow (by omega)
    obtain ⟨m, hm⟩ := hx.grid
    obtain ⟨n, hn⟩ := hy.grid
    have e : x - y = (m - n : ℤ) * 2 ^ φ.emin := by
      rw [hm, hn]
      push_cast
      ring
    rw [e] at h
    have h1 : (0 : ℝ) < (m - n : ℤ) := (mul_pos_iff_of_pos_right (Format.two_zpow_pos _)).1 h
    have h2 : (1 : ℤ) ≤ m - n := by exact_mod_cast h1
    have h3 : (1 : ℝ) ≤ (m - n : ℤ) := by exact_mod_cast h2
    refine (Format.two_zpow_pos φ.emin).trans_le (Format.le_fl_of_rep hr ?_)
    rw [e]
    have := mul_le_mul_of_nonneg_right h3 (Format.two_zpow_pos φ.emin).le
    linarith

theorem Format.Rep.max {x y : ℝ} (hx : φ.Rep x) (hy : φ.Rep y) : φ.Rep (max x y) := by
  rcases max_choice x y with h | h <;> rw [h] <;> assumption

theorem Format.Rep.min {x y : ℝ} (hx : φ.Rep x) (hy : φ.Rep y) : φ.Rep (min x y) := by
  rcases min_choice x y with h | h <;> rw [h] <;> assumption

/-- The computed projections of the corners of `b` on an axis of `a`. -/
noncomputable def projFl (K : Kernel φ) (a b : BoxFl φ) (axis : Fin 2) (k : Fin 4) : ℝ :=
  (K.dot (cornersFl K b k) (axisFl K a axis)).val

theorem overlapAOverBFl_iff {a b : BoxFl φ} : overlapAOverBFl K a b ↔ ∀ axis,
    min4 (projFl K a a axis) < max4 (projFl K a a axis) ∧ min4 (projFl K a b axis) < max4 (projFl K a a axis) ∧
    min4 (projFl K a a axis) < max4 (projFl K a b axis) ∧ min4 (projFl K a b axis) < max4 (projFl K a b axis) := by
  have rmax (b : BoxFl φ) (axis : Fin 2) : φ.Rep (max4 (projFl K a b axis)) :=
    ((K.dot _ _).property.max (K.dot _ _).property).max ((K.dot _ _).property.max (K.dot _ _).property)
  have rmin (b : BoxFl φ) (axis : Fin 2) : φ.Rep (min4 (projFl K a b axis)) :=
    ((K.dot _ _).property.min (K.dot _ _).property).min ((K.dot _ _).property.min (K.dot _ _).property)
  refine forall_congr' fun axis => ?_
  refine (Format.fl_sub_pos ((rmax a axis).min (rmax b axis)) ((rmin a axis).max (rmin b axis))).trans ?_
  rw [sub_pos, max_lt_iff, lt_min_iff, lt_min_iff]
  tauto

/-! ### Symmetry -/

/-- The test does not depend on the order of the boxes, whatever the arithmetic. -/
theorem C135_symmetric (K : Kernel φ) (a b : BoxFl φ) : hasOverlapFl K a b ↔ hasOverlapFl K b a := and_comm

/-- The pairwise matrix is symmetric and False on the diagonal. -/
theorem C135_pairwise (K : Kernel φ) {n : Nat} (traj : Fin n → BoxFl φ) (i j : Fin n) :
    (computePairwiseOverlapsFl K traj i j ↔ computePairwiseOverlapsFl K traj j i) ∧ ¬ computePairwiseOverlapsFl K traj i i := by
  unfold computePairwiseOverlapsFl
  constructor
  · by_cases h : i = j
    · simp [h]
    · rw [if_neg h, if_neg (Ne.symm h), C135_symmetric]
  · simp

/-! ### Accuracy -/

theorem size_nonneg (b : BoxFl φ) : 0 ≤ b.size := by
  unfold BoxFl.size
  positivity

theorem margin_pos (h : K.Accurate ε) (a b : BoxFl φ) : 0 < overlapMargin ε a b := by
  have := h.pos
  have := size_nonneg a
  have := size_nonneg b
  unfold overlapMargin
  positivity

theorem margin_left (h : K.Accurate ε) (a b : BoxFl φ) : 25 * ε * (1 + a.size) ≤ overlapMargin ε a b := by
  have := h.pos
  have := size_nonneg b
  unfold overlapMargin
  apply mul_le_mul_of_nonneg_left _ (by positivity)
  linarith

theorem margin_comm (ε : ℝ) (a b : BoxFl φ) : overlapMargin ε a b = overlapMargin ε b a := by
  unfold overlapMargin
  ring

theorem minmax_close (h : K.Accurate ε) (a b : BoxFl φ) (axis : Fin 2) :
    |max4 (projFl K a b axis) - (dot (axisOf a.yaw.val axis) (b.x.val, b.y.val) + b.toBox.ext (axisOf a.yaw.val axis))| ≤
      25 * ε * (1 + b.size) ∧
    |min4 (projFl K a b axis) - (dot (axisOf a.yaw.val axis) (b.x.val, b.y.val) - b.toBox.ext (axisOf a.yaw.val axis))| ≤
      25 * ε * (1 + b.size) := by
  obtain ⟨h1, h2⟩ := box_minmax b.toBox (axisOf a.yaw.val axis)
  constructor
  · have := max4_close (fun k => proj_close h a b axis k)
    rw [h1] at this
    exact this
  · have := min4_close (fun k => proj_close h a b axis k)
    rw [h2] at this
    exact this

/-- What the test says about the exact boxes, on one of the axes. -/
theorem axis_of_overlap (h : K.Accurate ε) {a b : BoxFl φ} (ho : overlapAOverBFl K a b) (axis : Fin 2) :
    |dot (axisOf a.yaw.val axis) (b.x.val - a.x.val, b.y.val - a.y.val)| <
      a.toBox.ext (axisOf a.yaw.val axis) + b.toBox.ext (axisOf a.yaw.val axis) + 2 * overlapMargin ε a b := by
  obtain ⟨-, o1, o2, -⟩ := overlapAOverBFl_iff.1 ho axis
  obtain ⟨a1, a2⟩ := minmax_close h a a axis
  obtain ⟨b1, b2⟩ := minmax_close h a b axis
  have ma := margin_left h a b
  have mb := margin_left h b a
  rw [margin_comm] at mb
  rw [abs_le] at a1 a2 b1 b2
  have e : dot (axisOf a.yaw.val axis) (b.x.val - a.x.val, b.y.val - a.y.val) =
      dot (axisOf a.yaw.val axis) (b.x.val, b.y.val) - dot (axisOf a.yaw.val axis) (a.x.val, a.y.val) := by
    simp only [dot]
    ring
  rw [e, abs_lt]
  constructor <;> linarith [a1.1, a1.2, a2.1, a2.2, b1.1, b1.2, b2.1, b2.2]

/-- When the test succeeds, on the axes of one box. -/
theorem overlap_of_axes (h : K.Accurate ε) {a b : BoxFl φ} (hx : ∀ axis,
    overlapMargin ε a b < a.toBox.ext (axisOf a.yaw.val axis) ∧ overlapMargin ε a b < b.toBox.ext (axisOf a.yaw.val axis) ∧
    |dot (axisOf a.yaw.val axis) (b.x.val - a.x.val, b.y.val - a.y.val)| + 2 * overlapMargin ε a b <
      a.toBox.ext (axisOf a.yaw.val axis) + b.toBox.ext (axisOf a.yaw.val axis)) : overlapAOverBFl K a b := by
  rw [overlapAOverBFl_iff]
  intro axis
  obtain ⟨x1, x2, x3⟩ := hx axis
  obtain ⟨a1, a2⟩ := minmax_close h a a axis
  obtain ⟨b1, b2⟩ := minmax_close h a b axis
  have ma := margin_left h a b
  have mb := margin_left h b a
  rw [margin_comm] at mb
  rw [abs_le] at a1 a2 b1 b2
  have e : dot (axisOf a.yaw.val axis) (b.x.val - a.x.val, b.y.val - a.y.val) =
      dot (axisOf a.yaw.val axis) (b.x.val, b.y.val) - dot (axisOf a.yaw.val axis) (a.x.val, a.y.val) := by
    simp only [dot]
    ring
  rw [e, ← lt_sub_iff_add_lt, abs_lt] at x3
  refine ⟨?_, ?_, ?_, ?_⟩ <;> linarith [a1.1, a1.2, a2.1, a2.2, b1.1, b1.2, b2.1, b2.2]

theorem axis_unit (yaw : ℝ) (axis : Fin 2) : (axisOf yaw axis).1 ^ 2 + (axisOf yaw axis).2 ^ 2 = 1 := by
  fin_cases axis
  · simp only [axisOf, heading, Fin.zero_eta, if_true]
    linear_combination sin_sq_add_cos_sq yaw
  · simp only [axisOf, leftOf, Fin.mk_one, Fin.isValue, one_ne_zero, if_false]
    linear_combination sin_sq_add_cos_sq yaw

/-- Adding `E` on every side of a box moves its extent by `E` at least. -/
theorem ext_add {yaw L W E : ℝ} (hE : 0 ≤ E) {n : ℝ × ℝ} (hn : n.1 ^ 2 + n.2 ^ 2 = 1) :
    Sat.ext yaw L W n + E ≤ Sat.ext yaw (L + E) (W + E) n := by
  have hsq := dot_sq n yaw
  rw [hn, ← sq_abs, ← sq_abs (dot n (leftOf yaw))] at hsq
  have h1 := abs_nonneg (dot n (heading yaw))
  have h2 := abs_nonneg (dot n (leftOf yaw))
  have h3 : 1 ≤ |dot n (heading yaw)| + |dot n (leftOf yaw)| := by nlinarith
  unfold Sat.ext
  nlinarith

theorem dist2_triangle (p q r : ℝ × ℝ) : dist2 p r ≤ dist2 p q + dist2 q r := by
  have e (p q : ℝ × ℝ) : dist2 p q = dist (⟨p.1, p.2⟩ : ℂ) ⟨q.1, q.2⟩ := by rw [Complex.dist_eq_re_im]; rfl
  rw [e, e, e]
  exact dist_triangle _ _ _

theorem dist2_comm (p q : ℝ × ℝ) : dist2 p q = dist2 q p := by
  unfold dist2
  rw [← neg_sub p.1, ← neg_sub p.2, neg_sq, neg_sq]

/-- A point of a box enlarged by `E` on every side is close to the box. -/
theorem near_rect {x y l w yaw E : ℝ} (hE : 0 ≤ E) {p : ℝ × ℝ} (hp : p ∈ rectInterior x y (|l| + 2 * E) (|w| + 2 * E) yaw) :
    ∃ q ∈ rectClosed x y l w yaw, dist2 p q ≤ 3 / 2 * E := by
  obtain ⟨u, v, hu, hv, rfl⟩ := hp
  have clamp {t s : ℝ} (ht : |t| < |(|s| + 2 * E)| / 2) : ∃ t', |t'| ≤ |s| / 2 ∧ |t - t'| ≤ E := by
    have hs := abs_nonneg s
    rw [abs_of_nonneg (by linarith : 0 ≤ |s| + 2 * E), abs_lt] at ht
    refine ⟨max (-(|s| / 2)) (min t (|s| / 2)), abs_le.2 ⟨le_max_left _ _, max_le (by linarith) (min_le_right _ _)⟩, ?_⟩
    rw [abs_le]
    rcases le_total t (|s| / 2) with h1 | h1
    · rw [min_eq_left h1]
      rcases le_total (-(|s| / 2)) t with h2 | h2
      · rw [max_eq_right h2]
        constructor <;> linarith
      · rw [max_eq_left h2]
        constructor <;> linarith
    · rw [min_eq_right h1, max_eq_right (by linarith)]
      constructor <;> linarith
  obtain ⟨u', hu', du⟩ := clamp hu
  obtain ⟨v', hv', dv⟩ := clamp hv
  refine ⟨_, ⟨u', v', hu', hv', rfl⟩, ?_⟩
  rw [dist2_pointAt]
  apply Real.sqrt_le_iff.2 ⟨by linarith, ?_⟩
  have h1 : (u - u') ^ 2 ≤ E ^ 2 := sq_le_sq' (abs_le.1 du).1 (abs_le.1 du).2
  have h2 : (v - v') ^ 2 ≤ E ^ 2 := sq_le_sq' (abs_le.1 dv).1 (abs_le.1 dv).2
  nlinarith

/-- No false alarms: if an overlap is reported, then the rectangles are not farther apart than three times the margin. -/
theorem C135_no_false_alarm (h : K.Accurate ε) {a b : BoxFl φ} (ho : hasOverlapFl K a b) :
    ∃ p ∈ rectClosed a.x.val a.y.val a.length.val a.width.val a.yaw.val,
    ∃ q ∈ rectClosed b.x.val b.y.val b.length.val b.width.val b.yaw.val, dist2 p q ≤ 3 * overlapMargin ε a b := by
  have hE := margin_pos h a b
  obtain ⟨E, eE⟩ : ∃ E, E = overlapMargin ε a b := ⟨_, rfl⟩
  rw [← eE] at hE
  have hne (t : ℝ) : |t| + 2 * E ≠ 0 := by have := abs_nonneg t; linarith
  have ax (yaw : ℝ) (axis : Fin 2) (hb : |dot (axisOf yaw axis) (b.x.val - a.x.val, b.y.val - a.y.val)| <
      a.toBox.ext (axisOf yaw axis) + b.toBox.ext (axisOf yaw axis) + 2 * E) :
      |dot (axisOf yaw axis) (b.x.val - a.x.val, b.y.val - a.y.val)| <
        Sat.ext a.yaw.val (|(|a.length.val| + 2 * E)| / 2) (|(|a.width.val| + 2 * E)| / 2) (axisOf yaw axis) +
        Sat.ext b.yaw.val (|(|b.length.val| + 2 * E)| / 2) (|(|b.width.val| + 2 * E)| / 2) (axisOf yaw axis) := by
    have half (t : ℝ) : |(|t| + 2 * E)| / 2 = |t| / 2 + E := by
      rw [abs_of_nonneg (by have := abs_nonneg t; linarith)]
      ring
    rw [half, half, half, half]
    have e1 := ext_add (yaw := a.yaw.val) (L := |a.length.val| / 2) (W := |a.width.val| / 2) hE.le (axis_unit yaw axis)
    have e2 := ext_add (yaw := b.yaw.val) (L := |b.length.val| / 2) (W := |b.width.val| / 2) hE.le (axis_unit yaw axis)
    have e3 : a.toBox.ext (axisOf yaw axis) = Sat.ext a.yaw.val (|a.length.val| / 2) (|a.width.val| / 2) (axisOf yaw axis) := rfl
    have e4 : b.toBox.ext (axisOf yaw axis) = Sat.ext b.yaw.val (|b.length.val| / 2) (|b.width.val| / 2) (axisOf yaw axis) := rfl
    linarith
  have ha (axis : Fin 2) := ax a.yaw.val axis (eE ▸ axis_of_overlap h ho.1 axis)
  have hb (axis : Fin 2) := ax b.yaw.val axis (by
    have := axis_of_overlap h ho.2 axis
    rw [margin_comm, ← eE, show dot (axisOf b.yaw.val axis) (a.x.val - b.x.val, a.y.val - b.y.val) =
      -dot (axisOf b.yaw.val axis) (b.x.val - a.x.val, b.y.val - a.y.val) by simp only [dot]; ring, abs_neg] at this
    linarith)
  obtain ⟨p, pa, pb⟩ := (Sat.rect_meet_iff (hne a.length.val) (hne a.width.val) (hne b.length.val) (hne b.width.val)).2 (by
    rintro n (rfl | rfl | rfl | rfl)
    · exact ha 0
    · exact ha 1
    · exact hb 0
    · exact hb 1)
  obtain ⟨q, hq, dq⟩ := near_rect hE.le pa
  obtain ⟨r, hr, dr⟩ := near_rect hE.le pb
  refine ⟨q, hq, r, hr, ?_⟩
  have := dist2_triangle q p r
  rw [dist2_comm q p] at this
  rw [← eE]
  linarith

/-- No misses: if some point is inside both rectangles, farther from their sides than the margin, then an overlap is reported. -/
theorem C135_no_miss (h : K.Accurate ε) {a b : BoxFl φ} {p : ℝ × ℝ} {ua va ub vb : ℝ}
    (pa : p = pointAt a.x.val a.y.val a.yaw.val ua va) (hua : |ua| < |a.length.val| / 2 - overlapMargin ε a b)
    (hva : |va| < |a.width.val| / 2 - overlapMargin ε a b)
    (pb : p = pointAt b.x.val b.y.val b.yaw.val ub vb) (hub : |ub| < |b.length.val| / 2 - overlapMargin ε a b)
    (hvb : |vb| < |b.width.val| / 2 - overlapMargin ε a b) : hasOverlapFl K a b := by
  have hE := margin_pos h a b
  obtain ⟨E, eE⟩ : ∃ E, E = overlapMargin ε a b := ⟨_, rfl⟩
  rw [← eE] at hE hua hva hub hvb
  have ext_gt {yaw u v L W : ℝ} (hu : |u| < L - E) (hv : |v| < W - E) {n : ℝ × ℝ} (hn : n.1 ^ 2 + n.2 ^ 2 = 1) :
      |dot n (heading yaw) * u + dot n (leftOf yaw) * v| + E < Sat.ext yaw L W n := by
    have h1 := ext_add (yaw := yaw) (L := L - E) (W := W - E) hE.le hn
    rw [sub_add_cancel, sub_add_cancel] at h1
    have hne : dot n (heading yaw) ≠ 0 ∨ dot n (leftOf yaw) ≠ 0 := by
      by_contra hc
      rw [not_or, not_not, not_not] at hc
      have := dot_sq n yaw
      rw [hc.1, hc.2, hn] at this
      norm_num at this
    have h2 := abs_comb_lt hne hu hv
    unfold Sat.ext at h1 ⊢
    linarith
  have key (yaw : ℝ) (axis : Fin 2) : E < a.toBox.ext (axisOf yaw axis) ∧ E < b.toBox.ext (axisOf yaw axis) ∧
      |dot (axisOf yaw axis) (b.x.val - a.x.val, b.y.val - a.y.val)| + 2 * E < a.toBox.ext (axisOf yaw axis) + b.toBox.ext (axisOf yaw axis) := by
    have ea := ext_gt (yaw := a.yaw.val) hua hva (axis_unit yaw axis)
    have eb := ext_gt (yaw := b.yaw.val) hub hvb (axis_unit yaw axis)
    have da := dot_pointAt (axisOf yaw axis) a.x.val a.y.val a.yaw.val ua va
    have db := dot_pointAt (axisOf yaw axis) b.x.val b.y.val b.yaw.val ub vb
    rw [← pa] at da
    rw [← pb] at db
    have e : dot (axisOf yaw axis) (b.x.val - a.x.val, b.y.val - a.y.val) =
        dot (axisOf yaw axis) (b.x.val, b.y.val) - dot (axisOf yaw axis) (a.x.val, a.y.val) := by
      simp only [dot]
      ring
    have ha' : a.toBox.ext (axisOf yaw axis) = Sat.ext a.yaw.val (|a.length.val| / 2) (|a.width.val| / 2) (axisOf yaw axis) := rfl
    have hb' : b.toBox.ext (axisOf yaw axis) = Sat.ext b.yaw.val (|b.length.val| / 2) (|b.width.val| / 2) (axisOf yaw axis) := rfl
    rw [ha', hb']
    obtain ⟨s, hs⟩ : ∃ s, s = dot (axisOf yaw axis) (heading a.yaw.val) * ua + dot (axisOf yaw axis) (leftOf a.yaw.val) * va := ⟨_, rfl⟩
    obtain ⟨t, ht⟩ : ∃ t, t = dot (axisOf yaw axis) (heading b.yaw.val) * ub + dot (axisOf yaw axis) (leftOf b.yaw.val) * vb := ⟨_, rfl⟩
    rw [← hs] at ea da
    rw [← ht] at eb db
    have e' : dot (axisOf yaw axis) (b.x.val - a.x.val, b.y.val - a.y.val) = s - t := by linarith
    rw [e']
    have := abs_sub s t
    refine ⟨?_, ?_, ?_⟩ <;> linarith [abs_nonneg s, abs_nonneg t]
  constructor
  · exact overlap_of_axes h fun axis => eE ▸ key a.yaw.val axis
  · refine overlap_of_axes h fun axis => ?_
    obtain ⟨k1, k2, k3⟩ := key b.yaw.val axis
    rw [margin_comm, ← eE, show dot (axisOf b.yaw.val axis) (a.x.val - b.x.val, a.y.val - b.y.val) =
      -dot (axisOf b.yaw.val axis) (b.x.val - a.x.val, b.y.val - a.y.val) by simp only [dot]; ring, abs_neg]
    exact ⟨k2, k1, by linarith⟩

/-! ### The metric -/

/-- The overlap metric in machine arithmetic: 1 exactly when the test holds against another object that is valid now, 0 otherwise,
and valid exactly when the object is. -/
theorem C135_metric (K : Kernel φ) {n T : Nat} [NeZero T] (s : SimState (Flt φ) n T) {t : Fin T} (ht : (t : Int) = s.timestep)
    (i : Fin n) :
    let cur := fun j => s.simTrajectory j t
    ((overlapMetricFl K s i).value = 1 ↔ ∃ j, j ≠ i ∧ (cur j).valid = true ∧ hasOverlapFl K (cur i).boxFl (cur j).boxFl) ∧
    ((overlapMetricFl K s i).value = 0 ∨ (overlapMetricFl K s i).value = 1) ∧
    (overlapMetricFl K s i).valid = (cur i).valid := by
  intro cur
  have hcur : (fun j => dynIndex (s.simTrajectory j) s.timestep) = cur := by
    funext j; exact dynIndex_of_eq _ ht
  refine ⟨?_, ?_, ?_⟩
  · unfold overlapMetricFl
    rw [hcur]
    unfold computeOverlapFl
    simp only
    constructor
    · intro h
      split at h
      · rename_i hpos
        obtain ⟨j, -, hj⟩ := Finset.exists_ne_zero_of_sum_ne_zero (Nat.pos_iff_ne_zero.1 hpos)
        split at hj
        · rename_i hc
          obtain ⟨hov, hv⟩ := hc
          unfold computePairwiseOverlapsFl at hov
          split at hov
          · exact absurd hov id
          · rename_i hne
            exact ⟨j, hne, hv, (C135_symmetric K _ _).1 hov⟩
        · exact absurd rfl hj
      · norm_num at h
    · rintro ⟨j, hne, hv, hm⟩
      rw [if_pos]
      apply Nat.pos_of_ne_zero
      intro h0
      rw [Finset.sum_eq_zero_iff] at h0
      have := h0 j (Finset.mem_univ _)
      rw [if_pos] at this
      · norm_num at this
      · refine ⟨?_, hv⟩
        unfold computePairwiseOverlapsFl
        rw [if_neg hne, C135_symmetric]
        exact hm
  · unfold overlapMetricFl computeOverlapFl
    simp only
    split
    · right; rfl
    · left; rfl
  · unfold overlapMetricFl computeOverlapFl
    simp only [dynIndex_of_eq _ ht]; rfl

/-- The rectangle of an object at a time step, with its border. -/
def footprintFl (p : Pt (Flt φ)) : Set (ℝ × ℝ) := rectClosed p.x.val p.y.val p.length.val p.width.val p.yaw.val

/-- What the metric means: 1 tells that another valid object is as close as three margins; 0 tells that no other valid object shares a point
with it that is farther than the margin from the sides of both. -/
theorem C135_metric_accuracy (h : K.Accurate ε) {n T : Nat} [NeZero T] (s : SimState (Flt φ) n T) {t : Fin T}
    (ht : (t : Int) = s.timestep) (i : Fin n) :
    let cur := fun j => s.simTrajectory j t
    let margin := fun j => overlapMargin ε (cur i).boxFl (cur j).boxFl
    ((overlapMetricFl K s i).value = 1 → ∃ j, j ≠ i ∧ (cur j).valid = true ∧
      ∃ p ∈ footprintFl (cur i), ∃ q ∈ footprintFl (cur j), dist2 p q ≤ 3 * margin j) ∧
    ((overlapMetricFl K s i).value = 0 → ∀ j, j ≠ i → (cur j).valid = true → ∀ ui vi uj vj : ℝ,
      pointAt (cur i).x.val (cur i).y.val (cur i).yaw.val ui vi = pointAt (cur j).x.val (cur j).y.val (cur j).yaw.val uj vj →
      |(cur i).length.val| / 2 - margin j ≤ |ui| ∨ |(cur i).width.val| / 2 - margin j ≤ |vi| ∨
      |(cur j).length.val| / 2 - margin j ≤ |uj| ∨ |(cur j).width.val| / 2 - margin j ≤ |vj|) := by
  intro cur margin
  obtain ⟨h1, -, -⟩ := C135_metric K s ht i
  constructor
  · intro hv
    obtain ⟨j, hj, hv, ho⟩ := h1.1 hv
    exact ⟨j, hj, hv, C135_no_false_alarm h ho⟩
  · intro hv j hj hvj ui vi uj vj hp
    by_contra hc
    simp only [not_or, not_le] at hc
    obtain ⟨c1, c2, c3, c4⟩ := hc
    have := h1.2 ⟨j, hj, hvj, C135_no_miss h rfl c1 c2 hp c3 c4⟩
    rw [hv] at this
    norm_num at this

/-! ### A kernel that meets the hypotheses -/

/-- Correctly rounded sine and cosine, and every product and sum rounded. -/
noncomputable def Kernel.rounded (φ : Format) : Kernel φ where
  sin x := Flt.round φ (Real.sin x.val)
  cos x := Flt.round φ (Real.cos x.val)
  dot p q := (p.1.mul q.1).add (p.2.mul q.2)

/-- Correctly rounded sine and cosine, and fused multiply and add. -/
noncomputable def Kernel.fused (φ : Format) : Kernel φ where
  sin x := Flt.round φ (Real.sin x.val)
  cos x := Flt.round φ (Real.cos x.val)
  dot p q := Flt.round φ (p.1.val * q.1.val + (p.2.mul q.2).val)

theorem round_unit {x : ℝ} (h1 : |x| ≤ 1) : |φ.fl x - x| ≤ 4 * φ.u ∧ |φ.fl x| ≤ 1 := by
  have hp := φ.u_pos
  have r1 : φ.Rep 1 := by
    have := φ.two_le
    have := φ.normal_one
    refine ⟨1, 0, ?_, by omega, by norm_num⟩
    rw [abs_one]
    exact_mod_cast Nat.one_lt_two_pow (by omega)
  constructor
  · have := φ.fl_err x
    have := mul_le_mul_of_nonneg_left h1 hp.le
    linarith
  · rw [abs_le] at h1 ⊢
    exact ⟨Format.le_fl_of_rep r1.neg h1.1, Format.fl_le_of_rep r1 h1.2⟩

theorem Kernel.rounded_accurate (hu : φ.u ≤ 1 / 16) : (Kernel.rounded φ).Accurate (4 * φ.u) where
  unit := by linarith [φ.u_pos]
  small := by linarith
  cos x := round_unit (abs_cos_le_one _)
  sin x := round_unit (abs_sin_le_one _)
  dot p q := by
    have hp := φ.u_pos
    show |φ.fl (φ.fl (p.1.val * q.1.val) + φ.fl (p.2.val * q.2.val)) - _| ≤ _
    generalize p.1.val * q.1.val = a
    generalize p.2.val * q.2.val = b
    have ha := φ.fl_err a
    have hb := φ.fl_err b
    have hab := φ.fl_err (φ.fl a + φ.fl b)
    generalize φ.fl (φ.fl a + φ.fl b) = r at *
    generalize φ.fl a = a' at *
    generalize φ.fl b = b' at *
    generalize φ.u = u at *
    have h1 : |r - (a + b)| ≤ |r - (a' + b')| + |a' - a| + |b' - b| := by
      rw [show r - (a + b) = r - (a' + b') + (a' - a) + (b' - b) by ring]
      exact abs_add_three _ _ _
    have h2 : |a' + b'| ≤ |a| + |b| + |a' - a| + |b' - b| := by
      rw [show a' + b' = (a + b) + (a' - a) + (b' - b) by ring]
      linarith [abs_add_three (a + b) (a' - a) (b' - b), abs_add_le a b]
    have h3 : u * |a' + b'| ≤ u * (|a| + |b| + |a' - a| + |b' - b|) := mul_le_mul_of_nonneg_left h2 hp.le
    have h4 : u * (|a' - a| + |b' - b|) ≤ 1 / 16 * (|a' - a| + |b' - b|) := mul_le_mul_of_nonneg_right hu (by positivity)
    have h5 : 0 ≤ u * |a| := by positivity
    have h6 : 0 ≤ u * |b| := by positivity
    linarith

theorem Kernel.fused_accurate (hu : φ.u ≤ 1 / 16) : (Kernel.fused φ).Accurate (4 * φ.u) where
  unit := by linarith [φ.u_pos]
  small := by linarith
  cos x := round_unit (abs_cos_le_one _)
  sin x := round_unit (abs_sin_le_one _)
  dot p q := by
    have hp := φ.u_pos
    show |φ.fl (p.1.val * q.1.val + φ.fl (p.2.val * q.2.val)) - _| ≤ _
    generalize p.1.val * q.1.val = a
    generalize p.2.val * q.2.val = b
    have hb := φ.fl_err b
    have hab := φ.fl_err (a + φ.fl b)
    generalize φ.fl (a + φ.fl b) = r at *
    generalize φ.fl b = b' at *
    generalize φ.u = u at *
    have h1 : |r - (a + b)| ≤ |r - (a + b')| + |b' - b| := by
      rw [show r - (a + b) = r - (a + b') + (b' - b) by ring]
      exact abs_add_le _ _
    have h2 : |a + b'| ≤ |a| + |b| + |b' - b| := by
      rw [show a + b' = a + b + (b' - b) by ring]
      linarith [abs_add_three a b (b' - b)]
    have h3 : u * |a + b'| ≤ u * (|a| + |b| + |b' - b|) := mul_le_mul_of_nonneg_left h2 hp.le
    have h4 : u * |b' - b| ≤ 1 / 16 * |b' - b| := mul_le_mul_of_nonneg_right hu (by positivity)
    have h5 : 0 ≤ u * |a| := by positivity
    have h6 : 0 ≤ u * |b| := by positivity
    linarith

theorem float32_u : float32.u ≤ 1 / 16 := by
  show (2 : ℝ) ^ (-(24 : ℤ)) ≤ 1 / 16
  norm_num

example : (Kernel.rounded float32).Accurate (4 * float32.u) := Kernel.rounded_accurate float32_u
example : (Kernel.fused float32).Accurate (4 * float32.u) := Kernel.fused_accurate float32_u

/-- A 4 m x 2 m car at `(x, 0)` heading along the axis, in single precision. -/
noncomputable def carFl (x : ℤ) (hx : |x| < 2 ^ 24) : BoxFl float32 where
  x := ⟨x, x, 0, hx, by decide, by norm_num⟩
  y := ⟨0, Format.Rep.zero⟩
  length := ⟨4, 4, 0, by norm_num [float32], by decide, by norm_num⟩
  width := ⟨2, 2, 0, by norm_num [float32], by decide, by norm_num⟩
  yaw := ⟨0, Format.Rep.zero⟩

/-- Near the origin of the map the margin of single precision is below two tenths of a millimetre. -/
example : overlapMargin (4 * float32.u) (carFl 0 (by norm_num)) (carFl 3 (by norm_num)) < 1 / 5000 := by
  have hu : float32.u = 2 ^ (-(24 : ℤ)) := rfl
  simp only [overlapMargin, BoxFl.size, carFl, hu]
  norm_num

/-- Two cars three metres apart are reported, two cars five metres apart are not. -/
example : hasOverlapFl (Kernel.rounded float32) (carFl 0 (by norm_num)) (carFl 3 (by norm_num)) := by
  have hu : float32.u = 2 ^ (-(24 : ℤ)) := rfl
  refine C135_no_miss (p := (3 / 2, 0)) (ua := 3 / 2) (va := 0) (ub := -(3 / 2)) (vb := 0) (Kernel.rounded_accurate float32_u) ?_ ?_ ?_ ?_ ?_ ?_
  · simp [carFl, pointAt, heading]
  · simp only [overlapMargin, BoxFl.size, carFl, hu]
    norm_num
  · simp only [overlapMargin, BoxFl.size, carFl, hu]
    norm_num
  · simp [carFl, pointAt, heading]
    norm_num
  · simp only [overlapMargin, BoxFl.size, carFl, hu]
    norm_num
  · simp only [overlapMargin, BoxFl.size, carFl, hu]
    norm_num

example : ¬ hasOverlapFl (Kernel.rounded float32) (carFl 0 (by norm_num)) (carFl 5 (by norm_num)) := by
  intro h
  have hu : float32.u = 2 ^ (-(24 : ℤ)) := rfl
  obtain ⟨p, ⟨u, v, hp, -, rfl⟩, q, ⟨u', v', hq, -, rfl⟩, hd⟩ := C135_no_false_alarm (Kernel.rounded_accurate float32_u) h
  have hm : overlapMargin (4 * float32.u) (carFl 0 (by norm_num)) (carFl 5 (by norm_num)) < 1 / 1000 := by
    simp only [overlapMargin, BoxFl.size, carFl, hu]
    norm_num
  simp only [carFl, dist2, pointAt, heading, leftOf, cos_zero, sin_zero] at hd hp hq
  norm_num at hp hq
  rw [abs_le] at hp hq
  have h2 := (Real.sqrt_le_iff.1 (hd.trans (mul_le_mul_of_nonneg_left hm.le (by norm_num)))).2
  norm_num at h2
  nlinarith

end

end Waymax
