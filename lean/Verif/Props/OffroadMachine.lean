import Verif.Model.MachineOffroad
import Verif.Spec.OffroadMachine
import Verif.Props.OverlapMachine
import Verif.Props.Offroad
import Verif.Props.MetricsMachine
/-
C165: the off-road metric in machine arithmetic.
-/

namespace Waymax

open Real

/-- The kernel computes sine, cosine, sums of products and roots with errors of a few `ε`. -/
structure RoadKernel.Accurate {φ : Format} (K : RoadKernel φ) (ε : ℝ) : Prop where
  kernel : K.toKernel.Accurate ε
  small : ε ≤ 1 / 64
  square3 : ∀ a b c : Flt φ, 0 ≤ (K.square3 a b c).val ∧ |(K.square3 a b c).val - (a.val ^ 2 + b.val ^ 2 + c.val ^ 2)| ≤
    4 * ε * (a.val ^ 2 + b.val ^ 2 + c.val ^ 2) + ε ^ 2
  cross : ∀ a b : Flt φ × Flt φ, |(K.cross a b).val - (a.1.val * b.2.val - a.2.val * b.1.val)| ≤
    ε * (|a.1.val * b.2.val| + |a.2.val * b.1.val|) + ε
  norm : ∀ a : Flt φ × Flt φ, |(K.norm a).val - √(a.1.val ^ 2 + a.2.val ^ 2)| ≤ 4 * ε * √(a.1.val ^ 2 + a.2.val ^ 2) + ε

/-! ### Distances -/

/-- Length of a vector of three coordinates. -/
noncomputable def len3 (a b c : ℝ) : ℝ := √(a ^ 2 + b ^ 2 + c ^ 2)

theorem len3_nonneg (a b c : ℝ) : 0 ≤ len3 a b c := Real.sqrt_nonneg _

theorem len3_sq (a b c : ℝ) : len3 a b c ^ 2 = a ^ 2 + b ^ 2 + c ^ 2 := Real.sq_sqrt (by positivity)

theorem len3_add (a b c x y z : ℝ) : len3 (a + x) (b + y) (c + z) ≤ len3 a b c + len3 x y z := by
  apply Real.sqrt_le_iff.2 ⟨add_nonneg (len3_nonneg _ _ _) (len3_nonneg _ _ _), ?_⟩
  have h1 := len3_sq a b c
  have h2 := len3_sq x y z
  have h3 := len3_nonneg a b c
  have h4 := len3_nonneg x y z
  have cs : a * x + b * y + c * z ≤ len3 a b c * len3 x y z := by
    refine (abs_le.1 (abs_le_of_sq_le_sq ?_ (mul_nonneg h3 h4))).2
    rw [mul_pow, h1, h2]
    nlinarith [sq_nonneg (a * y - b * x), sq_nonneg (a * z - c * x), sq_nonneg (b * z - c * y)]
  nlinarith

theorem len3_mono {a b c x y z : ℝ} (h1 : |a| ≤ |x|) (h2 : |b| ≤ |y|) (h3 : |c| ≤ |z|) : len3 a b c ≤ len3 x y z := by
  apply Real.sqrt_le_sqrt
  have := sq_le_sq.2 h1
  have := sq_le_sq.2 h2
  have := sq_le_sq.2 h3
  linarith

theorem len3_scale {e : ℝ} (he : 0 ≤ e) (a b c : ℝ) : len3 (e * a) (e * b) (e * c) = e * len3 a b c := by
  unfold len3
  rw [show (e * a) ^ 2 + (e * b) ^ 2 + (e * c) ^ 2 = e ^ 2 * (a ^ 2 + b ^ 2 + c ^ 2) by ring, Real.sqrt_mul (sq_nonneg e), Real.sqrt_sq he]

theorem len3_abs (a b c : ℝ) : len3 |a| |b| |c| = len3 a b c := by
  unfold len3
  rw [sq_abs, sq_abs, sq_abs]

theorem len3_close {a b c x y z ε e : ℝ} (hε : 0 ≤ ε) (he : 0 ≤ e) (ha : |a - x| ≤ ε * |x| + e) (hb : |b - y| ≤ ε * |y| + e)
    (hc : |c - z| ≤ ε * |z|) : |len3 a b c - len3 x y z| ≤ ε * len3 x y z + 3 / 2 * e := by
  have key : len3 (a - x) (b - y) (c - z) ≤ ε * len3 x y z + 3 / 2 * e := by
    have h1 : len3 (a - x) (b - y) (c - z) ≤ len3 (ε * |x| + e) (ε * |y| + e) (ε * |z| + 0) := by
      apply len3_mono
      · exact ha.trans (le_abs_self _)
      · exact hb.trans (le_abs_self _)
      · rw [add_zero]
        exact hc.trans (le_abs_self _)
    have h2 := len3_add (ε * |x|) (ε * |y|) (ε * |z|) e e 0
    rw [len3_scale hε, len3_abs] at h2
    have h3 : len3 e e 0 ≤ 3 / 2 * e := by
      apply Real.sqrt_le_iff.2 ⟨by linarith, ?_⟩
      nlinarith
    linarith
  have h1 := len3_add x y z (a - x) (b - y) (c - z)
  have h2 := len3_add a b c (x - a) (y - b) (z - c)
  have h3 : len3 (x - a) (y - b) (z - c) = len3 (a - x) (b - y) (c - z) := by
    rw [← len3_abs, abs_sub_comm x, abs_sub_comm y, abs_sub_comm z, len3_abs]
  rw [show x + (a - x) = a by ring, show y + (b - y) = b by ring, show z + (c - z) = c by ring] at h1
  rw [show a + (x - a) = x by ring, show b + (y - b) = y by ring, show c + (z - c) = z by ring, h3] at h2
  rw [abs_le]
  constructor <;> linarith

theorem sqrt_close {v X ε : ℝ} (hε : 0 ≤ ε) (hX : 0 ≤ X) (hv : 0 ≤ v) (h : |v - X ^ 2| ≤ 4 * ε * X ^ 2 + ε ^ 2) :
    |√v - X| ≤ 4 * ε * X + ε := by
  rw [abs_le] at h ⊢
  have hεX := mul_nonneg hε hX
  constructor
  · rw [neg_le_sub_iff_le_add]
    by_contra hc
    have h1 : √v < X - (4 * ε * X + ε) := by linarith
    have h2 : v < (X - (4 * ε * X + ε)) ^ 2 := (Real.sqrt_lt' (by linarith [Real.sqrt_nonneg v])).1 h1
    have h3 : 0 < X - (4 * ε * X + ε) := lt_of_le_of_lt (Real.sqrt_nonneg v) h1
    nlinarith [mul_pos h3 h3, mul_nonneg hε h3.le, mul_nonneg hεX h3.le]
  · have : √v ≤ X + (4 * ε * X + ε) := by
      apply Real.sqrt_le_iff.2 ⟨by nlinarith, ?_⟩
      nlinarith [mul_nonneg hεX hX, mul_nonneg hεX hε, mul_nonneg hεX hεX, mul_nonneg hεX hX]
    linarith

section
variable {φ : Format} {K : RoadKernel φ} {ε : ℝ}

/-- How large the numbers of a box are, plus one. -/
noncomputable def scale (o : Pt (Flt φ)) : ℝ := 1 + (|o.x.val| + |o.y.val| + |o.length.val| + |o.width.val|)

theorem one_le_scale (o : Pt (Flt φ)) : 1 ≤ scale o := by
  unfold scale
  have : 0 ≤ |o.x.val| + |o.y.val| + |o.length.val| + |o.width.val| := by positivity
  linarith

theorem offroadTolerance_eq (o : Pt (Flt φ)) (d : ℝ) : offroadTolerance ε o d = 6 * ε * d + 30 * ε * scale o := rfl

namespace RoadKernel.Accurate

variable (h : K.Accurate ε)

include h

theorem pos : 0 < ε := h.kernel.pos

theorem corner (o : Pt (Flt φ)) (k : Fin 4) :
    |(cornersFl K.toKernel o.boxFl k).1.val - (cornersFromBbox o.boxFl.toBox k).1| ≤ 10 * ε * scale o ∧
    |(cornersFl K.toKernel o.boxFl k).2.val - (cornersFromBbox o.boxFl.toBox k).2| ≤ 10 * ε * scale o := by
  obtain ⟨⟨h1, -⟩, h2, -⟩ := corner_close h.kernel o.boxFl k
  have h0 := h.pos
  have a1 := abs_nonneg o.x.val
  have a2 := abs_nonneg o.y.val
  have a3 := abs_nonneg o.length.val
  have a4 := abs_nonneg o.width.val
  have e1 : o.boxFl.length = o.length := rfl
  have e2 : o.boxFl.width = o.width := rfl
  have e3 : o.boxFl.x = o.x := rfl
  have e4 : o.boxFl.y = o.y := rfl
  rw [e1, e2, e3] at h1
  rw [e1, e2, e4] at h2
  constructor
  · refine h1.trans ?_
    rw [mul_comm 10 ε, mul_assoc]
    apply mul_le_mul_of_nonneg_left _ h0.le
    unfold scale
    linarith
  · refine h2.trans ?_
    rw [mul_comm 10 ε, mul_assoc]
    apply mul_le_mul_of_nonneg_left _ h0.le
    unfold scale
    linarith

theorem sub_close {p r : Flt φ} {q B : ℝ} (hB : 1 ≤ B) (hq : |r.val - q| ≤ 10 * ε * B) :
    |(p.sub r).val - (p.val - q)| ≤ ε * |p.val - q| + 11 * ε * B := by
  have h0 := h.pos
  have h1 : |(p.sub r).val - (p.val - r.val)| ≤ φ.u * |p.val - r.val| := Format.fl_sub_rel p.property r.property
  have h2 : |p.val - r.val| ≤ |p.val - q| + |r.val - q| := by
    rw [show p.val - r.val = (p.val - q) - (r.val - q) by ring]
    exact abs_sub _ _
  have h3 : φ.u * |p.val - r.val| ≤ ε * (|p.val - q| + |r.val - q|) :=
    mul_le_mul h.kernel.unit h2 (abs_nonneg _) h0.le
  have h4 : ε * |r.val - q| ≤ 1 / 64 * (10 * ε * B) := mul_le_mul h.small hq (abs_nonneg _) (by norm_num)
  have h5 : |(p.sub r).val - (p.val - q)| ≤ |(p.sub r).val - (p.val - r.val)| + |r.val - q| := by
    rw [show (p.sub r).val - (p.val - q) = ((p.sub r).val - (p.val - r.val)) - (r.val - q) by ring]
    exact abs_sub _ _
  have h6 : 0 ≤ ε * B := mul_nonneg h0.le (by linarith)
  linarith

omit h in
theorem sub_neg' (p r : Flt φ) : (p.sub r).val = -(r.sub p).val := by
  show φ.fl (p.val - r.val) = -φ.fl (r.val - p.val)
  rw [← Format.fl_neg, neg_sub]

theorem sub_close' {p r : Flt φ} {q B : ℝ} (hB : 1 ≤ B) (hq : |r.val - q| ≤ 10 * ε * B) :
    |(r.sub p).val - (q - p.val)| ≤ ε * |q - p.val| + 11 * ε * B := by
  have := h.sub_close (p := p) hB hq
  rwa [sub_neg', show -(r.sub p).val - (p.val - q) = -((r.sub p).val - (q - p.val)) by ring, abs_neg, abs_sub_comm p.val] at this

theorem stretch (p z : Flt φ) : |((p.sub z).mul (Flt.round φ 2)).val - 2 * (p.val - z.val)| ≤ ε * |2 * (p.val - z.val)| := by
  have e2 : (Flt.round φ 2).val = 2 := by
    have := φ.two_le
    have := φ.normal_one
    apply Format.fl_of_rep
    refine ⟨1, 1, ?_, by omega, by norm_num⟩
    rw [abs_one]
    exact_mod_cast Nat.one_lt_two_pow (by omega)
  have e : ((p.sub z).mul (Flt.round φ 2)).val = 2 * (p.sub z).val := by
    show φ.fl ((p.sub z).val * (Flt.round φ 2).val) = _
    rw [e2, mul_comm]
    exact Format.fl_of_rep (p.sub z).property.double
  have h1 : |(p.sub z).val - (p.val - z.val)| ≤ φ.u * |p.val - z.val| := Format.fl_sub_rel p.property z.property
  have h2 : φ.u * |p.val - z.val| ≤ ε * |p.val - z.val| := mul_le_mul_of_nonneg_right h.kernel.unit (abs_nonneg _)
  rw [e, ← mul_sub, abs_mul, abs_mul, abs_two]
  linarith

/-- The root of the computed squared distance is close to the exact distance. -/
theorem distance_close (p : RgPoint (Flt φ)) {cx cy z : Flt φ} {q : ℝ × ℝ} {B : ℝ} (hB : 1 ≤ B) (hx : |cx.val - q.1| ≤ 10 * ε * B)
    (hy : |cy.val - q.2| ≤ 10 * ε * B) :
    |√(K.square3 (p.x.sub cx) (p.y.sub cy) ((p.z.sub z).mul (Flt.round φ 2))).val - stretchedDist p.exact q z.val| ≤
      6 * ε * stretchedDist p.exact q z.val + 30 * ε * B := by
  have h0 := h.pos
  have hs := h.small
  have hBε : 0 < ε * B := mul_pos h0 (by linarith)
  have c := len3_close h0.le (by linarith : 0 ≤ 11 * ε * B) (h.sub_close (p := p.x) hB hx) (h.sub_close (p := p.y) hB hy) (h.stretch p.z z)
  have hD : len3 (p.x.val - q.1) (p.y.val - q.2) (2 * (p.z.val - z.val)) = stretchedDist p.exact q z.val := rfl
  rw [hD] at c
  have hD0 : 0 ≤ stretchedDist p.exact q z.val := Real.sqrt_nonneg _
  generalize stretchedDist p.exact q z.val = D at c hD0
  obtain ⟨s1, s2⟩ := h.square3 (p.x.sub cx) (p.y.sub cy) ((p.z.sub z).mul (Flt.round φ 2))
  rw [← len3_sq] at s2
  have hX := len3_nonneg (p.x.sub cx).val (p.y.sub cy).val ((p.z.sub z).mul (Flt.round φ 2)).val
  have r := sqrt_close h0.le hX s1 s2
  generalize len3 (p.x.sub cx).val (p.y.sub cy).val ((p.z.sub z).mul (Flt.round φ 2)).val = X at *
  have t : ∀ r : ℝ, |r - D| ≤ |r - X| + |X - D| := fun r => abs_sub_le r X D
  refine (t _).trans ?_
  have hXD : X ≤ D + (ε * D + 3 / 2 * (11 * ε * B)) := by linarith [(abs_le.1 c).2]
  have h1 : 4 * ε * X ≤ 4 * ε * (D + (ε * D + 3 / 2 * (11 * ε * B))) := mul_le_mul_of_nonneg_left hXD (by linarith)
  have hεD := mul_nonneg h0.le hD0
  have h2 : ε * (ε * D) ≤ 1 / 64 * (ε * D) := mul_le_mul_of_nonneg_right hs hεD
  have h3 : ε * (ε * B) ≤ 1 / 64 * (ε * B) := mul_le_mul_of_nonneg_right hs hBε.le
  have h4 : ε ≤ ε * B := by nlinarith
  nlinarith

/-- The computed cross product is close to the exact one. -/
theorem side_close (p : RgPoint (Flt φ)) {dx dy : Flt φ} (hdx : |dx.val| ≤ 1) (hdy : |dy.val| ≤ 1) {cx cy : Flt φ} {q : ℝ × ℝ} {z B : ℝ}
    (hB : 1 ≤ B) (hx : |cx.val - q.1| ≤ 10 * ε * B) (hy : |cy.val - q.2| ≤ 10 * ε * B) :
    |(K.cross (cx.sub p.x, cy.sub p.y) (dx, dy)).val - (dy.val * (q.1 - p.exact.x) - dx.val * (q.2 - p.exact.y))| ≤
      6 * ε * stretchedDist p.exact q z + 30 * ε * B := by
  have h0 := h.pos
  have hs := h.small
  have hBε : 0 < ε * B := mul_pos h0 (by linarith)
  have c1 := h.sub_close' (p := p.x) hB hx
  have c2 := h.sub_close' (p := p.y) hB hy
  have c3 := h.cross (cx.sub p.x, cy.sub p.y) (dx, dy)
  have d1 : |q.1 - p.x.val| ≤ stretchedDist p.exact q z := by
    rw [abs_sub_comm]
    apply Real.abs_le_sqrt
    show (p.x.val - q.1) ^ 2 ≤ (p.x.val - q.1) ^ 2 + (p.y.val - q.2) ^ 2 + (2 * (p.z.val - z)) ^ 2
    nlinarith [sq_nonneg (p.y.val - q.2), sq_nonneg (2 * (p.z.val - z))]
  have d2 : |q.2 - p.y.val| ≤ stretchedDist p.exact q z := by
    rw [abs_sub_comm]
    apply Real.abs_le_sqrt
    show (p.y.val - q.2) ^ 2 ≤ (p.x.val - q.1) ^ 2 + (p.y.val - q.2) ^ 2 + (2 * (p.z.val - z)) ^ 2
    nlinarith [sq_nonneg (p.x.val - q.1), sq_nonneg (2 * (p.z.val - z))]
  have hD0 : 0 ≤ stretchedDist p.exact q z := Real.sqrt_nonneg _
  show |(K.cross (cx.sub p.x, cy.sub p.y) (dx, dy)).val - (dy.val * (q.1 - p.x.val) - dx.val * (q.2 - p.y.val))| ≤ _
  simp only at c3
  generalize stretchedDist p.exact q z = D at *
  generalize (K.cross (cx.sub p.x, cy.sub p.y) (dx, dy)).val = C at *
  generalize (cx.sub p.x).val = a' at *
  generalize (cy.sub p.y).val = b' at *
  generalize q.1 - p.x.val = a at *
  generalize q.2 - p.y.val = b at *
  have e1 : |a' * dy.val| ≤ |a'| := by rw [abs_mul]; exact mul_le_of_le_one_right (abs_nonneg _) hdy
  have e2 : |b' * dx.val| ≤ |b'| := by rw [abs_mul]; exact mul_le_of_le_one_right (abs_nonneg _) hdx
  have e3 : |(a' - a) * dy.val| ≤ |a' - a| := by rw [abs_mul]; exact mul_le_of_le_one_right (abs_nonneg _) hdy
  have e4 : |(b' - b) * dx.val| ≤ |b' - b| := by rw [abs_mul]; exact mul_le_of_le_one_right (abs_nonneg _) hdx
  have e5 : |C - (dy.val * a - dx.val * b)| ≤ |C - (a' * dy.val - b' * dx.val)| + |(a' - a) * dy.val| + |(b' - b) * dx.val| := by
    rw [show C - (dy.val * a - dx.val * b) = (C - (a' * dy.val - b' * dx.val)) + (a' - a) * dy.val + -((b' - b) * dx.val) by ring]
    refine (abs_add_three _ _ _).trans ?_
    rw [abs_neg]
  have f1 : |a'| ≤ |a' - a| + |a| := by
    have := abs_add_le (a' - a) a
    rwa [sub_add_cancel] at this
  have f2 : |b'| ≤ |b' - b| + |b| := by
    have := abs_add_le (b' - b) b
    rwa [sub_add_cancel] at this
  have hεD := mul_nonneg h0.le hD0
  have g1 : ε * |a| ≤ ε * D := mul_le_mul_of_nonneg_left d1 h0.le
  have g2 : ε * |b| ≤ ε * D := mul_le_mul_of_nonneg_left d2 h0.le
  have k1 : ε * |a' - a| ≤ 1 / 64 * (ε * D + 11 * ε * B) := mul_le_mul hs (by linarith) (abs_nonneg _) (by norm_num)
  have k2 : ε * |b' - b| ≤ 1 / 64 * (ε * D + 11 * ε * B) := mul_le_mul hs (by linarith) (abs_nonneg _) (by norm_num)
  have k3 : ε * (|a' * dy.val| + |b' * dx.val|) ≤ ε * (|a' - a| + |a| + (|b' - b| + |b|)) :=
    mul_le_mul_of_nonneg_left (by linarith) h0.le
  have h4 : ε ≤ ε * B := by nlinarith
  linarith

/-- A point clearly beside the line through `p` has a positive computed distance to `p`. -/
theorem norm_pos (p : RgPoint (Flt φ)) {dx dy : ℝ} (hdx : |dx| ≤ 1) (hdy : |dy| ≤ 1) {cx cy : Flt φ} {q : ℝ × ℝ} {B : ℝ}
    (hB : 1 ≤ B) (hx : |cx.val - q.1| ≤ 10 * ε * B) (hy : |cy.val - q.2| ≤ 10 * ε * B)
    (hm : 30 * ε * B < |dy * (q.1 - p.x.val) - dx * (q.2 - p.y.val)|) : 0 < (K.norm (p.x.sub cx, p.y.sub cy)).val := by
  have h0 := h.pos
  have hs := h.small
  have hBε : 0 < ε * B := mul_pos h0 (by linarith)
  have h4 : ε ≤ ε * B := by nlinarith
  have c1 := h.sub_close (p := p.x) hB hx
  have c2 := h.sub_close (p := p.y) hB hy
  have c3 := h.norm (p.x.sub cx, p.y.sub cy)
  simp only at c3
  rw [show dy * (q.1 - p.x.val) - dx * (q.2 - p.y.val) = dx * (p.y.val - q.2) - dy * (p.x.val - q.1) by ring] at hm
  generalize (K.norm (p.x.sub cx, p.y.sub cy)).val = N at *
  generalize (p.x.sub cx).val = a' at *
  generalize (p.y.sub cy).val = b' at *
  generalize p.x.val - q.1 = a at *
  generalize p.y.val - q.2 = b at *
  have e1 : |dy * a| ≤ |a| := by rw [abs_mul]; exact mul_le_of_le_one_left (abs_nonneg _) hdy
  have e2 : |dx * b| ≤ |b| := by rw [abs_mul]; exact mul_le_of_le_one_left (abs_nonneg _) hdx
  have e3 := abs_sub (dx * b) (dy * a)
  have low {x x' : ℝ} (hc : |x' - x| ≤ ε * |x| + 11 * ε * B) (hx : 15 * ε * B < |x|) : 3 * ε < |x'| := by
    have t : |x| ≤ |x' - x| + |x'| := by
      have := abs_sub x' (x' - x)
      rw [sub_sub_cancel] at this
      linarith
    have g : ε * |x| ≤ 1 / 64 * |x| := mul_le_mul_of_nonneg_right hs (abs_nonneg _)
    linarith
  have hR : 3 * ε < √(a' ^ 2 + b' ^ 2) := by
    by_cases ha : 15 * ε * B < |a|
    · exact lt_of_lt_of_le (low c1 ha) (Real.abs_le_sqrt (by nlinarith [sq_nonneg b']))
    · exact lt_of_lt_of_le (low c2 (by linarith)) (Real.abs_le_sqrt (by nlinarith [sq_nonneg a']))
  generalize √(a' ^ 2 + b' ^ 2) = R at *
  have hR' : ε * R ≤ 1 / 64 * R := mul_le_mul_of_nonneg_right hs (by linarith)
  linarith [(abs_le.1 c3).1]

end RoadKernel.Accurate

theorem isRoadEdge_exact (p : RgPoint (Flt φ)) : (p.valid && isRoadEdge p.type) = true ↔ IsEdge p.exact := isRoadEdge_iff p.exact

/-- The index chosen by the machine belongs to an edge point that might be the nearest one. -/
theorem nearest_might (h : K.Accurate ε) {rg : List (RgPoint (Flt φ))} (he : ∃ p ∈ rg, IsEdge p.exact) (o : Pt (Flt φ)) {cx cy z : Flt φ}
    {q : ℝ × ℝ} (hx : |cx.val - q.1| ≤ 10 * ε * scale o) (hy : |cy.val - q.2| ≤ 10 * ε * scale o) :
    ∃ pn, rg[argmin (rg.map (squareDistanceFl K cx cy z))]? = some pn ∧
      MightBeNearest (offroadTolerance ε o) (rg.map RgPoint.exact) q z.val (argmin (rg.map (squareDistanceFl K cx cy z))) pn.exact := by
  obtain ⟨e, hemem, hee⟩ := he
  have hne : rg.map (squareDistanceFl K cx cy z) ≠ [] := by
    intro h'; rw [List.map_eq_nil_iff] at h'; rw [h'] at hemem; simp at hemem
  obtain ⟨v, h1, h2, -⟩ := argmin_spec hne
  generalize argmin (rg.map (squareDistanceFl K cx cy z)) = k at *
  rw [List.getElem?_map, Option.map_eq_some_iff] at h1
  obtain ⟨pn, hpn, hpv⟩ := h1
  have hF : ∀ p : RgPoint (Flt φ), IsEdge p.exact → squareDistanceFl K cx cy z p =
      (K.square3 (p.x.sub cx) (p.y.sub cy) ((p.z.sub z).mul (Flt.round φ 2)) : WithTop (Flt φ)) := by
    intro p hp
    simp only [squareDistanceFl, orInfFl, (isRoadEdge_exact p).2 hp, if_true]
  have hpe : IsEdge pn.exact := by
    rw [← isRoadEdge_exact]
    by_contra hc
    have := h2 _ (List.mem_map.2 ⟨e, hemem, rfl⟩)
    rw [hF e hee, ← hpv] at this
    simp only [squareDistanceFl, orInfFl, hc] at this
    exact absurd (top_le_iff.1 this) WithTop.coe_ne_top
  refine ⟨pn, hpn, by rw [List.getElem?_map, hpn]; rfl, hpe, fun p' hp' hpe' => ?_⟩
  obtain ⟨p, hp, rfl⟩ := List.mem_map.1 hp'
  have hle := h2 _ (List.mem_map.2 ⟨p, hp, rfl⟩)
  rw [← hpv, hF _ hpe, hF _ hpe', WithTop.coe_le_coe] at hle
  have hle' := Real.sqrt_le_sqrt (show (K.square3 (pn.x.sub cx) (pn.y.sub cy) ((pn.z.sub z).mul (Flt.round φ 2))).val ≤
    (K.square3 (p.x.sub cx) (p.y.sub cy) ((p.z.sub z).mul (Flt.round φ 2))).val from hle)
  have c1 := (abs_le.1 (h.distance_close pn (z := z) (one_le_scale o) hx hy)).1
  have c2 := (abs_le.1 (h.distance_close p (z := z) (one_le_scale o) hx hy)).2
  rw [offroadTolerance_eq, offroadTolerance_eq]
  linarith

/-- The directions of the road points are no longer than unit vectors in either coordinate. -/
def UnitDirections (rg : List (RgPoint (Flt φ))) : Prop := ∀ p ∈ rg, |p.dirX.val| ≤ 1 ∧ |p.dirY.val| ≤ 1

theorem signFl_pos {x : Flt φ} (hx : 0 < x.val) : (signFl x).val = 1 := by
  unfold signFl
  rw [if_pos hx]
  have := φ.two_le
  have := φ.normal_one
  apply Format.fl_of_rep
  refine ⟨1, 0, ?_, by omega, by norm_num⟩
  rw [abs_one]
  exact_mod_cast Nat.one_lt_two_pow (by omega)

theorem signFl_nonpos {x : Flt φ} (hx : x.val ≤ 0) : (signFl x).val ≤ 0 := by
  unfold signFl
  rw [if_neg (not_lt.2 hx)]
  split
  · show φ.fl (-1) ≤ 0
    exact Format.fl_le_of_rep Format.Rep.zero (by norm_num)
  · exact le_rfl

theorem surelyOff_machine (h : K.Accurate ε) {rg : List (RgPoint (Flt φ))} (he : ∃ p ∈ rg, IsEdge p.exact) (hd : UnitDirections rg)
    (o : Pt (Flt φ)) {cx cy z : Flt φ} {q : ℝ × ℝ} (hx : |cx.val - q.1| ≤ 10 * ε * scale o) (hy : |cy.val - q.2| ≤ 10 * ε * scale o)
    (hoff : SurelyOff (offroadTolerance ε o) (rg.map RgPoint.exact) q z.val) : ∃ d, signedDistanceFl K rg cx cy z = some d ∧ d.val > 0 := by
  obtain ⟨pn, hpn, hm⟩ := nearest_might h he o (z := z) hx hy
  unfold signedDistanceFl
  simp only
  generalize argmin (rg.map (squareDistanceFl K cx cy z)) = k at *
  have hk : k < rg.length := (List.getElem?_eq_some_iff.1 hpn).1
  have hpp : rg[k - 1]? = some rg[k - 1] := List.getElem?_eq_getElem (by omega)
  generalize rg[k - 1] = pp at hpp
  obtain ⟨r1, r2⟩ := hoff k pn.exact hm
  have hn := hd pn (List.mem_of_getElem? hpn)
  have hp := hd pp (List.mem_of_getElem? hpp)
  have s1 := h.side_close pn hn.1 hn.2 (z := z.val) (one_le_scale o) hx hy
  have s2 := h.side_close pn hp.1 hp.2 (z := z.val) (one_le_scale o) hx hy
  have D0 : 0 ≤ stretchedDist pn.exact q z.val := Real.sqrt_nonneg _
  have h0 := h.pos
  have hεD := mul_nonneg h0.le D0
  have hr1 : offroadTolerance ε o (stretchedDist pn.exact q z.val) < pn.dirY.val * (q.1 - pn.x.val) - pn.dirX.val * (q.2 - pn.y.val) := r1
  rw [offroadTolerance_eq] at hr1
  have p1 : 0 < (K.cross (cx.sub pn.x, cy.sub pn.y) (pn.dirX, pn.dirY)).val := by
    have := (abs_le.1 s1).1
    have e : pn.exact.x = pn.x.val ∧ pn.exact.y = pn.y.val := ⟨rfl, rfl⟩
    rw [e.1, e.2] at this
    linarith
  have p2 : pn.id = pp.id → 0 < (K.cross (cx.sub pn.x, cy.sub pn.y) (pp.dirX, pp.dirY)).val := by
    intro hid
    by_cases hk0 : k = 0
    · rw [hk0] at hpp hpn
      rw [Nat.zero_sub, hpn] at hpp
      obtain rfl := Option.some.inj hpp
      exact p1
    · have r := r2 (k - 1) pp.exact (by omega) (by rw [List.getElem?_map, hpp]; rfl) hid.symm
      have r' : offroadTolerance ε o (stretchedDist pn.exact q z.val) < pp.dirY.val * (q.1 - pn.x.val) - pp.dirX.val * (q.2 - pn.y.val) := r
      rw [offroadTolerance_eq] at r'
      have := (abs_le.1 s2).1
      have e : pn.exact.x = pn.x.val ∧ pn.exact.y = pn.y.val := ⟨rfl, rfl⟩
      rw [e.1, e.2] at this
      linarith
  have hN := h.norm_pos pn hn.1 hn.2 (one_le_scale o) hx hy (lt_of_lt_of_le (by linarith) (le_abs_self _))
  rw [hpn, hpp]
  refine ⟨_, rfl, ?_⟩
  have hc : 0 < (if pn.id = pp.id ∧ (K.cross (cx.sub pn.x, cy.sub pn.y) (pp.dirX, pp.dirY)).val <
      (K.cross (cx.sub pn.x, cy.sub pn.y) (pn.dirX, pn.dirY)).val then K.cross (cx.sub pn.x, cy.sub pn.y) (pp.dirX, pp.dirY)
      else K.cross (cx.sub pn.x, cy.sub pn.y) (pn.dirX, pn.dirY)).val := by
    split
    · rename_i hc
      exact p2 hc.1
    · exact p1
  rw [Flt.mul_one _ (signFl_pos hc)]
  exact hN

theorem surelyOn_machine (h : K.Accurate ε) {rg : List (RgPoint (Flt φ))} (he : ∃ p ∈ rg, IsEdge p.exact) (hd : UnitDirections rg)
    (o : Pt (Flt φ)) {cx cy z : Flt φ} {q : ℝ × ℝ} (hx : |cx.val - q.1| ≤ 10 * ε * scale o) (hy : |cy.val - q.2| ≤ 10 * ε * scale o)
    (hon : SurelyOn (offroadTolerance ε o) (rg.map RgPoint.exact) q z.val) : ¬ ∃ d, signedDistanceFl K rg cx cy z = some d ∧ d.val > 0 := by
  obtain ⟨pn, hpn, hm⟩ := nearest_might h he o (z := z) hx hy
  unfold signedDistanceFl
  simp only
  generalize argmin (rg.map (squareDistanceFl K cx cy z)) = k at *
  have hk : k < rg.length := (List.getElem?_eq_some_iff.1 hpn).1
  have hpp : rg[k - 1]? = some rg[k - 1] := List.getElem?_eq_getElem (by omega)
  generalize rg[k - 1] = pp at hpp
  have r := hon k pn.exact hm
  have hn := hd pn (List.mem_of_getElem? hpn)
  have hp := hd pp (List.mem_of_getElem? hpp)
  have s1 := h.side_close pn hn.1 hn.2 (z := z.val) (one_le_scale o) hx hy
  have s2 := h.side_close pn hp.1 hp.2 (z := z.val) (one_le_scale o) hx hy
  have D0 : 0 ≤ stretchedDist pn.exact q z.val := Real.sqrt_nonneg _
  have h0 := h.pos
  have hεD := mul_nonneg h0.le D0
  have hεB := mul_pos h0 (lt_of_lt_of_le one_pos (one_le_scale o))
  have side : ∀ dx dy : Flt φ, |dx.val| ≤ 1 → |dy.val| ≤ 1 → LeftBy (offroadTolerance ε o (stretchedDist pn.exact q z.val)) pn.exact dx.val dy.val q →
      (K.cross (cx.sub pn.x, cy.sub pn.y) (dx, dy)).val < 0 ∧ 0 < (K.norm (pn.x.sub cx, pn.y.sub cy)).val := by
    intro dx dy hdx hdy hl
    have hl' : offroadTolerance ε o (stretchedDist pn.exact q z.val) < dx.val * (q.2 - pn.y.val) - dy.val * (q.1 - pn.x.val) := hl
    rw [offroadTolerance_eq] at hl'
    have s := (abs_le.1 (h.side_close pn hdx hdy (z := z.val) (one_le_scale o) hx hy)).2
    have e : pn.exact.x = pn.x.val ∧ pn.exact.y = pn.y.val := ⟨rfl, rfl⟩
    rw [e.1, e.2] at s
    refine ⟨by linarith, h.norm_pos pn hdx hdy (one_le_scale o) hx hy (lt_of_lt_of_le (b := -(dy.val * (q.1 - pn.x.val) - dx.val * (q.2 - pn.y.val))) (by linarith) (neg_le_abs _))⟩
  rw [hpn, hpp]
  simp only [Option.some.injEq, exists_eq_left', not_lt]
  have key : (if pn.id = pp.id ∧ (K.cross (cx.sub pn.x, cy.sub pn.y) (pp.dirX, pp.dirY)).val <
      (K.cross (cx.sub pn.x, cy.sub pn.y) (pn.dirX, pn.dirY)).val then K.cross (cx.sub pn.x, cy.sub pn.y) (pp.dirX, pp.dirY)
      else K.cross (cx.sub pn.x, cy.sub pn.y) (pn.dirX, pn.dirY)).val ≤ 0 ∧ 0 < (K.norm (pn.x.sub cx, pn.y.sub cy)).val := by
    rcases r with r | ⟨j, p', hj, hp', hid, r⟩
    · obtain ⟨n1, n2⟩ := side _ _ hn.1 hn.2 r
      refine ⟨?_, n2⟩
      split
      · rename_i hc
        exact (hc.2.trans n1).le
      · exact n1.le
    · have : j = k - 1 := by omega
      rw [this, List.getElem?_map, hpp] at hp'
      obtain rfl := Option.some.inj hp'
      obtain ⟨n1, n2⟩ := side _ _ hp.1 hp.2 r
      refine ⟨?_, n2⟩
      split
      · exact n1.le
      · rename_i hc
        have : ¬ _ := fun hlt => hc ⟨hid.symm, hlt⟩
        exact (not_lt.1 this).trans n1.le
  show φ.fl ((K.norm (pn.x.sub cx, pn.y.sub cy)).val * (signFl _).val) ≤ 0
  exact Format.fl_le_of_rep Format.Rep.zero (mul_nonpos_of_nonneg_of_nonpos key.2.le (signFl_nonpos key.1))

/-! ### The metric -/

theorem isCornerFl_iff (p : Pt (Flt φ)) (q : ℝ × ℝ) : IsCornerFl p q ↔ ∃ k : Fin 4, cornersFromBbox p.boxFl.toBox k = q :=
  isCorner_iff { x := p.x.val, y := p.y.val, z := 0, velX := 0, velY := 0, yaw := p.yaw.val, valid := true, timestampMicros := 0,
                 length := p.length.val, width := p.width.val, height := 0 } q

variable {n T : Nat} [NeZero T]

/-- The expectation: in machine arithmetic, off-road is 1 iff some corner of the exact box is on the off-road side. -/
def C165_full (K : RoadKernel φ) (n T : Nat) [NeZero T] : Prop :=
  ∀ (s : SimState (Flt φ) n T) (rg : List (RgPoint (Flt φ))) (t : Fin T), (t : Int) = s.timestep → s.roadgraphPoints = some rg →
    (∃ p ∈ rg, IsEdge p.exact) → UnitDirections rg → ∃ r, offroadMetricFl K s = .ok r ∧ ∀ i, ((r i).value = 1 ↔
      ∃ q, IsCornerFl (s.simTrajectory i t) q ∧ OffroadSide (rg.map RgPoint.exact) q (s.simTrajectory i t).z.val)

/-- The metric is 0 or 1 for every object, marked valid, and 1 exactly where the test of the box is positive. -/
theorem offroadFl_cases (K : RoadKernel φ) (s : SimState (Flt φ) n T) {rg : List (RgPoint (Flt φ))} {t : Fin T}
    (ht : (t : Int) = s.timestep) (hrg : s.roadgraphPoints = some rg) (hne : rg ≠ []) :
    ∃ r, offroadMetricFl K s = .ok r ∧ ∀ i, (r i).valid = true ∧ ((r i).value = 1 ↔ isOffroadFl K rg (s.simTrajectory i t)) ∧
      ((r i).value = 0 ↔ ¬ isOffroadFl K rg (s.simTrajectory i t)) := by
  unfold offroadMetricFl
  rw [hrg]
  obtain ⟨p, ps, rfl⟩ : ∃ p ps, rg = p :: ps := by
    cases rg with
    | nil => exact absurd rfl hne
    | cons p ps => exact ⟨p, ps, rfl⟩
  refine ⟨_, rfl, fun i => ⟨rfl, ?_⟩⟩
  rw [dynIndex_of_eq _ ht]
  by_cases h : isOffroadFl K (p :: ps) (s.simTrajectory i t) <;> simp [h]

/-- One corner that is clearly off the road suffices: the metric is 1. -/
theorem C165_off (h : K.Accurate ε) (s : SimState (Flt φ) n T) {rg : List (RgPoint (Flt φ))} {t : Fin T} (ht : (t : Int) = s.timestep)
    (hrg : s.roadgraphPoints = some rg) (he : ∃ p ∈ rg, IsEdge p.exact) (hd : UnitDirections rg) {i : Fin n} {q : ℝ × ℝ}
    (hq : IsCornerFl (s.simTrajectory i t) q)
    (hoff : SurelyOff (offroadTolerance ε (s.simTrajectory i t)) (rg.map RgPoint.exact) q (s.simTrajectory i t).z.val) :
    ∃ r, offroadMetricFl K s = .ok r ∧ (r i).value = 1 ∧ (r i).valid = true := by
  obtain ⟨r, hr, hc⟩ := offroadFl_cases K s ht hrg (by rintro rfl; simp at he)
  refine ⟨r, hr, (hc i).2.1.2 ?_, (hc i).1⟩
  obtain ⟨k, rfl⟩ := (isCornerFl_iff _ _).1 hq
  obtain ⟨c1, c2⟩ := h.corner (s.simTrajectory i t) k
  exact ⟨k, surelyOff_machine h he hd _ c1 c2 hoff⟩

/-- All corners clearly on the road: the metric is 0. -/
theorem C165_on (h : K.Accurate ε) (s : SimState (Flt φ) n T) {rg : List (RgPoint (Flt φ))} {t : Fin T} (ht : (t : Int) = s.timestep)
    (hrg : s.roadgraphPoints = some rg) (he : ∃ p ∈ rg, IsEdge p.exact) (hd : UnitDirections rg) {i : Fin n}
    (hon : ∀ q, IsCornerFl (s.simTrajectory i t) q →
      SurelyOn (offroadTolerance ε (s.simTrajectory i t)) (rg.map RgPoint.exact) q (s.simTrajectory i t).z.val) :
    ∃ r, offroadMetricFl K s = .ok r ∧ (r i).value = 0 ∧ (r i).valid = true := by
  obtain ⟨r, hr, hc⟩ := offroadFl_cases K s ht hrg (by rintro rfl; simp at he)
  refine ⟨r, hr, (hc i).2.2.2 ?_, (hc i).1⟩
  rintro ⟨k, hk⟩
  obtain ⟨c1, c2⟩ := h.corner (s.simTrajectory i t) k
  exact surelyOn_machine h he hd _ c1 c2 (hon _ ((isCornerFl_iff _ _).2 ⟨k, rfl⟩)) hk

theorem tol_nonneg (h : 0 ≤ ε) (o : Pt (Flt φ)) {d : ℝ} (hd : 0 ≤ d) : 0 ≤ offroadTolerance ε o d := by
  rw [offroadTolerance_eq]
  have := mul_nonneg h hd
  have := mul_nonneg h (one_le_scale o |>.trans' zero_le_one)
  linarith

theorem stretchedDist_nonneg (p : RgPoint ℝ) (q : ℝ × ℝ) (z : ℝ) : 0 ≤ stretchedDist p q z := Real.sqrt_nonneg _

theorem IsNearestEdge.might {tol : ℝ → ℝ} (htol : ∀ d, 0 ≤ d → 0 ≤ tol d) {rg : List (RgPoint ℝ)} {q : ℝ × ℝ} {z : ℝ} {k : Nat} {p : RgPoint ℝ}
    (h : IsNearestEdge rg q z k p) : MightBeNearest tol rg q z k p := by
  obtain ⟨h1, h2, h3⟩ := h
  refine ⟨h1, h2, fun p' hp' he' => ?_⟩
  obtain ⟨j, hj⟩ := List.mem_iff_getElem?.1 hp'
  have := (h3 j p' hj he').1
  have := htol _ (stretchedDist_nonneg p q z)
  have := htol _ (stretchedDist_nonneg p' q z)
  linarith

/-- A clear side is the exact side. -/
theorem SurelyOn.not_off {tol : ℝ → ℝ} (htol : ∀ d, 0 ≤ d → 0 ≤ tol d) {rg : List (RgPoint ℝ)} {q : ℝ × ℝ} {z : ℝ} (h : SurelyOn tol rg q z) :
    ¬ OffroadSide rg q z := by
  rintro ⟨k, p, hn, hr, hp⟩
  have ht := htol _ (stretchedDist_nonneg p q z)
  rcases h k p (hn.might htol) with h1 | ⟨j, p', hj, hp', hid, h1⟩
  · unfold LeftBy at h1
    unfold RightOf at hr
    linarith
  · have := hp j p' hj hp' hid
    unfold LeftBy at h1
    unfold RightOf at this
    linarith

theorem exists_nearest {rg : List (RgPoint ℝ)} (he : ∃ p ∈ rg, IsEdge p) (q : ℝ × ℝ) (z : ℝ) : ∃ k p, IsNearestEdge rg q z k p := by
  classical
  obtain ⟨e, hemem, hee⟩ := he
  have hne : rg.map (fun p => if IsEdge p then (stretchedDist p q z : WithTop ℝ) else ⊤) ≠ [] := by
    intro h; rw [List.map_eq_nil_iff] at h; rw [h] at hemem; simp at hemem
  obtain ⟨v, h1, h2, h3⟩ := argmin_spec hne
  generalize argmin (rg.map (fun p => if IsEdge p then (stretchedDist p q z : WithTop ℝ) else ⊤)) = k at *
  rw [List.getElem?_map, Option.map_eq_some_iff] at h1
  obtain ⟨p, hp, hv⟩ := h1
  have hpe : IsEdge p := by
    by_contra hc
    have := h2 _ (List.mem_map.2 ⟨e, hemem, rfl⟩)
    rw [← hv, if_neg hc, if_pos hee] at this
    exact absurd (top_le_iff.1 this) WithTop.coe_ne_top
  rw [if_pos hpe] at hv
  refine ⟨k, p, hp, hpe, fun j p' hj he' => ⟨?_, fun hlt => ?_⟩⟩
  · have := h2 _ (List.mem_map.2 ⟨p', List.mem_of_getElem? hj, rfl⟩)
    rw [← hv, if_pos he'] at this
    exact WithTop.coe_le_coe.1 this
  · have := h3 j hlt (stretchedDist p' q z) (by rw [List.getElem?_map, hj, Option.map_some, if_pos he'])
    rw [← hv] at this
    exact WithTop.coe_lt_coe.1 this

theorem SurelyOff.off {tol : ℝ → ℝ} (htol : ∀ d, 0 ≤ d → 0 ≤ tol d) {rg : List (RgPoint ℝ)} (he : ∃ p ∈ rg, IsEdge p) {q : ℝ × ℝ} {z : ℝ}
    (h : SurelyOff tol rg q z) : OffroadSide rg q z := by
  obtain ⟨k, p, hn⟩ := exists_nearest he q z
  have ht := htol _ (stretchedDist_nonneg p q z)
  obtain ⟨h1, h2⟩ := h k p (hn.might htol)
  refine ⟨k, p, hn, ?_, fun j p' hj hp' hid => ?_⟩
  · unfold RightBy at h1
    unfold RightOf
    linarith
  · have := h2 j p' hj hp' hid
    unfold RightBy at this
    unfold RightOf
    linarith

/-- The metric in machine arithmetic agrees with the exact scene for every object none of whose corners is within the tolerance of the border
between the two sides. Missing: corners within the tolerance, see `C165_full_violated`. -/
theorem C165_agrees_partial (h : K.Accurate ε) (s : SimState (Flt φ) n T) {rg : List (RgPoint (Flt φ))} {t : Fin T}
    (ht : (t : Int) = s.timestep) (hrg : s.roadgraphPoints = some rg) (he : ∃ p ∈ rg, IsEdge p.exact) (hd : UnitDirections rg) :
    ∃ r, offroadMetricFl K s = .ok r ∧ ∀ i, (∀ q, IsCornerFl (s.simTrajectory i t) q →
        SurelyOff (offroadTolerance ε (s.simTrajectory i t)) (rg.map RgPoint.exact) q (s.simTrajectory i t).z.val ∨
        SurelyOn (offroadTolerance ε (s.simTrajectory i t)) (rg.map RgPoint.exact) q (s.simTrajectory i t).z.val) →
      ((r i).value = 1 ↔
        ∃ q, IsCornerFl (s.simTrajectory i t) q ∧ OffroadSide (rg.map RgPoint.exact) q (s.simTrajectory i t).z.val) := by
  obtain ⟨r, hr, hc⟩ := offroadFl_cases K s ht hrg (by rintro rfl; simp at he)
  refine ⟨r, hr, fun i hclear => ?_⟩
  have htol : ∀ d, 0 ≤ d → 0 ≤ offroadTolerance ε (s.simTrajectory i t) d := fun d hd => tol_nonneg h.pos.le _ hd
  have he' : ∃ p ∈ rg.map RgPoint.exact, IsEdge p := by
    obtain ⟨p, hp, hpe⟩ := he
    exact ⟨p.exact, List.mem_map.2 ⟨p, hp, rfl⟩, hpe⟩
  constructor
  · intro h1
    by_contra hno
    obtain ⟨r', hr', h0, -⟩ := C165_on h s ht hrg he hd (i := i) fun q hq => (hclear q hq).resolve_left fun hoff => hno ⟨q, hq, hoff.off htol he'⟩
    rw [hr] at hr'
    obtain rfl := Except.ok.inj hr'
    rw [h1] at h0
    norm_num at h0
  · rintro ⟨q, hq, ho⟩
    obtain ⟨r', hr', h1, -⟩ := C165_off h s ht hrg he hd hq ((hclear q hq).resolve_right fun hon => hon.not_off htol ho)
    rw [hr] at hr'
    obtain rfl := Except.ok.inj hr'
    exact h1

/-! ### A kernel that meets the hypotheses -/

/-- Every operation rounded on its own. -/
noncomputable def RoadKernel.rounded (φ : Format) : RoadKernel φ where
  toKernel := Kernel.rounded φ
  square3 a b c := ((a.mul a).add (b.mul b)).add (c.mul c)
  cross a b := (a.1.mul b.2).sub (a.2.mul b.1)
  norm a := Flt.round φ √((a.1.mul a.1).add (a.2.mul a.2)).val

theorem fl_sq_err {η : ℝ} (hη : (2 : ℝ) ^ φ.emin ≤ η) (a : ℝ) : |φ.fl (a * a) - a ^ 2| ≤ φ.u * a ^ 2 + η ∧ 0 ≤ φ.fl (a * a) := by
  constructor
  · have := φ.fl_err_tiny (a * a)
    rw [abs_of_nonneg (mul_self_nonneg a), ← sq] at this
    rw [← sq]
    linarith
  · exact Format.le_fl_of_rep Format.Rep.zero (mul_self_nonneg a)

theorem sum_sq_err {u a b r x y η : ℝ} (hu : 0 ≤ u) (hu' : u ≤ 1 / 256) (hx : 0 ≤ x) (hy : 0 ≤ y) (hη : 0 ≤ η)
    (h1 : |a - x| ≤ u * x + η) (h2 : |b - y| ≤ u * y + η) (ha : 0 ≤ a) (hb : 0 ≤ b) (hr : |r - (a + b)| ≤ u * |a + b|) :
    |r - (x + y)| ≤ (2 + 1 / 128) * u * (x + y) + (2 + 1 / 64) * η := by
  rw [abs_of_nonneg (add_nonneg ha hb)] at hr
  rw [abs_le] at *
  have k1 := mul_nonneg hu hx
  have k2 := mul_nonneg hu hy
  have m1 : u * a ≤ u * (x + (u * x + η)) := mul_le_mul_of_nonneg_left (by linarith [h1.2]) hu
  have m2 : u * b ≤ u * (y + (u * y + η)) := mul_le_mul_of_nonneg_left (by linarith [h2.2]) hu
  have m3 : u * (u * x) ≤ 1 / 256 * (u * x) := mul_le_mul_of_nonneg_right hu' k1
  have m4 : u * (u * y) ≤ 1 / 256 * (u * y) := mul_le_mul_of_nonneg_right hu' k2
  have m5 : u * η ≤ 1 / 256 * η := mul_le_mul_of_nonneg_right hu' hη
  constructor <;> nlinarith

theorem add_third {u w x y r r' c' : ℝ} (hp : 0 < u) (hu : u ≤ 1 / 256) (hw : 0 ≤ w) (q1 : 0 ≤ x) (q2 : 0 ≤ y) (n1 : 0 ≤ r') (c2 : 0 ≤ c')
    (r1 : |r' - x| ≤ (2 + 1 / 128) * u * x + (2 + 1 / 64) * (w / 16)) (c1 : |c' - y| ≤ u * y + w / 16)
    (s2 : |r - (r' + c')| ≤ u * |r' + c'|) : |r - (x + y)| ≤ 16 * u * (x + y) + 16 * w := by
  rw [abs_of_nonneg (add_nonneg n1 c2)] at s2
  rw [abs_le] at *
  have k1 := mul_nonneg hp.le q1
  have k2 := mul_nonneg hp.le q2
  have m1 : u * r' ≤ u * (x + ((2 + 1 / 128) * u * x + (2 + 1 / 64) * (w / 16))) := mul_le_mul_of_nonneg_left (by linarith [r1.2]) hp.le
  have m2 : u * c' ≤ u * (y + (u * y + w / 16)) := mul_le_mul_of_nonneg_left (by linarith [c1.2]) hp.le
  have m3 : u * (u * x) ≤ 1 / 256 * (u * x) := mul_le_mul_of_nonneg_right hu k1
  have m4 : u * (u * y) ≤ 1 / 256 * (u * y) := mul_le_mul_of_nonneg_right hu k2
  have m5 : u * w ≤ 1 / 256 * w := mul_le_mul_of_nonneg_right hu hw
  constructor <;> nlinarith

theorem rounded_square3 (hu : φ.u ≤ 1 / 256) (hη : (2 : ℝ) ^ φ.emin ≤ φ.u ^ 2 / 16) (a b c : ℝ) :
    0 ≤ φ.fl (φ.fl (φ.fl (a * a) + φ.fl (b * b)) + φ.fl (c * c)) ∧
    |φ.fl (φ.fl (φ.fl (a * a) + φ.fl (b * b)) + φ.fl (c * c)) - (a ^ 2 + b ^ 2 + c ^ 2)| ≤
      4 * (4 * φ.u) * (a ^ 2 + b ^ 2 + c ^ 2) + (4 * φ.u) ^ 2 := by
  have hp := φ.u_pos
  obtain ⟨a1, a2⟩ := fl_sq_err hη a
  obtain ⟨b1, b2⟩ := fl_sq_err hη b
  obtain ⟨c1, c2⟩ := fl_sq_err hη c
  have s1 := Format.fl_add_rel (φ.rep_fl (a * a)) (φ.rep_fl (b * b))
  have s2 := Format.fl_add_rel (φ.rep_fl (φ.fl (a * a) + φ.fl (b * b))) (φ.rep_fl (c * c))
  have n1 : 0 ≤ φ.fl (φ.fl (a * a) + φ.fl (b * b)) := Format.le_fl_of_rep Format.Rep.zero (add_nonneg a2 b2)
  have r1 := sum_sq_err hp.le hu (sq_nonneg a) (sq_nonneg b) (by positivity) a1 b1 a2 b2 s1
  refine ⟨Format.le_fl_of_rep Format.Rep.zero (add_nonneg n1 c2), ?_⟩
  have := add_third hp hu (sq_nonneg φ.u) (add_nonneg (sq_nonneg a) (sq_nonneg b)) (sq_nonneg c) n1 c2 r1 c1 s2
  refine this.trans (le_of_eq ?_)
  ring

theorem root_err {u X y w η : ℝ} (hp : 0 < u) (hu : u ≤ 1 / 256) (hX : 0 ≤ X) (hη : η ≤ u) (r : |y - X| ≤ 4 * u * X + u)
    (f : |w - y| ≤ u * y + η) : |w - X| ≤ 16 * u * X + 4 * u := by
  rw [abs_le] at *
  have k1 := mul_nonneg hp.le hX
  have m1 : u * y ≤ u * (X + (4 * u * X + u)) := mul_le_mul_of_nonneg_left (by linarith [r.2]) hp.le
  have m2 : u * (u * X) ≤ 1 / 256 * (u * X) := mul_le_mul_of_nonneg_right hu k1
  have m3 : u * u ≤ 1 / 256 * u := mul_le_mul_of_nonneg_right hu hp.le
  constructor <;> nlinarith

theorem rounded_norm (hu : φ.u ≤ 1 / 256) (hη : (2 : ℝ) ^ φ.emin ≤ φ.u ^ 2 / 16) (a b : ℝ) :
    |φ.fl √(φ.fl (φ.fl (a * a) + φ.fl (b * b))) - √(a ^ 2 + b ^ 2)| ≤ 4 * (4 * φ.u) * √(a ^ 2 + b ^ 2) + 4 * φ.u := by
  have hp := φ.u_pos
  obtain ⟨a1, a2⟩ := fl_sq_err hη a
  obtain ⟨b1, b2⟩ := fl_sq_err hη b
  have s1 := Format.fl_add_rel (φ.rep_fl (a * a)) (φ.rep_fl (b * b))
  have n1 : 0 ≤ φ.fl (φ.fl (a * a) + φ.fl (b * b)) := Format.le_fl_of_rep Format.Rep.zero (add_nonneg a2 b2)
  have r1 := sum_sq_err hp.le hu (sq_nonneg a) (sq_nonneg b) (by positivity) a1 b1 a2 b2 s1
  have hX := Real.sqrt_nonneg (a ^ 2 + b ^ 2)
  have hX2 : √(a ^ 2 + b ^ 2) ^ 2 = a ^ 2 + b ^ 2 := Real.sq_sqrt (by positivity)
  rw [← hX2] at r1
  have hXX : 0 ≤ φ.u * √(a ^ 2 + b ^ 2) ^ 2 := by positivity
  have hw := sq_nonneg φ.u
  have r := sqrt_close hp.le hX n1 (by linarith)
  have f := φ.fl_err_tiny √(φ.fl (φ.fl (a * a) + φ.fl (b * b)))
  rw [abs_of_nonneg (Real.sqrt_nonneg _)] at f
  have := root_err hp hu hX (by nlinarith) r f
  linarith

theorem rounded_cross (hu : φ.u ≤ 1 / 256) (a b : Flt φ × Flt φ) :
    |((a.1.mul b.2).sub (a.2.mul b.1)).val - (a.1.val * b.2.val - a.2.val * b.1.val)| ≤
      4 * φ.u * (|a.1.val * b.2.val| + |a.2.val * b.1.val|) + 4 * φ.u := by
  have := (Kernel.rounded_accurate (φ := φ) (by linarith)).dot (a.1, a.2) (b.2, b.1.neg)
  have e : ((Kernel.rounded φ).dot (a.1, a.2) (b.2, b.1.neg)).val = ((a.1.mul b.2).sub (a.2.mul b.1)).val := by
    show φ.fl (φ.fl (a.1.val * b.2.val) + φ.fl (a.2.val * -b.1.val)) = φ.fl (φ.fl (a.1.val * b.2.val) - φ.fl (a.2.val * b.1.val))
    rw [mul_neg, Format.fl_neg, sub_eq_add_neg]
  rw [e] at this
  have e' : (b.1.neg).val = -b.1.val := rfl
  simp only [e', mul_neg, abs_neg, ← sub_eq_add_neg] at this
  exact this

/-- Rounding every operation on its own is accurate enough, in any format whose smallest number is far below its unit. -/
theorem RoadKernel.rounded_accurate (hu : φ.u ≤ 1 / 256) (hη : (2 : ℝ) ^ φ.emin ≤ φ.u ^ 2 / 16) : (RoadKernel.rounded φ).Accurate (4 * φ.u) where
  kernel := Kernel.rounded_accurate (by linarith)
  small := by linarith
  square3 a b c := rounded_square3 hu hη a.val b.val c.val
  cross a b := rounded_cross hu a b
  norm a := rounded_norm hu hη a.1.val a.2.val

theorem road32_accurate : (RoadKernel.rounded float32).Accurate (4 * float32.u) := by
  apply RoadKernel.rounded_accurate
  · show (2 : ℝ) ^ (-(24 : ℤ)) ≤ 1 / 256
    norm_num
  · show (2 : ℝ) ^ (-149 : ℤ) ≤ ((2 : ℝ) ^ (-(24 : ℤ))) ^ 2 / 16
    norm_num

/-! ### Cases -/

/-- An integer as a single-precision number. -/
noncomputable def int32 (k : ℤ) (h : |k| ≤ 2 ^ 24 := by decide) : Flt float32 := ⟨k, Format.rep_int h (by decide)⟩

/-- A 1 m x 2 m object at `(x, 0)` heading along the axis, in single precision. -/
noncomputable def objFl (x : Flt float32) : Pt (Flt float32) :=
  { x := x, y := int32 0, z := int32 0, velX := int32 0, velY := int32 0, yaw := int32 0, valid := true, timestampMicros := 0,
    length := int32 1, width := int32 2, height := int32 1 }

/-- A road-edge point at `(x, 0)` heading north: the road is on its left. -/
noncomputable def edgeFl (x : Flt float32) : RgPoint (Flt float32) :=
  { x := x, y := int32 0, z := int32 0, dirX := int32 0, dirY := int32 1, dirZ := int32 0, type := 15, id := 7, valid := true }

/-- One object and one road-edge point. -/
noncomputable def exOffroadFl (x e : Flt float32) : SimState (Flt float32) 1 1 :=
  { simTrajectory := fun _ _ => objFl x, logTrajectory := fun _ _ => objFl x, logTrafficLight := []
    objectMetadata := fun _ => ⟨0, 1, true, true, true, false, false⟩, timestep := 0, sdcPaths := none
    roadgraphPoints := some [edgeFl e] }

theorem exOffroad_edges (e : Flt float32) : (∃ p ∈ [edgeFl e], IsEdge p.exact) ∧ UnitDirections [edgeFl e] := by
  refine ⟨⟨_, List.mem_singleton.2 rfl, rfl, Or.inl rfl⟩, ?_⟩
  intro p hp
  obtain rfl := List.mem_singleton.1 hp
  constructor
  · show |((0 : ℤ) : ℝ)| ≤ 1
    norm_num
  · show |((1 : ℤ) : ℝ)| ≤ 1
    norm_num

theorem objFl_corner (x : Flt float32) : IsCornerFl (objFl x) (x.val + 1 / 2, 1) := by
  refine ⟨1, 1, Or.inl rfl, Or.inl rfl, ?_⟩
  simp [objFl, int32, pointAt, heading, leftOf]

theorem objFl_corners {x : Flt float32} {q : ℝ × ℝ} (h : IsCornerFl (objFl x) q) :
    (q.1 = x.val + 1 / 2 ∨ q.1 = x.val - 1 / 2) ∧ (q.2 = 1 ∨ q.2 = -1) := by
  obtain ⟨a, b, ha, hb, rfl⟩ := h
  rcases ha with rfl | rfl <;> rcases hb with rfl | rfl <;> simp [objFl, int32, pointAt, heading, leftOf] <;> ring_nf <;> simp

/-- Two metres west of the edge the object is on the road, two metres east of it off the road. -/
theorem exOffroad_verdicts :
    (∃ r, offroadMetricFl (RoadKernel.rounded float32) (exOffroadFl (int32 (-2)) (int32 0)) = .ok r ∧ (r 0).value = 0 ∧ (r 0).valid = true) ∧
    ∃ r, offroadMetricFl (RoadKernel.rounded float32) (exOffroadFl (int32 2) (int32 0)) = .ok r ∧ (r 0).value = 1 ∧ (r 0).valid = true := by
  have hu : float32.u = 2 ^ (-(24 : ℤ)) := rfl
  have dist (q : ℝ × ℝ) (h1 : |q.1| ≤ 3) (h2 : |q.2| ≤ 1) : stretchedDist (edgeFl (int32 0)).exact q 0 ≤ 4 := by
    apply Real.sqrt_le_iff.2 ⟨by norm_num, ?_⟩
    simp only [RgPoint.exact, edgeFl, int32]
    rw [abs_le] at h1 h2
    norm_num
    nlinarith
  have z0 (x : Flt float32) : (objFl x).z.val = 0 := by simp [objFl, int32]
  have tol (x : ℤ) (hx : |x| ≤ 2 ^ 24) (hx2 : |(x : ℝ)| ≤ 2) {d : ℝ} (hd : d ≤ 4) : offroadTolerance (4 * float32.u) (objFl (int32 x hx)) d ≤ 1 := by
    rw [offroadTolerance_eq, hu]
    simp only [scale, objFl, int32]
    norm_num
    linarith
  constructor
  · refine C165_on road32_accurate _ (t := 0) rfl rfl (exOffroad_edges _).1 (exOffroad_edges _).2 ?_
    intro q hq k p hm
    obtain ⟨h1, h2⟩ := objFl_corners hq
    have hp := List.mem_of_getElem? hm.1
    simp only [List.map_cons, List.map_nil, List.mem_singleton] at hp
    subst hp
    left
    have e1 : |q.1| ≤ 3 := by
      simp only [int32] at h1
      rcases h1 with h | h <;> rw [h] <;> norm_num [abs_le]
    have e2 : |q.2| ≤ 1 := by rcases h2 with h | h <;> rw [h] <;> norm_num
    have ht := tol (-2) (by decide) (by norm_num) (dist q e1 e2)
    show offroadTolerance _ (objFl _) (stretchedDist _ q (objFl _).z.val) < _
    rw [z0]
    refine lt_of_le_of_lt ht ?_
    simp only [RgPoint.exact, edgeFl, int32] at h1 ⊢
    rcases h1 with h | h <;> rw [h] <;> norm_num
  · refine C165_off road32_accurate _ (t := 0) rfl rfl (exOffroad_edges _).1 (exOffroad_edges _).2 (objFl_corner _) ?_
    intro k p hm
    have hp := List.mem_of_getElem? hm.1
    simp only [List.map_cons, List.map_nil, List.mem_singleton] at hp
    subst hp
    have hk : k = 0 := by
      have := (List.getElem?_eq_some_iff.1 hm.1).1
      simp at this
      exact this
    refine ⟨?_, fun j p' hj => by omega⟩
    have e1 : |((int32 2).val + 1 / 2, (1 : ℝ)).1| ≤ 3 := by simp only [int32]; norm_num [abs_le]
    have ht := tol 2 (by decide) (by norm_num) (dist ((int32 2).val + 1 / 2, 1) e1 (by norm_num))
    show offroadTolerance _ (objFl _) (stretchedDist _ _ (objFl _).z.val) < _
    rw [z0]
    refine lt_of_le_of_lt ht ?_
    simp only [RgPoint.exact, edgeFl, int32]
    norm_num

/-- 33 554 432 m from the origin of the map, where single precision cannot tell two metres apart. -/
noncomputable def far32 : Flt float32 := ⟨2 ^ 25, 1, 25, by decide, by decide, by norm_num⟩

theorem fl_far {d : ℝ} (hd : d = 1 / 2 ∨ d = -(1 / 2)) : float32.fl (d + 2 ^ 25) = 2 ^ 25 := by
  rcases hd with rfl | rfl
  · rw [Format.fl_eq (e := 2) (by norm_num [float32, abs_of_pos]) (by norm_num [float32, abs_of_pos]) (by decide),
      rint_eq_of_abs_lt (k := 2 ^ 23) (by norm_num [abs_lt])]
    norm_num
  · rw [Format.fl_eq (e := 1) (by norm_num [float32, abs_of_pos]) (by norm_num [float32, abs_of_pos]) (by decide),
      rint_eq_of_abs_lt (k := 2 ^ 24) (by norm_num [abs_lt])]
    norm_num

theorem far_corner (k : Fin 4) : (cornersFl (Kernel.rounded float32) (objFl far32).boxFl k).1.val = 2 ^ 25 := by
  have hone : float32.fl 1 = 1 := Format.fl_of_rep ⟨1, 0, by decide, by decide, by norm_num⟩
  have htwo : float32.fl 2 = 2 := Format.fl_of_rep ⟨1, 1, by decide, by decide, by norm_num⟩
  have hhalf : float32.fl (1 / 2) = 1 / 2 := Format.fl_of_rep ⟨1, -1, by decide, by decide, by norm_num⟩
  have hhalf' : float32.fl (-(1 / 2)) = -(1 / 2) := by rw [Format.fl_neg, hhalf]
  have h0 : float32.fl 0 = 0 := Format.fl_zero
  fin_cases k <;>
    simp only [cornersFl, Kernel.rounded, objFl, Pt.boxFl, Flt.add, Flt.sub, Flt.mul, Flt.div, Flt.neg, Flt.round, int32, far32,
      Matrix.cons_val, Int.cast_zero, Int.cast_one, Int.cast_ofNat, cos_zero, sin_zero, hone, htwo, h0, div_self (two_ne_zero' ℝ), mul_zero, mul_one,
      hhalf, hhalf', add_zero, sub_zero, Fin.mk_one, Fin.zero_eta, Fin.reduceFinMk, neg_zero]
  · exact fl_far (Or.inl rfl)
  · exact fl_far (Or.inl rfl)
  · exact fl_far (Or.inr rfl)
  · exact fl_far (Or.inr rfl)

theorem signedDistanceFl_single (K : RoadKernel φ) (p : RgPoint (Flt φ)) (cx cy z : Flt φ) : signedDistanceFl K [p] cx cy z =
    some ((K.norm (p.x.sub cx, p.y.sub cy)).mul (signFl (K.cross (cx.sub p.x, cy.sub p.y) (p.dirX, p.dirY)))) := by
  have harg : argmin ([p].map (squareDistanceFl K cx cy z)) = 0 := rfl
  unfold signedDistanceFl
  simp only [harg, Nat.zero_sub, List.getElem?_cons_zero, lt_irrefl, and_false, if_false]

/-- Far from the origin, rounding the corners puts an object that sticks half a metre out of the road back on its border. -/
theorem C165_full_violated : ¬ C165_full (RoadKernel.rounded float32) 1 1 := by
  intro hfull
  obtain ⟨r, hr, hiff⟩ := hfull (exOffroadFl far32 far32) _ 0 rfl rfl (exOffroad_edges _).1 (exOffroad_edges _).2
  have h1 : (r 0).value = 1 := by
    refine (hiff 0).2 ⟨_, objFl_corner _, 0, _, ⟨rfl, ⟨rfl, Or.inl rfl⟩, ?_⟩, ?_, fun j p' hj => by omega⟩
    · intro j p' hj _
      have := List.mem_of_getElem? hj
      simp only [List.map_cons, List.map_nil, List.mem_singleton] at this
      subst this
      exact ⟨le_rfl, by omega⟩
    · simp only [RightOf, RgPoint.exact, edgeFl, int32]
      norm_num
  obtain ⟨r', hr', hc⟩ := offroadFl_cases (RoadKernel.rounded float32) (exOffroadFl far32 far32) (t := 0) rfl rfl (by simp)
  rw [hr] at hr'
  obtain rfl := Except.ok.inj hr'
  obtain ⟨k, d, hd, hpos⟩ := (hc 0).2.1.1 h1
  have hsub : ((cornersFl (Kernel.rounded float32) (objFl far32).boxFl k).1.sub (edgeFl far32).x).val = 0 := by
    show float32.fl ((cornersFl (Kernel.rounded float32) (objFl far32).boxFl k).1.val - 2 ^ 25) = 0
    rw [far_corner, sub_self, Format.fl_zero]
  have hcross : ((RoadKernel.rounded float32).cross ((cornersFl (Kernel.rounded float32) (objFl far32).boxFl k).1.sub (edgeFl far32).x,
      (cornersFl (Kernel.rounded float32) (objFl far32).boxFl k).2.sub (edgeFl far32).y) ((edgeFl far32).dirX, (edgeFl far32).dirY)).val = 0 := by
    show float32.fl (float32.fl (_ * ((1 : ℤ) : ℝ)) - float32.fl (_ * ((0 : ℤ) : ℝ))) = 0
    rw [hsub, Int.cast_zero, mul_zero, zero_mul, sub_self, Format.fl_zero]
  have hd' := (signedDistanceFl_single _ _ _ _ _).symm.trans hd
  rw [← Option.some.inj hd', gt_iff_lt, Flt.mul_zero] at hpos
  · exact lt_irrefl _ hpos
  · unfold signFl
    rw [if_neg (by erw [hcross]; exact lt_irrefl _), if_neg (by erw [hcross]; exact lt_irrefl _)]
    rfl

end

end Waymax
