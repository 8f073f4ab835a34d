import Verif.Props.Frames
import Verif.Lemmas.Sat
/-
C25, C26: the box overlap test (real arithmetic).
-/

namespace Waymax

open Real Sat

/-! Projections of a box on a direction. -/

theorem max4_sym (m A B : ℝ) : max4 ![m + A - B, m + A + B, m - A + B, m - A - B] = m + |A| + |B| := by
  simp only [max4, Matrix.cons_val_zero, Matrix.cons_val_one, Matrix.cons_val]
  rcases abs_cases A with ⟨ha, _⟩ | ⟨ha, _⟩ <;> rcases abs_cases B with ⟨hb, _⟩ | ⟨hb, _⟩ <;> rw [ha, hb]
  · rw [max_eq_right (by linarith : m + A - B ≤ m + A + B), max_eq_left (by linarith : m - A - B ≤ m - A + B),
      max_eq_left (by linarith)]
  · rw [max_eq_left (by linarith : m + A + B ≤ m + A - B), max_eq_right (by linarith : m - A + B ≤ m - A - B),
      max_eq_left (by linarith)]; ring
  · rw [max_eq_right (by linarith : m + A - B ≤ m + A + B), max_eq_left (by linarith : m - A - B ≤ m - A + B),
      max_eq_right (by linarith)]; ring
  · rw [max_eq_left (by linarith : m + A + B ≤ m + A - B), max_eq_right (by linarith : m - A + B ≤ m - A - B),
      max_eq_right (by linarith)]; ring

theorem min4_sym (m A B : ℝ) : min4 ![m + A - B, m + A + B, m - A + B, m - A - B] = m - |A| - |B| := by
  simp only [min4, Matrix.cons_val_zero, Matrix.cons_val_one, Matrix.cons_val]
  rcases abs_cases A with ⟨ha, _⟩ | ⟨ha, _⟩ <;> rcases abs_cases B with ⟨hb, _⟩ | ⟨hb, _⟩ <;> rw [ha, hb]
  · rw [min_eq_left (by linarith : m + A - B ≤ m + A + B), min_eq_right (by linarith : m - A - B ≤ m - A + B),
      min_eq_right (by linarith)]
  · rw [min_eq_right (by linarith : m + A + B ≤ m + A - B), min_eq_left (by linarith : m - A + B ≤ m - A - B),
      min_eq_right (by linarith)]; ring
  · rw [min_eq_left (by linarith : m + A - B ≤ m + A + B), min_eq_right (by linarith : m - A - B ≤ m - A + B),
      min_eq_left (by linarith)]; ring
  · rw [min_eq_right (by linarith : m + A + B ≤ m + A - B), min_eq_left (by linarith : m - A + B ≤ m - A - B),
      min_eq_left (by linarith)]; ring

theorem corner_projections (b : Box) (n : ℝ × ℝ) :
    (fun k => dot n (cornersFromBbox b k)) =
      ![dot n (b.x, b.y) + dot n (heading b.yaw) * (b.length / 2) - dot n (leftOf b.yaw) * (b.width / 2),
        dot n (b.x, b.y) + dot n (heading b.yaw) * (b.length / 2) + dot n (leftOf b.yaw) * (b.width / 2),
        dot n (b.x, b.y) - dot n (heading b.yaw) * (b.length / 2) + dot n (leftOf b.yaw) * (b.width / 2),
        dot n (b.x, b.y) - dot n (heading b.yaw) * (b.length / 2) - dot n (leftOf b.yaw) * (b.width / 2)] := by
  obtain ⟨h0, h1, h2, h3⟩ := C24_corners b
  funext k
  fin_cases k
  · simp only [Fin.zero_eta, h0, dot_pointAt, Matrix.cons_val_zero]; ring
  · simp only [Fin.mk_one, h1, dot_pointAt, Matrix.cons_val_one, Matrix.cons_val_zero]; ring
  · simp only [Fin.reduceFinMk, h2, dot_pointAt, Matrix.cons_val]; ring
  · simp only [Fin.reduceFinMk, h3, dot_pointAt, Matrix.cons_val]; ring

/-- Half extent of a box. -/
noncomputable def Box.ext (b : Box) (n : ℝ × ℝ) : ℝ := Sat.ext b.yaw (|b.length| / 2) (|b.width| / 2) n

theorem box_minmax (b : Box) (n : ℝ × ℝ) :
    max4 (fun k => dot n (cornersFromBbox b k)) = dot n (b.x, b.y) + b.ext n ∧
    min4 (fun k => dot n (cornersFromBbox b k)) = dot n (b.x, b.y) - b.ext n := by
  rw [corner_projections, max4_sym, min4_sym, Box.ext, Sat.ext]
  simp only [abs_mul, abs_div, abs_two]
  constructor <;> ring

/-- The test on one direction. -/
def AxisOverlap (a b : Box) (n : ℝ × ℝ) : Prop :=
  0 < a.ext n ∧ 0 < b.ext n ∧ |dot n (b.x - a.x, b.y - a.y)| < a.ext n + b.ext n

theorem overlapAOverB_iff (a b : Box) :
    overlapAOverB a b ↔ AxisOverlap a b (heading a.yaw) ∧ AxisOverlap a b (leftOf a.yaw) := by
  have key : ∀ n : ℝ × ℝ, (min (max4 (fun k => dot n (cornersFromBbox a k))) (max4 (fun k => dot n (cornersFromBbox b k))) -
      max (min4 (fun k => dot n (cornersFromBbox a k))) (min4 (fun k => dot n (cornersFromBbox b k))) > 0) ↔
      AxisOverlap a b n := by
    intro n
    rw [(box_minmax a n).1, (box_minmax a n).2, (box_minmax b n).1, (box_minmax b n).2]
    have e : dot n (b.x - a.x, b.y - a.y) = dot n (b.x, b.y) - dot n (a.x, a.y) := by simp only [dot]; ring
    unfold AxisOverlap
    rw [e, abs_lt, gt_iff_lt, sub_pos, max_lt_iff, lt_min_iff, lt_min_iff]
    constructor
    · rintro ⟨⟨h1, h2⟩, h3, h4⟩
      exact ⟨by linarith, by linarith, by linarith, by linarith⟩
    · rintro ⟨h1, h2, h3, h4⟩
      exact ⟨⟨by linarith, by linarith⟩, by linarith, by linarith⟩
  have p0 : ∀ b' : Box, (fun k => (cornersFromBbox b' k).1 * cos a.yaw + (cornersFromBbox b' k).2 * sin a.yaw) =
      fun k => dot (heading a.yaw) (cornersFromBbox b' k) := by
    intro b'; funext k; simp only [dot, heading]; ring
  have p1 : ∀ b' : Box, (fun k => (cornersFromBbox b' k).1 * (-sin a.yaw) + (cornersFromBbox b' k).2 * cos a.yaw) =
      fun k => dot (leftOf a.yaw) (cornersFromBbox b' k) := by
    intro b'; funext k; simp only [dot, leftOf]; ring
  unfold overlapAOverB
  simp only [Fin.forall_fin_two, if_true, Fin.isValue, one_ne_zero, if_false]
  rw [p0, p0, p1, p1, key, key]

theorem AxisOverlap.comm {a b : Box} {n : ℝ × ℝ} (h : AxisOverlap a b n) : AxisOverlap b a n := by
  obtain ⟨h1, h2, h3⟩ := h
  refine ⟨h2, h1, ?_⟩
  have : dot n (a.x - b.x, a.y - b.y) = -dot n (b.x - a.x, b.y - a.y) := by simp only [dot]; ring
  rw [this, abs_neg, add_comm]; exact h3

theorem hasOverlap_iff (a b : Box) :
    hasOverlap a b ↔ ∀ n, (n = heading a.yaw ∨ n = leftOf a.yaw ∨ n = heading b.yaw ∨ n = leftOf b.yaw) →
      AxisOverlap a b n := by
  unfold hasOverlap
  rw [overlapAOverB_iff, overlapAOverB_iff]
  constructor
  · rintro ⟨⟨h1, h2⟩, h3, h4⟩ n (rfl | rfl | rfl | rfl)
    · exact h1
    · exact h2
    · exact h3.comm
    · exact h4.comm
  · intro h
    exact ⟨⟨h _ (by tauto), h _ (by tauto)⟩, (h _ (by tauto)).comm, (h _ (by tauto)).comm⟩

theorem dot_heading_self (θ : ℝ) : dot (heading θ) (heading θ) = 1 := by
  simp only [dot, heading]; linear_combination sin_sq_add_cos_sq θ
theorem dot_left_self (θ : ℝ) : dot (leftOf θ) (leftOf θ) = 1 := by
  simp only [dot, leftOf]; linear_combination sin_sq_add_cos_sq θ
theorem dot_heading_left (θ : ℝ) : dot (heading θ) (leftOf θ) = 0 := by simp only [dot, heading, leftOf]; ring
theorem dot_left_heading (θ : ℝ) : dot (leftOf θ) (heading θ) = 0 := by simp only [dot, heading, leftOf]; ring

theorem ext_heading (b : Box) : b.ext (heading b.yaw) = |b.length| / 2 := by
  simp [Box.ext, Sat.ext, dot_heading_self, dot_heading_left]
theorem ext_left (b : Box) : b.ext (leftOf b.yaw) = |b.width| / 2 := by
  simp [Box.ext, Sat.ext, dot_left_self, dot_left_heading]

theorem ext_pos {b : Box} (hl : b.length ≠ 0) (hw : b.width ≠ 0) {n : ℝ × ℝ} (hn : n.1 ^ 2 + n.2 ^ 2 = 1) : 0 < b.ext n := by
  have h1 : 0 < |b.length| := abs_pos.2 hl
  have h2 : 0 < |b.width| := abs_pos.2 hw
  have hsq := dot_sq n b.yaw
  rw [hn] at hsq
  unfold Box.ext Sat.ext
  by_cases h : dot n (heading b.yaw) = 0
  · have h' : dot n (leftOf b.yaw) ≠ 0 := by
      intro h0; rw [h, h0] at hsq; norm_num at hsq
    have := abs_pos.2 h'
    positivity
  · have := abs_pos.2 h
    positivity

/-! ### C25: the overlap test is exact -/

/-- `has_overlap` is True exactly when the two open rectangles have a point in common. Sizes may be zero or negative
(a rectangle of zero area has no interior and overlaps nothing). -/
theorem C25_overlap_exact (a b : Box) :
    hasOverlap a b ↔
      (rectInterior a.x a.y a.length a.width a.yaw ∩ rectInterior b.x b.y b.length b.width b.yaw).Nonempty := by
  rw [hasOverlap_iff]
  by_cases hz : a.length ≠ 0 ∧ a.width ≠ 0 ∧ b.length ≠ 0 ∧ b.width ≠ 0
  · obtain ⟨h1, h2, h3, h4⟩ := hz
    rw [Sat.rect_meet_iff h1 h2 h3 h4]
    constructor
    · intro h n hn
      exact (h n hn).2.2
    · intro h n hn
      have hne : n.1 ^ 2 + n.2 ^ 2 = 1 := by
        rcases hn with rfl | rfl | rfl | rfl <;> simp only [heading, leftOf]
        · linear_combination sin_sq_add_cos_sq a.yaw
        · linear_combination sin_sq_add_cos_sq a.yaw
        · linear_combination sin_sq_add_cos_sq b.yaw
        · linear_combination sin_sq_add_cos_sq b.yaw
      exact ⟨ext_pos h1 h2 hne, ext_pos h3 h4 hne, h n hn⟩
  · constructor
    · intro h
      exfalso
      apply hz
      refine ⟨?_, ?_, ?_, ?_⟩ <;> intro h0
      · have := (h (heading a.yaw) (by tauto)).1
        rw [ext_heading, h0] at this; simp at this
      · have := (h (leftOf a.yaw) (by tauto)).1
        rw [ext_left, h0] at this; simp at this
      · have := (h (heading b.yaw) (by tauto)).2.1
        rw [ext_heading, h0] at this; simp at this
      · have := (h (leftOf b.yaw) (by tauto)).2.1
        rw [ext_left, h0] at this; simp at this
    · rintro ⟨p, ⟨u, v, hu, hv, -⟩, ⟨u', v', hu', hv', -⟩⟩
      exfalso
      apply hz
      refine ⟨?_, ?_, ?_, ?_⟩ <;> intro h0
      · rw [h0] at hu; simp at hu; linarith [abs_nonneg u]
      · rw [h0] at hv; simp at hv; linarith [abs_nonneg v]
      · rw [h0] at hu'; simp at hu'; linarith [abs_nonneg u']
      · rw [h0] at hv'; simp at hv'; linarith [abs_nonneg v']

/-- The rectangle of C25 is the one whose corners are drawn: its closure is the convex hull of the four corners. -/
theorem C25_rectangle_is_hull (b : Box) :
    rectClosed b.x b.y b.length b.width b.yaw = convexHull ℝ (Set.range (cornersFromBbox b)) := by
  obtain ⟨h0, h1, h2, h3⟩ := C24_corners b
  apply Set.Subset.antisymm
  · rintro p ⟨u, v, hu, hv, rfl⟩
    -- bilinear weights
    have hs : ∀ (t L : ℝ), |t| ≤ |L| / 2 → ∃ s, 0 ≤ s ∧ s ≤ 1 ∧ t = (1 - s) * (-(L / 2)) + s * (L / 2) := by
      intro t L ht
      by_cases hL : L = 0
      · subst hL; refine ⟨0, le_rfl, zero_le_one, ?_⟩
        simp at ht; simp [ht]
      · refine ⟨t / L + 1 / 2, ?_, ?_, ?_⟩
        · have : |t / L| ≤ 1 / 2 := by
            rw [abs_div, div_le_iff₀ (abs_pos.2 hL)]; linarith
          have := (abs_le.1 this).1; linarith
        · have : |t / L| ≤ 1 / 2 := by
            rw [abs_div, div_le_iff₀ (abs_pos.2 hL)]; linarith
          have := (abs_le.1 this).2; linarith
        · field_simp; ring
    obtain ⟨s, s0, s1, es⟩ := hs u _ hu
    obtain ⟨t, t0, t1, et⟩ := hs v _ hv
    have hc : ∀ k, cornersFromBbox b k ∈ convexHull ℝ (Set.range (cornersFromBbox b)) := fun k =>
      subset_convexHull ℝ _ ⟨k, rfl⟩
    have hconv := convex_convexHull ℝ (Set.range (cornersFromBbox b))
    have front := hconv (hc 0) (hc 1) (by linarith : 0 ≤ 1 - t) t0 (by ring)
    have rear := hconv (hc 3) (hc 2) (by linarith : 0 ≤ 1 - t) t0 (by ring)
    have all := hconv rear front (by linarith : 0 ≤ 1 - s) s0 (by ring)
    convert all using 1
    rw [h0, h1, h2, h3]
    simp only [pointAt, Prod.smul_mk, smul_eq_mul, Prod.mk_add_mk, es, et]
    ext <;> simp only <;> ring
  · apply convexHull_min
    · rintro _ ⟨k, rfl⟩
      have e1 : ∀ t : ℝ, |t / 2| ≤ |t| / 2 := fun t => by rw [abs_div, abs_two]
      have e2 : ∀ t : ℝ, |-(t / 2)| ≤ |t| / 2 := fun t => by rw [abs_neg, abs_div, abs_two]
      fin_cases k
      · exact ⟨_, _, e1 _, e2 _, h0⟩
      · exact ⟨_, _, e1 _, e1 _, h1⟩
      · exact ⟨_, _, e2 _, e1 _, h2⟩
      · exact ⟨_, _, e2 _, e2 _, h3⟩
    · rintro p ⟨u, v, hu, hv, rfl⟩ q ⟨u', v', hu', hv', rfl⟩ c d hc hd hcd
      refine ⟨c * u + d * u', c * v + d * v', ?_, ?_, ?_⟩
      · rw [abs_le] at *; constructor <;> nlinarith
      · rw [abs_le] at *; constructor <;> nlinarith
      · simp only [pointAt, Prod.smul_mk, smul_eq_mul, Prod.mk_add_mk]
        ext
        · simp only; linear_combination b.x * hcd
        · simp only; linear_combination b.y * hcd

/-- Boxes that merely touch do not overlap: two unit squares side by side share an edge. -/
example : ¬ hasOverlap ⟨0, 0, 1, 1, 0⟩ ⟨1, 0, 1, 1, 0⟩ := by
  rw [C25_overlap_exact]
  rintro ⟨p, ⟨u, v, hu, hv, h⟩, ⟨u', v', hu', hv', h'⟩⟩
  rw [h] at h'
  simp only [pointAt, heading, leftOf, cos_zero, sin_zero, Prod.mk.injEq] at h'
  rw [abs_one] at hu hu'
  have := (abs_lt.1 hu).2
  have := (abs_lt.1 hu').1
  linarith [h'.1]

/-- A crossing pair overlaps although no corner of either is inside the other. -/
example : hasOverlap ⟨0, 0, 4, 1, 0⟩ ⟨0, 0, 4, 1, π / 2⟩ := by
  rw [C25_overlap_exact]
  exact ⟨(0, 0), ⟨0, 0, by norm_num, by norm_num, by simp [pointAt]⟩, ⟨0, 0, by norm_num, by norm_num, by simp [pointAt]⟩⟩

/-! ### C26: symmetry and frame independence -/

/-- Symmetry. -/
theorem C26_symmetric (a b : Box) : hasOverlap a b ↔ hasOverlap b a := by
  unfold hasOverlap; exact and_comm

/-- The box seen from an ego at `xy` with heading `yaw`. -/
noncomputable def Box.seenFrom (b : Box) (xy : ℝ × ℝ) (yaw : ℝ) : Box :=
  { x := (transformPoints (poseMatrix xy yaw) (b.x, b.y)).1
    y := (transformPoints (poseMatrix xy yaw) (b.x, b.y)).2
    length := b.length, width := b.width, yaw := transformYaw (poseYaw yaw) b.yaw }

theorem corner_seenFrom (b : Box) (xy : ℝ × ℝ) (yaw u v : ℝ) :
    pointAt (b.seenFrom xy yaw).x (b.seenFrom xy yaw).y (b.seenFrom xy yaw).yaw u v =
      transformPoints (poseMatrix xy yaw) (pointAt b.x b.y b.yaw u v) := by
  simp only [Box.seenFrom, transformPoints_pose, pointAt, heading, leftOf, transformYaw, poseYaw, cos_add, sin_add, cos_neg,
    sin_neg, Prod.mk.injEq]
  constructor <;> ring

/-- The same rigid motion applied to both boxes does not change the result. -/
theorem C26_frame_independent (a b : Box) (xy : ℝ × ℝ) (yaw : ℝ) :
    hasOverlap (a.seenFrom xy yaw) (b.seenFrom xy yaw) ↔ hasOverlap a b := by
  rw [C25_overlap_exact, C25_overlap_exact]
  have inj : ∀ p q, transformPoints (poseMatrix xy yaw) p = transformPoints (poseMatrix xy yaw) q → p = q := by
    intro p q h
    rw [← (C22_inverse xy yaw p).1, h, (C22_inverse xy yaw q).1]
  constructor
  · rintro ⟨p, ⟨u, v, hu, hv, h⟩, ⟨u', v', hu', hv', h'⟩⟩
    rw [corner_seenFrom] at h h'
    exact ⟨_, ⟨u, v, hu, hv, rfl⟩, ⟨u', v', hu', hv', inj _ _ (by rw [← h, ← h'])⟩⟩
  · rintro ⟨p, ⟨u, v, hu, hv, h⟩, ⟨u', v', hu', hv', h'⟩⟩
    refine ⟨transformPoints (poseMatrix xy yaw) p, ⟨u, v, hu, hv, ?_⟩, ⟨u', v', hu', hv', ?_⟩⟩
    · rw [corner_seenFrom, ← h]
    · rw [corner_seenFrom, ← h']

/-- Turning a box by full or half turns does not change what it overlaps. -/
theorem C26_turns (a b : Box) (k : ℤ) : hasOverlap { a with yaw := a.yaw + k * π } b ↔ hasOverlap a b := by
  rw [C25_overlap_exact, C25_overlap_exact]
  have : rectInterior a.x a.y a.length a.width (a.yaw + k * π) = rectInterior a.x a.y a.length a.width a.yaw := by
    ext p
    rw [Sat.mem_rectInterior, Sat.mem_rectInterior]
    rcases Int.even_or_odd k with ⟨m, hm⟩ | ⟨m, hm⟩
    · have e : a.yaw + k * π = a.yaw + m * (2 * π) := by rw [hm]; push_cast; ring
      rw [e, Real.cos_add_int_mul_two_pi, Real.sin_add_int_mul_two_pi]
    · have e : a.yaw + k * π = (a.yaw + π) + m * (2 * π) := by rw [hm]; push_cast; ring
      rw [e, Real.cos_add_int_mul_two_pi, Real.sin_add_int_mul_two_pi, Real.cos_add_pi, Real.sin_add_pi]
      have e1 : (p.1 - a.x) * -cos a.yaw + (p.2 - a.y) * -sin a.yaw =
          -((p.1 - a.x) * cos a.yaw + (p.2 - a.y) * sin a.yaw) := by ring
      have e2 : -(p.1 - a.x) * -sin a.yaw + (p.2 - a.y) * -cos a.yaw =
          -(-(p.1 - a.x) * sin a.yaw + (p.2 - a.y) * cos a.yaw) := by ring
      rw [e1, e2, abs_neg, abs_neg]
  rw [this]

/-- The pairwise matrix: False on the diagonal, `has_overlap` elsewhere, symmetric; any number of boxes. -/
theorem C26_pairwise {n : Nat} (traj : Fin n → Box) (i j : Fin n) :
    (computePairwiseOverlaps traj i j ↔ i ≠ j ∧ hasOverlap (traj i) (traj j)) ∧
    ¬ computePairwiseOverlaps traj i i ∧
    (computePairwiseOverlaps traj i j ↔ computePairwiseOverlaps traj j i) := by
  have h : ∀ i j, computePairwiseOverlaps traj i j ↔ i ≠ j ∧ hasOverlap (traj i) (traj j) := by
    intro i j
    unfold computePairwiseOverlaps
    by_cases hij : i = j <;> simp [hij]
  refine ⟨h i j, by rw [h]; simp, ?_⟩
  rw [h, h, C26_symmetric, ne_comm]

/-- A pair of boxes that overlap, and one that does not, as in the examples of C25; the motion `(3, 4), π / 6` keeps both. -/
example : hasOverlap (Box.seenFrom ⟨0, 0, 4, 1, 0⟩ (3, 4) (π / 6)) (Box.seenFrom ⟨0, 0, 4, 1, π / 2⟩ (3, 4) (π / 6)) := by
  rw [C26_frame_independent, C25_overlap_exact]
  exact ⟨(0, 0), ⟨0, 0, by norm_num, by norm_num, by simp [pointAt]⟩, ⟨0, 0, by norm_num, by norm_num, by simp [pointAt]⟩⟩

end Waymax
