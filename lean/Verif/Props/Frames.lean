import Verif.Model.Geometry
import Verif.Spec.Geometry
import Mathlib.Tactic.Linarith
import Mathlib.Tactic.FieldSimp
import Mathlib.Tactic.Ring
import Mathlib.Tactic.LinearCombination
/-
C21 - C24: angles, frame changes, poses and box corners (real arithmetic).
-/

namespace Waymax

open Real

/-! ### C21: yaw wrapping -/

theorem wrapYaws_eq (y : ℝ) : wrapYaws y = y - ⌊(y + π) / (2 * π)⌋ * (2 * π) := by
  unfold wrapYaws fmod; ring

/-- The result is in `[-π, π)`. -/
theorem C21_wrap_range (y : ℝ) : -π ≤ wrapYaws y ∧ wrapYaws y < π := by
  have hp : 0 < 2 * π := by positivity
  have h1 := Int.floor_le ((y + π) / (2 * π))
  have h2 := Int.lt_floor_add_one ((y + π) / (2 * π))
  rw [le_div_iff₀ hp] at h1
  rw [div_lt_iff₀ hp] at h2
  rw [wrapYaws_eq]
  constructor <;> nlinarith

/-- The result differs from the input by a multiple of `2π`, and it is the only such angle in `[-π, π)`. -/
theorem C21_wrap_unique (y z : ℝ) :
    z = wrapYaws y ↔ (-π ≤ z ∧ z < π ∧ ∃ k : ℤ, z = y - k * (2 * π)) := by
  constructor
  · rintro rfl
    exact ⟨(C21_wrap_range y).1, (C21_wrap_range y).2, _, wrapYaws_eq y⟩
  · rintro ⟨h1, h2, k, hk⟩
    obtain ⟨g1, g2⟩ := C21_wrap_range y
    rw [wrapYaws_eq] at g1 g2 ⊢
    have hp : 0 < π := pi_pos
    have : (⌊(y + π) / (2 * π)⌋ : ℤ) = k := by
      have a : ((⌊(y + π) / (2 * π)⌋ : ℤ) : ℝ) - k < 1 := by
        by_contra hc; push Not at hc; nlinarith
      have b : -1 < ((⌊(y + π) / (2 * π)⌋ : ℤ) : ℝ) - k := by
        by_contra hc; push Not at hc; nlinarith
      have a' : ⌊(y + π) / (2 * π)⌋ - k < 1 := by exact_mod_cast a
      have b' : -1 < ⌊(y + π) / (2 * π)⌋ - k := by exact_mod_cast b
      omega
    rw [this, hk]

/-- Angles already in range are unchanged. -/
theorem C21_wrap_id {y : ℝ} (h1 : -π ≤ y) (h2 : y < π) : wrapYaws y = y :=
  ((C21_wrap_unique y y).2 ⟨h1, h2, 0, by simp⟩).symm

/-- Wrapping twice is wrapping once. -/
theorem C21_wrap_idempotent (y : ℝ) : wrapYaws (wrapYaws y) = wrapYaws y :=
  C21_wrap_id (C21_wrap_range y).1 (C21_wrap_range y).2

/-- Periodicity. -/
theorem C21_wrap_periodic (y : ℝ) (k : ℤ) : wrapYaws (y + k * (2 * π)) = wrapYaws y := by
  apply (C21_wrap_unique y _).2
  refine ⟨(C21_wrap_range _).1, (C21_wrap_range _).2, ?_⟩
  obtain ⟨m, hm⟩ := ((C21_wrap_unique (y + k * (2 * π)) _).1 rfl).2.2
  exact ⟨m - k, by rw [hm]; push_cast; ring⟩

/-- Wrapping never increases the absolute value. -/
theorem C21_wrap_abs_le (y : ℝ) : |wrapYaws y| ≤ |y| := by
  obtain ⟨h1, h2⟩ := C21_wrap_range y
  by_cases h : -π ≤ y ∧ y < π
  · rw [C21_wrap_id h.1 h.2]
  · have : π ≤ |y| := by
      rw [le_abs]
      by_cases h' : -π ≤ y
      · left; by_contra hc; exact h ⟨h', by linarith⟩
      · right; linarith
    have : |wrapYaws y| ≤ π := abs_le.2 ⟨h1, h2.le⟩
    linarith

/-- Wrapping keeps the direction the angle stands for. -/
theorem C21_wrap_same_heading (y : ℝ) : heading (wrapYaws y) = heading y := by
  obtain ⟨k, hk⟩ := ((C21_wrap_unique y _).1 rfl).2.2
  unfold heading
  rw [hk, Real.cos_sub_int_mul_two_pi, Real.sin_sub_int_mul_two_pi]

example : wrapYaws (3 * π) = -π ∧ wrapYaws 1 = 1 :=
  ⟨((C21_wrap_unique _ _).2 ⟨le_refl _, by linarith [pi_pos], 2, by push_cast; ring⟩).symm,
   C21_wrap_id (by linarith [pi_pos]) (by linarith [Real.one_le_pi_div_two])⟩

/-! ### C22: frame changes are rigid motions -/

theorem transformPoints_pose (xy : ℝ × ℝ) (yaw : ℝ) (p : ℝ × ℝ) :
    transformPoints (poseMatrix xy yaw) p =
      ((p.1 - xy.1) * cos yaw + (p.2 - xy.2) * sin yaw, -(p.1 - xy.1) * sin yaw + (p.2 - xy.2) * cos yaw) := by
  simp [transformPoints, poseMatrix]
  constructor <;> ring

/-- The new coordinates of a point are its components along the ego heading and to its left, relative to the ego position. -/
theorem C22_local_coordinates (x y yaw : ℝ) (p : ℝ × ℝ) (u v : ℝ) :
    transformPoints (poseMatrix (x, y) yaw) p = (u, v) ↔ p = pointAt x y yaw u v := by
  rw [transformPoints_pose]
  have h := sin_sq_add_cos_sq yaw
  obtain ⟨p1, p2⟩ := p
  simp only [pointAt, heading, leftOf, Prod.mk.injEq]
  constructor
  · rintro ⟨rfl, rfl⟩
    constructor
    · linear_combination (-(p1 - x)) * h
    · linear_combination (-(p2 - y)) * h
  · rintro ⟨rfl, rfl⟩
    constructor
    · linear_combination u * h
    · linear_combination v * h

/-- Distances are preserved. -/
theorem C22_distances (xy : ℝ × ℝ) (yaw : ℝ) (p q : ℝ × ℝ) :
    dist2 (transformPoints (poseMatrix xy yaw) p) (transformPoints (poseMatrix xy yaw) q) = dist2 p q := by
  rw [transformPoints_pose, transformPoints_pose]
  unfold dist2
  congr 1
  linear_combination ((p.1 - q.1) ^ 2 + (p.2 - q.2) ^ 2) * sin_sq_add_cos_sq yaw

/-- The ego ends up at the origin, with heading zero. -/
theorem C22_ego (xy : ℝ × ℝ) (yaw : ℝ) :
    transformPoints (poseMatrix xy yaw) xy = (0, 0) ∧ transformYaw (poseYaw yaw) yaw = 0 ∧
    transformDirection (poseMatrix xy yaw) (heading yaw) = (1, 0) := by
  refine ⟨by rw [transformPoints_pose]; simp, by simp [transformYaw, poseYaw], ?_⟩
  simp only [transformDirection, rotatePoints, poseMatrix, heading, Matrix.of_apply, Matrix.cons_val', Matrix.cons_val_zero,
    Matrix.cons_val_one, cos_neg, sin_neg, Prod.mk.injEq]
  constructor
  · linear_combination sin_sq_add_cos_sq yaw
  · ring

/-- Directions turn with the frame: a unit vector of heading `θ` becomes one of the transformed heading. -/
theorem C22_headings (xy : ℝ × ℝ) (yaw θ : ℝ) :
    transformDirection (poseMatrix xy yaw) (heading θ) = heading (transformYaw (poseYaw yaw) θ) := by
  simp only [transformDirection, rotatePoints, poseMatrix, heading, Matrix.of_apply, Matrix.cons_val', Matrix.cons_val_zero,
    Matrix.cons_val_one, cos_neg, sin_neg, Prod.mk.injEq, transformYaw, poseYaw, cos_add, sin_add]
  constructor <;> ring

/-- Directions are not translated: the image of a difference is the difference of the images. -/
theorem C22_directions (xy : ℝ × ℝ) (yaw : ℝ) (p q : ℝ × ℝ) :
    transformDirection (poseMatrix xy yaw) (q - p) =
      transformPoints (poseMatrix xy yaw) q - transformPoints (poseMatrix xy yaw) p := by
  rw [transformPoints_pose, transformPoints_pose]
  simp only [transformDirection, rotatePoints, poseMatrix, Matrix.of_apply, Matrix.cons_val', Matrix.cons_val_zero,
    Matrix.cons_val_one, cos_neg, sin_neg, Prod.fst_sub, Prod.snd_sub, Prod.mk_sub_mk, Prod.mk.injEq]
  constructor <;> ring

/-- Directions keep their length. -/
theorem C22_direction_norm (xy : ℝ × ℝ) (yaw : ℝ) (d : ℝ × ℝ) :
    norm2 (transformDirection (poseMatrix xy yaw) d) = norm2 d := by
  unfold norm2
  congr 1
  simp only [transformDirection, rotatePoints, poseMatrix, Matrix.of_apply, Matrix.cons_val', Matrix.cons_val_zero,
    Matrix.cons_val_one, cos_neg, sin_neg]
  linear_combination (d.1 ^ 2 + d.2 ^ 2) * sin_sq_add_cos_sq yaw

/-- `rotate_points` with `rotation_matrix_2d` turns headings by the angle and keeps lengths. -/
theorem C22_rotate_points (angle θ : ℝ) (p : ℝ × ℝ) :
    rotatePoints (rotationMatrix2d angle) (heading θ) = heading (θ + angle) ∧
    norm2 (rotatePoints (rotationMatrix2d angle) p) = norm2 p := by
  constructor
  · simp only [rotatePoints, rotationMatrix2d, heading, Matrix.of_apply, Matrix.cons_val', Matrix.cons_val_zero,
      Matrix.cons_val_one, Prod.mk.injEq, cos_add, sin_add]
    constructor <;> ring
  · unfold norm2
    congr 1
    simp only [rotatePoints, rotationMatrix2d, Matrix.of_apply, Matrix.cons_val', Matrix.cons_val_zero, Matrix.cons_val_one]
    linear_combination (p.1 ^ 2 + p.2 ^ 2) * sin_sq_add_cos_sq angle

/-- `transform_trajectories`: positions are transformed as points, velocities as directions (so they keep their norm), the
heading is shifted and the size unchanged. -/
theorem C22_trajectories (r : Row7) (xy : ℝ × ℝ) (yaw : ℝ) :
    let r' := transformTrajectories r (poseMatrix xy yaw) (poseYaw yaw)
    r'.xy = transformPoints (poseMatrix xy yaw) r.xy ∧ r'.yaw = r.yaw - yaw ∧ r'.length = r.length ∧ r'.width = r.width ∧
    r'.vel = transformDirection (poseMatrix xy yaw) r.vel ∧ norm2 r'.vel = norm2 r.vel := by
  have hv : (transformTrajectories r (poseMatrix xy yaw) (poseYaw yaw)).vel =
      transformDirection (poseMatrix xy yaw) r.vel := by
    simp only [transformTrajectories]
    have := C22_directions xy yaw (0, 0) r.vel
    simp only [Prod.mk_zero_zero, sub_zero] at this
    rw [this]; rfl
  refine ⟨rfl, by simp [transformTrajectories, poseYaw]; ring, rfl, rfl, hv, ?_⟩
  rw [hv, C22_direction_norm]

/-- The explicit inverse of a pose matrix. -/
noncomputable def unposeMatrix (xy : ℝ × ℝ) (yaw : ℝ) : Matrix (Fin 3) (Fin 3) ℝ :=
  !![cos yaw, -sin yaw, xy.1; sin yaw, cos yaw, xy.2; 0, 0, 1]

theorem poseMatrix_mul_unpose (xy : ℝ × ℝ) (yaw : ℝ) : poseMatrix xy yaw * unposeMatrix xy yaw = 1 := by
  have h := sin_sq_add_cos_sq yaw
  ext i j
  fin_cases i <;> fin_cases j <;>
    simp [poseMatrix, unposeMatrix, Matrix.mul_apply, Fin.sum_univ_three] <;> linarith

theorem poseMatrix_inv (xy : ℝ × ℝ) (yaw : ℝ) : (poseMatrix xy yaw)⁻¹ = unposeMatrix xy yaw :=
  Matrix.inv_eq_right_inv (poseMatrix_mul_unpose xy yaw)

/-- The inverse matrix undoes the frame change, in both directions. -/
theorem C22_inverse (xy : ℝ × ℝ) (yaw : ℝ) (p : ℝ × ℝ) :
    transformPoints (poseMatrix xy yaw)⁻¹ (transformPoints (poseMatrix xy yaw) p) = p ∧
    transformPoints (poseMatrix xy yaw) (transformPoints (poseMatrix xy yaw)⁻¹ p) = p := by
  have h := sin_sq_add_cos_sq yaw
  rw [poseMatrix_inv]
  obtain ⟨p1, p2⟩ := p
  constructor
  · rw [transformPoints_pose]
    simp only [transformPoints, unposeMatrix, Matrix.of_apply, Matrix.cons_val', Matrix.cons_val_zero,
      Matrix.cons_val_one, Prod.mk.injEq, Matrix.cons_val]
    constructor
    · linear_combination (p1 - xy.1) * h
    · linear_combination (p2 - xy.2) * h
  · rw [transformPoints_pose]
    simp only [transformPoints, unposeMatrix, Matrix.of_apply, Matrix.cons_val', Matrix.cons_val_zero,
      Matrix.cons_val_one, Prod.mk.injEq, Matrix.cons_val]
    constructor
    · linear_combination p1 * h
    · linear_combination p2 * h

/-! ### C23: combining poses -/

theorem poseMatrix_mul_inv (a b : ℝ × ℝ) (α β : ℝ) :
    poseMatrix b β * (poseMatrix a α)⁻¹ = poseMatrix (transformPoints (poseMatrix a α) b) (β - α) := by
  have h := sin_sq_add_cos_sq α
  rw [poseMatrix_inv, transformPoints_pose]
  ext i j
  fin_cases i <;> fin_cases j <;>
    simp [poseMatrix, unposeMatrix, Matrix.mul_apply, Fin.sum_univ_three, cos_sub, sin_sub]
  case «0».«2» => linear_combination (cos β * (b.1 - a.1) + sin β * (b.2 - a.2)) * h
  case «1».«2» => linear_combination (cos β * (b.2 - a.2) - sin β * (b.1 - a.1)) * h
  all_goals ring

/-- Combining the poses of two objects gives the pose of the second object as seen in the frame of the first: centre =
coordinates of `dst` in the `src` frame, heading = difference of headings, valid iff both are. -/
theorem C23_combine_is_relative_pose (a b : ℝ × ℝ) (α β : ℝ) (va vb : Bool) :
    combineTwoObjectPose2d (Pose2D.fromCenterAndYaw a α va) (Pose2D.fromCenterAndYaw b β vb) =
      Pose2D.fromCenterAndYaw (transformPoints (poseMatrix a α) b) (β - α) (vb && va) := by
  unfold combineTwoObjectPose2d Pose2D.fromTransformation Pose2D.fromCenterAndYaw
  simp only [poseMatrix_mul_inv, Pose2D.mk.injEq, poseYaw]
  refine ⟨?_, by ring, trivial, by ring, trivial⟩
  have h1 := (C22_ego (transformPoints (poseMatrix a α) b) (β - α)).1
  rw [← h1, (C22_inverse _ _ _).1]

/-- The combined pose sends `src`-frame coordinates of any point to its `dst`-frame coordinates, and likewise for headings and
directions. -/
theorem C23_combine_changes_frame (a b : ℝ × ℝ) (α β : ℝ) (va vb : Bool) (p : ℝ × ℝ) (θ : ℝ) :
    let src := Pose2D.fromCenterAndYaw a α va
    let dst := Pose2D.fromCenterAndYaw b β vb
    let both := combineTwoObjectPose2d src dst
    transformPoints both.matrix (transformPoints src.matrix p) = transformPoints dst.matrix p ∧
    transformDirection both.matrix (transformDirection src.matrix p) = transformDirection dst.matrix p ∧
    transformYaw both.deltaYaw (transformYaw src.deltaYaw θ) = transformYaw dst.deltaYaw θ ∧
    (both.valid = true ↔ src.valid = true ∧ dst.valid = true) := by
  simp only [C23_combine_is_relative_pose]
  have hp : ∀ p, transformPoints (poseMatrix (transformPoints (poseMatrix a α) b) (β - α))
      (transformPoints (poseMatrix a α) p) = transformPoints (poseMatrix b β) p := by
    intro p
    have h := sin_sq_add_cos_sq α
    simp only [transformPoints_pose, Prod.mk.injEq, cos_sub, sin_sub]
    constructor
    · linear_combination ((p.1 - b.1) * cos β + (p.2 - b.2) * sin β) * h
    · linear_combination ((p.2 - b.2) * cos β - (p.1 - b.1) * sin β) * h
  refine ⟨hp p, ?_, ?_, ?_⟩
  · have h1 := C22_directions b β (0, 0) p
    have h2 := C22_directions a α (0, 0) p
    have h3 := C22_directions (transformPoints (poseMatrix a α) b) (β - α)
      (transformPoints (poseMatrix a α) (0, 0)) (transformPoints (poseMatrix a α) p)
    simp only [Prod.mk_zero_zero, sub_zero] at h1 h2 h3
    simp only [Pose2D.fromCenterAndYaw]
    rw [h2, h3, h1, hp, hp]
  · simp only [Pose2D.fromCenterAndYaw, transformYaw, poseYaw]; ring
  · simp [Pose2D.fromCenterAndYaw, and_comm]

/-- Combining is compatible with composition: going from `a` to `b` and then from `b` to `c` is going from `a` to `c`. -/
theorem C23_combine_composes (a b c : ℝ × ℝ) (α β γ : ℝ) (va vb vc : Bool) :
    let pa := Pose2D.fromCenterAndYaw a α va
    let pb := Pose2D.fromCenterAndYaw b β vb
    let pc := Pose2D.fromCenterAndYaw c γ vc
    (combineTwoObjectPose2d pb pc).matrix * (combineTwoObjectPose2d pa pb).matrix = (combineTwoObjectPose2d pa pc).matrix ∧
    (combineTwoObjectPose2d pb pc).deltaYaw + (combineTwoObjectPose2d pa pb).deltaYaw =
      (combineTwoObjectPose2d pa pc).deltaYaw := by
  simp only [combineTwoObjectPose2d, Pose2D.fromTransformation, Pose2D.fromCenterAndYaw]
  constructor
  · have h : (poseMatrix b β)⁻¹ * poseMatrix b β = 1 := by
      rw [poseMatrix_inv]
      exact mul_eq_one_comm.1 (poseMatrix_mul_unpose b β)
    calc poseMatrix c γ * (poseMatrix b β)⁻¹ * (poseMatrix b β * (poseMatrix a α)⁻¹)
        = poseMatrix c γ * ((poseMatrix b β)⁻¹ * poseMatrix b β) * (poseMatrix a α)⁻¹ := by
          simp only [Matrix.mul_assoc]
      _ = _ := by rw [h, Matrix.mul_one]
  · ring

/-! ### C24: bounding box corners -/

/-- The corners are front-right, front-left, rear-left, rear-right of the rectangle. -/
theorem C24_corners (b : Box) :
    cornersFromBbox b 0 = pointAt b.x b.y b.yaw (b.length / 2) (-(b.width / 2)) ∧
    cornersFromBbox b 1 = pointAt b.x b.y b.yaw (b.length / 2) (b.width / 2) ∧
    cornersFromBbox b 2 = pointAt b.x b.y b.yaw (-(b.length / 2)) (b.width / 2) ∧
    cornersFromBbox b 3 = pointAt b.x b.y b.yaw (-(b.length / 2)) (-(b.width / 2)) := by
  simp only [cornersFromBbox, pointAt, heading, leftOf, Matrix.cons_val_zero, Matrix.cons_val_one, Matrix.cons_val,
    Prod.mk.injEq]
  refine ⟨⟨?_, ?_⟩, ⟨?_, ?_⟩, ⟨?_, ?_⟩, ⟨?_, ?_⟩⟩ <;> ring

/-- Centre: the mean of the corners, and opposite corners are symmetric about it. -/
theorem C24_centre (b : Box) :
    (∑ k, (cornersFromBbox b k).1) / 4 = b.x ∧ (∑ k, (cornersFromBbox b k).2) / 4 = b.y ∧
    cornersFromBbox b 0 + cornersFromBbox b 2 = (2 * b.x, 2 * b.y) ∧
    cornersFromBbox b 1 + cornersFromBbox b 3 = (2 * b.x, 2 * b.y) := by
  obtain ⟨h0, h1, h2, h3⟩ := C24_corners b
  simp only [Fin.sum_univ_four, h0, h1, h2, h3, pointAt, Prod.mk_add_mk, Prod.mk.injEq]
  refine ⟨by ring, by ring, ⟨by ring, by ring⟩, ⟨by ring, by ring⟩⟩

theorem dist2_pointAt (x y yaw u v u' v' : ℝ) :
    dist2 (pointAt x y yaw u v) (pointAt x y yaw u' v') = √((u - u') ^ 2 + (v - v') ^ 2) := by
  unfold dist2
  congr 1
  simp only [pointAt, heading, leftOf]
  linear_combination ((u - u') ^ 2 + (v - v') ^ 2) * sin_sq_add_cos_sq yaw

/-- Consecutive corners are `|width|` and `|length|` apart (front and rear sides, left and right sides). -/
theorem C24_side_lengths (b : Box) :
    dist2 (cornersFromBbox b 0) (cornersFromBbox b 1) = |b.width| ∧
    dist2 (cornersFromBbox b 1) (cornersFromBbox b 2) = |b.length| ∧
    dist2 (cornersFromBbox b 2) (cornersFromBbox b 3) = |b.width| ∧
    dist2 (cornersFromBbox b 3) (cornersFromBbox b 0) = |b.length| := by
  obtain ⟨h0, h1, h2, h3⟩ := C24_corners b
  rw [h0, h1, h2, h3]
  simp only [dist2_pointAt]
  refine ⟨?_, ?_, ?_, ?_⟩ <;> rw [← Real.sqrt_sq_eq_abs] <;> congr 1 <;> ring

/-- Signed area by the shoelace formula: positive (counter-clockwise) for positive sides. -/
theorem C24_signed_area (b : Box) :
    (∑ k : Fin 4, ((cornersFromBbox b k).1 * (cornersFromBbox b (k + 1)).2 -
      (cornersFromBbox b (k + 1)).1 * (cornersFromBbox b k).2)) / 2 = b.length * b.width := by
  obtain ⟨h0, h1, h2, h3⟩ := C24_corners b
  have e3 : (3 : Fin 4) + 1 = 0 := rfl
  have e2 : (2 : Fin 4) + 1 = 3 := rfl
  have e1 : (1 : Fin 4) + 1 = 2 := rfl
  have e0 : (0 : Fin 4) + 1 = 1 := rfl
  simp only [Fin.sum_univ_four, e0, e1, e2, e3, h0, h1, h2, h3, pointAt, heading, leftOf]
  linear_combination (b.length * b.width) * sin_sq_add_cos_sq b.yaw

/-- The first side is the front: its midpoint is half a length ahead of the centre. -/
theorem C24_front (b : Box) :
    cornersFromBbox b 0 + cornersFromBbox b 1 =
      (2 * (b.x + b.length / 2 * cos b.yaw), 2 * (b.y + b.length / 2 * sin b.yaw)) := by
  obtain ⟨h0, h1, -, -⟩ := C24_corners b
  simp only [h0, h1, pointAt, heading, leftOf, Prod.mk_add_mk, Prod.mk.injEq]
  constructor <;> ring

/-- A 4 m by 2 m car at (10, 5) heading north: the front-right corner is at (11, 7). -/
example : cornersFromBbox ⟨10, 5, 4, 2, π / 2⟩ 0 = (11, 7) := by
  rw [(C24_corners _).1]; simp [pointAt, heading, leftOf]; norm_num

end Waymax
