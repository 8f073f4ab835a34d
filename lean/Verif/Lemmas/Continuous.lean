import Verif.Model.Continuous
import Verif.Lemmas.Array
import Verif.Props.Frames
/-
Facts about clipping, two-step windows and planar rotations.
-/

namespace Waymax

open Real

theorem clip_id {x lo hi : ℝ} (h1 : lo ≤ x) (h2 : x ≤ hi) : clip x lo hi = x := by
  unfold clip; rw [max_eq_left h1, min_eq_left h2]

theorem clip_mem {x lo hi : ℝ} (h : lo ≤ hi) : lo ≤ clip x lo hi ∧ clip x lo hi ≤ hi := by
  unfold clip; exact ⟨le_min (le_max_right _ _) h, min_le_right _ _⟩

theorem clip_abs {x b : ℝ} (h : 0 ≤ b) : |clip x (-b) b| ≤ b := by
  have := clip_mem (x := x) (lo := -b) (hi := b) (by linarith)
  exact abs_le.2 this

theorem clip_id_abs {x b : ℝ} (h : |x| ≤ b) : clip x (-b) b = x :=
  clip_id (abs_le.1 h).1 (abs_le.1 h).2

theorem window2_eq {β : Type} {T : Nat} [NeZero T] (x : Fin T → β) {t t' : Fin T} (ht : (t' : Nat) = t + 1) :
    window2 x ((t : Nat) : Int) = (x t, x t') := by
  have h2 : 2 ≤ T := by have := t'.isLt; omega
  have hs : startIdx T 2 ((t : Nat) : Int) = t := by
    rw [startIdx_of_inRange (by omega) (by have := t'.isLt; push_cast; omega)]; simp
  unfold window2 dynSlice
  rw [dif_pos h2]
  congr 1
  · congr 1; apply Fin.ext; simp [hs]
  · congr 1; apply Fin.ext; simp [hs, ht]

/-- Rotating by `yaw` after rotating by `-yaw` is the identity. -/
theorem rotate_back (yaw : ℝ) (v : ℝ × ℝ) :
    rotatePoints (rotationMatrix2d yaw) (rotatePoints (rotationMatrix2d (-yaw)) v) = v := by
  have h := sin_sq_add_cos_sq yaw
  simp only [rotatePoints, rotationMatrix2d, Matrix.of_apply, Matrix.cons_val', Matrix.cons_val_zero,
    Matrix.cons_val_one, Matrix.cons_val_fin_one, cos_neg, sin_neg]
  ext
  · simp only []; linear_combination v.1 * h
  · simp only []; linear_combination v.2 * h

theorem rotate_forth (yaw : ℝ) (v : ℝ × ℝ) :
    rotatePoints (rotationMatrix2d (-yaw)) (rotatePoints (rotationMatrix2d yaw) v) = v := by
  simpa using rotate_back (-yaw) v

/-- Rotations keep the norm, hence bound each coordinate. -/
theorem rotate_normSq (yaw : ℝ) (v : ℝ × ℝ) :
    (rotatePoints (rotationMatrix2d yaw) v).1 ^ 2 + (rotatePoints (rotationMatrix2d yaw) v).2 ^ 2 = v.1 ^ 2 + v.2 ^ 2 := by
  have h := sin_sq_add_cos_sq yaw
  simp only [rotatePoints, rotationMatrix2d, Matrix.of_apply, Matrix.cons_val', Matrix.cons_val_zero,
    Matrix.cons_val_one, Matrix.cons_val_fin_one]
  linear_combination (v.1 ^ 2 + v.2 ^ 2) * h

theorem abs_le_of_normSq {a b r : ℝ} (hr : 0 ≤ r) (h : a ^ 2 + b ^ 2 ≤ r ^ 2) : |a| ≤ r ∧ |b| ≤ r := by
  constructor
  · apply abs_le_of_sq_le_sq _ hr; nlinarith [sq_nonneg b]
  · apply abs_le_of_sq_le_sq _ hr; nlinarith [sq_nonneg a]

end Waymax
