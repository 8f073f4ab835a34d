import Verif.Model.Types
import Mathlib.Analysis.SpecialFunctions.Complex.Arg
import Mathlib.LinearAlgebra.Matrix.NonsingularInverse
/-
Model of waymax/utils/geometry.py and of `ObjectPose2D` in waymax/datatypes/observation.py.

Idealised: float32 arrays are real numbers, so rounding, overflow and NaN are not modelled. `vmap` over prefix dimensions is not
modelled; every definition is for one element.
-/

namespace Waymax

open Real

/-- `jnp.arctan2(y, x)`: the argument of the complex number `x + iy`, in `(-π, π]`, `0` at the origin.
Called at waymax/datatypes/object_state.py:207 -/
noncomputable def arctan2 (y x : ℝ) : ℝ := Complex.arg ⟨x, y⟩

/-- Float `%`: Python / JAX remainder with the sign of the divisor. Called at waymax/utils/geometry.py:338 -/
noncomputable def fmod (a b : ℝ) : ℝ := a - b * ⌊a / b⌋

/-- Real scalars. `dt` is `TIME_INTERVAL`, waymax/datatypes/constant.py:27. -/
noncomputable instance : ScalarOps ℝ where
  zero := 0
  invalid := -1
  add := (· + ·)
  mul := (· * ·)
  arctan2 := arctan2
  dt := 0.1

/-- `wrap_yaws`. waymax/utils/geometry.py:336-338 -/
noncomputable def wrapYaws (yaw : ℝ) : ℝ := fmod (yaw + π) (2 * π) - π

/-! ### Rotations and frame changes -/

/-- `rotation_matrix_2d`. waymax/utils/geometry.py:26-44 -/
noncomputable def rotationMatrix2d (angle : ℝ) : Matrix (Fin 2) (Fin 2) ℝ :=
  !![cos angle, -sin angle; sin angle, cos angle]

/-- `rotate_points`, one point. waymax/utils/geometry.py:47-65 -/
def rotatePoints (m : Matrix (Fin 2) (Fin 2) ℝ) (p : ℝ × ℝ) : ℝ × ℝ :=
  (m 0 0 * p.1 + m 0 1 * p.2, m 1 0 * p.1 + m 1 1 * p.2)

/-- `pose_from_xy_yaw`: the homogeneous matrix. waymax/utils/geometry.py:69-114 -/
noncomputable def poseMatrix (xy : ℝ × ℝ) (yaw : ℝ) : Matrix (Fin 3) (Fin 3) ℝ :=
  let poseYaw := -yaw
  let c := cos poseYaw
  let s := sin poseYaw
  !![c, -s, -(c * xy.1 - s * xy.2);
     s, c, -(s * xy.1 + c * xy.2);
     0, 0, 1]

/-- `pose_from_xy_yaw`: the angle. waymax/utils/geometry.py:69-114 -/
def poseYaw (yaw : ℝ) : ℝ := -yaw

/-- `transform_points`, one 2D point: pad with 1, multiply by the matrix, drop the last coordinate.
waymax/utils/geometry.py:117-148 -/
def transformPoints (m : Matrix (Fin 3) (Fin 3) ℝ) (p : ℝ × ℝ) : ℝ × ℝ :=
  (p.1 * m 0 0 + p.2 * m 0 1 + 1 * m 0 2, p.1 * m 1 0 + p.2 * m 1 1 + 1 * m 1 2)

/-- `transform_yaw`. waymax/utils/geometry.py:151-153 -/
def transformYaw (poseYaw yaw : ℝ) : ℝ := yaw + poseYaw

/-- `transform_direction`. waymax/utils/geometry.py:203-218 -/
def transformDirection (m : Matrix (Fin 3) (Fin 3) ℝ) (d : ℝ × ℝ) : ℝ × ℝ :=
  rotatePoints !![m 0 0, m 0 1; m 1 0, m 1 1] d

/-- A 7-dof trajectory point `[x, y, length, width, yaw, vel_x, vel_y]`.
waymax/dynamics/state_dynamics.py:84-95, waymax/datatypes/object_state.py:213-218 -/
structure Row7 where
  xy : ℝ × ℝ
  length : ℝ
  width : ℝ
  yaw : ℝ
  vel : ℝ × ℝ

/-- `transform_trajectories` for 7 degrees of freedom (5 degrees of freedom: the same without the velocity).
waymax/utils/geometry.py:157-199 -/
def transformTrajectories (r : Row7) (m : Matrix (Fin 3) (Fin 3) ℝ) (poseYaw : ℝ) : Row7 :=
  let out := transformPoints m r.vel
  let origin := transformPoints m (0, 0)
  { xy := transformPoints m r.xy, length := r.length, width := r.width, yaw := r.yaw + poseYaw,
    vel := (out.1 - origin.1, out.2 - origin.2) }

/-! ### Object poses -/

/-- `ObjectPose2D`. waymax/datatypes/observation.py:34-88 -/
structure Pose2D where
  originalXy : ℝ × ℝ
  originalYaw : ℝ
  matrix : Matrix (Fin 3) (Fin 3) ℝ
  deltaYaw : ℝ
  valid : Bool

/-- `ObjectPose2D.from_center_and_yaw`. waymax/datatypes/observation.py:98-124 -/
noncomputable def Pose2D.fromCenterAndYaw (xy : ℝ × ℝ) (yaw : ℝ) (valid : Bool := true) : Pose2D :=
  { originalXy := xy, originalYaw := yaw, matrix := poseMatrix xy yaw, deltaYaw := poseYaw yaw, valid := valid }

/-- `ObjectPose2D.from_transformation`; `jnp.linalg.inv` is the exact matrix inverse.
waymax/datatypes/observation.py:126-159 -/
noncomputable def Pose2D.fromTransformation (matrix : Matrix (Fin 3) (Fin 3) ℝ) (deltaYaw : ℝ) (valid : Bool := true) :
    Pose2D :=
  { originalXy := transformPoints matrix⁻¹ (0, 0), originalYaw := -deltaYaw, matrix := matrix, deltaYaw := deltaYaw,
    valid := valid }

/-- `combine_two_object_pose_2d`. waymax/datatypes/observation.py:430-454 -/
noncomputable def combineTwoObjectPose2d (src dst : Pose2D) : Pose2D :=
  Pose2D.fromTransformation (dst.matrix * src.matrix⁻¹) (dst.deltaYaw - src.deltaYaw) (dst.valid && src.valid)

/-! ### Bounding boxes -/

/-- A 5-dof bounding box `[x, y, length, width, yaw]`. waymax/utils/geometry.py:221-246 -/
structure Box where
  x : ℝ
  y : ℝ
  length : ℝ
  width : ℝ
  yaw : ℝ

/-- `corners_from_bbox`. waymax/utils/geometry.py:221-236 -/
noncomputable def cornersFromBbox (b : Box) : Fin 4 → ℝ × ℝ :=
  let c := cos b.yaw
  let s := sin b.yaw
  let lc := b.length / 2 * c
  let ls := b.length / 2 * s
  let wc := b.width / 2 * c
  let ws := b.width / 2 * s
  ![(lc + ws + b.x, ls - wc + b.y),
    (lc - ws + b.x, ls + wc + b.y),
    (-lc - ws + b.x, -ls + wc + b.y),
    (-lc + ws + b.x, -ls - wc + b.y)]

/-- `jnp.min(.., axis=-2)` over the four corners. Called at waymax/utils/geometry.py:287, 290 -/
noncomputable def min4 (f : Fin 4 → ℝ) : ℝ := min (min (f 0) (f 1)) (min (f 2) (f 3))

/-- `jnp.max(.., axis=-2)` over the four corners. Called at waymax/utils/geometry.py:288, 291 -/
noncomputable def max4 (f : Fin 4 → ℝ) : ℝ := max (max (f 0) (f 1)) (max (f 2) (f 3))

/-- `_overlap_a_over_b`: project the corners of both boxes on the two axes of the first one (the columns of `normals_t`).
waymax/utils/geometry.py:265-294 -/
def overlapAOverB (first second : Box) : Prop :=
  let c := cos first.yaw
  let s := sin first.yaw
  let proj : Box → Fin 2 → Fin 4 → ℝ := fun b axis k =>
    let p := cornersFromBbox b k
    if axis = 0 then p.1 * c + p.2 * s else p.1 * (-s) + p.2 * c
  ∀ axis : Fin 2,
    min (max4 (proj first axis)) (max4 (proj second axis)) - max (min4 (proj first axis)) (min4 (proj second axis)) > 0

/-- `has_overlap`. waymax/utils/geometry.py:248-299 -/
def hasOverlap (a b : Box) : Prop := overlapAOverB a b ∧ overlapAOverB b a

/-- `compute_pairwise_overlaps` at one time step; entry `[i, j]` tests box `i` against box `j`.
waymax/utils/geometry.py:303-333 -/
def computePairwiseOverlaps {n : Nat} (traj : Fin n → Box) (i j : Fin n) : Prop :=
  if i = j then False else hasOverlap (traj i) (traj j)

end Waymax
