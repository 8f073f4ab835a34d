import Verif.Props.Delta
import Verif.Props.Episode
/-
C30-C32 and C65: the bicycle model, its inverse and the kinematic infeasibility metric.
-/

namespace Waymax

open Real

/-! ### Facts about headings and speeds -/

theorem norm2_nonneg (v : ℝ × ℝ) : 0 ≤ norm2 v := sqrt_nonneg _

theorem norm2_heading (s yaw : ℝ) : norm2 (s * cos yaw, s * sin yaw) = |s| := by
  unfold norm2
  rw [← sqrt_sq_eq_abs]
  congr 1
  have := sin_sq_add_cos_sq yaw
  simp only []; linear_combination s ^ 2 * this

/-- `arctan2` is the heading of a non-zero vector. -/
theorem arctan2_heading (vx vy : ℝ) :
    vx = norm2 (vx, vy) * cos (arctan2 vy vx) ∧ vy = norm2 (vx, vy) * sin (arctan2 vy vx) := by
  have hn : ‖(⟨vx, vy⟩ : ℂ)‖ = norm2 (vx, vy) := by
    rw [Complex.norm_eq_sqrt_sq_add_sq]; rfl
  unfold arctan2
  rw [← hn]
  exact ⟨(Complex.norm_mul_cos_arg ⟨vx, vy⟩).symm, (Complex.norm_mul_sin_arg ⟨vx, vy⟩).symm⟩

theorem arctan2_agrees {s yaw : ℝ} (hs : 0 < s) : AnglesAgree (arctan2 (s * sin yaw) (s * cos yaw)) yaw := by
  rw [AnglesAgree.heading_iff]
  have h := arctan2_heading (s * cos yaw) (s * sin yaw)
  rw [norm2_heading, abs_of_pos hs] at h
  simp only [heading, Prod.mk.injEq]
  exact ⟨(mul_left_cancel₀ hs.ne' h.1).symm, (mul_left_cancel₀ hs.ne' h.2).symm⟩

section
variable {n T : Nat} [NeZero T]

/-- The acceleration and steering commanded by an action, in physical units and within the limits. -/
theorem bicyclePhysical_bounds (P : BicycleParams) (ha : 0 ≤ P.maxAccel) (hs : 0 ≤ P.maxSteering) (a : AccelSteer) :
    |(bicyclePhysical P a).accel| ≤ P.maxAccel ∧ |(bicyclePhysical P a).steering| ≤ P.maxSteering := by
  unfold bicyclePhysical bicycleClip BicycleParams.accelBound BicycleParams.steeringBound
  cases P.normalizeActions
  · exact ⟨clip_abs ha, clip_abs hs⟩
  · simp only [if_true]
    have h1 : |clip a.accel (-1) 1| ≤ 1 := clip_abs (by norm_num)
    have h2 : |clip a.steering (-1) 1| ≤ 1 := clip_abs (by norm_num)
    rw [abs_mul, abs_mul, abs_of_nonneg ha, abs_of_nonneg hs]
    exact ⟨mul_le_of_le_one_left ha h1, mul_le_of_le_one_left hs h2⟩

/-- C30: for every action, in range or not, and every state: the new velocity is parallel to the new heading; the speed along
the heading differs from the old speed by at most `max_accel * dt`; the heading stays in [-π, π) and changes by at most
`max_steering` times the longest distance `speed * dt + max_accel * dt² / 2`; the position is within `max_accel * dt² / 2` of
the constant-velocity position. -/
theorem C30_limits (P : BicycleParams) (ha : 0 ≤ P.maxAccel) (hs : 0 ≤ P.maxSteering) (hdt : 0 ≤ P.dt)
    (act : Fin n → Act AccelSteer) (cur : Fin n → Pt ℝ) (i : Fin n) :
    let u := (bicycle P).computeUpdate act cur i
    let speed := norm2 ((cur i).velX, (cur i).velY)
    (∃ s, u.velX = s * cos u.yaw ∧ u.velY = s * sin u.yaw ∧ |s - speed| ≤ P.maxAccel * P.dt) ∧
    |norm2 (u.velX, u.velY) - speed| ≤ P.maxAccel * P.dt ∧
    (-π ≤ u.yaw ∧ u.yaw < π) ∧
    (∃ δ, AnglesAgree u.yaw ((cur i).yaw + δ) ∧ |δ| ≤ P.maxSteering * (speed * P.dt + P.maxAccel * P.dt ^ 2 / 2)) ∧
    dist2 (u.x, u.y) ((cur i).x + (cur i).velX * P.dt, (cur i).y + (cur i).velY * P.dt) ≤ P.maxAccel * P.dt ^ 2 / 2 := by
  obtain ⟨hpa, hps⟩ := bicyclePhysical_bounds P ha hs (act i).data
  set a := bicyclePhysical P (act i).data with hadef
  set p := cur i with hp
  have hspeed : 0 ≤ norm2 (p.velX, p.velY) := norm2_nonneg _
  have hacc : |a.accel * P.dt| ≤ P.maxAccel * P.dt := by
    rw [abs_mul, abs_of_nonneg hdt]; exact mul_le_mul_of_nonneg_right hpa hdt
  have hsp : norm2 (p.velX, p.velY) = √(p.velX ^ 2 + p.velY ^ 2) := rfl
  intro u speed
  have hu : u = bicycleUpdate P (act i) p := rfl
  have hvx : u.velX = (speed + a.accel * P.dt) * cos u.yaw := rfl
  have hvy : u.velY = (speed + a.accel * P.dt) * sin u.yaw := rfl
  refine ⟨⟨speed + a.accel * P.dt, hvx, hvy, ?_⟩, ?_, ?_, ⟨a.steering * (speed * P.dt + 0.5 * a.accel * P.dt ^ 2), ?_, ?_⟩, ?_⟩
  · rw [add_sub_cancel_left]; exact hacc
  · rw [hvx, hvy, norm2_heading]
    have h1 : |(|speed + a.accel * P.dt| - |speed|)| ≤ |(speed + a.accel * P.dt) - speed| := abs_abs_sub_abs_le _ _
    rw [abs_of_nonneg hspeed, add_sub_cancel_left] at h1
    exact h1.trans hacc
  · exact C21_wrap_range _
  · exact wrap_agrees _
  · rw [abs_mul]
    refine mul_le_mul hps ?_ (abs_nonneg _) hs
    have h1 : |speed * P.dt + 0.5 * a.accel * P.dt ^ 2| ≤ |speed * P.dt| + |0.5 * a.accel * P.dt ^ 2| := abs_add_le _ _
    rw [abs_of_nonneg (mul_nonneg hspeed hdt)] at h1
    have h2 : |0.5 * a.accel * P.dt ^ 2| ≤ P.maxAccel * P.dt ^ 2 / 2 := by
      rw [abs_mul, abs_mul, abs_of_nonneg (by norm_num : (0 : ℝ) ≤ 0.5), abs_of_nonneg (sq_nonneg P.dt)]
      nlinarith [sq_nonneg P.dt]
    linarith
  · have hx : u.x - (p.x + p.velX * P.dt) = (0.5 * a.accel * P.dt ^ 2) * cos p.yaw := by
      change p.x + p.velX * P.dt + 0.5 * a.accel * cos p.yaw * P.dt ^ 2 - (p.x + p.velX * P.dt) = _; ring
    have hy : u.y - (p.y + p.velY * P.dt) = (0.5 * a.accel * P.dt ^ 2) * sin p.yaw := by
      change p.y + p.velY * P.dt + 0.5 * a.accel * sin p.yaw * P.dt ^ 2 - (p.y + p.velY * P.dt) = _; ring
    have : dist2 (u.x, u.y) (p.x + p.velX * P.dt, p.y + p.velY * P.dt)
        = norm2 ((0.5 * a.accel * P.dt ^ 2) * cos p.yaw, (0.5 * a.accel * P.dt ^ 2) * sin p.yaw) := by
      unfold dist2 norm2; rw [hx, hy]
    rw [this, norm2_heading, abs_mul, abs_mul, abs_of_nonneg (by norm_num : (0 : ℝ) ≤ 0.5), abs_of_nonneg (sq_nonneg P.dt)]
    nlinarith [sq_nonneg P.dt]

/-- C30: with zero acceleration and steering, a vehicle moving along its heading goes on in a straight line: it advances by
`speed * dt` along its heading and keeps velocity and heading. -/
theorem C30_straight (P : BicycleParams) (ha : 0 ≤ P.maxAccel) (hs : 0 ≤ P.maxSteering)
    (act : Fin n → Act AccelSteer) (cur : Fin n → Pt ℝ) (i : Fin n) (h0 : (act i).data = { accel := 0, steering := 0 })
    {speed : ℝ} (hsp : 0 ≤ speed) (hvx : (cur i).velX = speed * cos (cur i).yaw)
    (hvy : (cur i).velY = speed * sin (cur i).yaw) :
    let u := (bicycle P).computeUpdate act cur i
    (u.x, u.y) = pointAt (cur i).x (cur i).y (cur i).yaw (speed * P.dt) 0 ∧
    u.velX = (cur i).velX ∧ u.velY = (cur i).velY ∧ AnglesAgree u.yaw (cur i).yaw ∧
    u.valid = ((cur i).valid && (act i).valid) := by
  have hphys : bicyclePhysical P { accel := 0, steering := 0 } = { accel := 0, steering := 0 } := by
    unfold bicyclePhysical bicycleClip BicycleParams.accelBound BicycleParams.steeringBound
    cases P.normalizeActions
    · simp only [Bool.false_eq_true, if_false]
      rw [clip_id (by linarith) ha, clip_id (by linarith) hs]
    · simp only [if_true]
      rw [clip_id (by norm_num) (by norm_num)]; simp
  have hn : √((cur i).velX ^ 2 + (cur i).velY ^ 2) = speed := by
    have := norm2_heading speed (cur i).yaw
    rw [abs_of_nonneg hsp] at this
    rw [hvx, hvy]; exact this
  have hh := C21_wrap_same_heading (cur i).yaw
  simp only [heading, Prod.mk.injEq] at hh
  simp only [bicycle, DynamicsModel.ofSingle, bicycleUpdate, h0, hphys, hn, zero_mul, mul_zero, add_zero, hh.1, hh.2]
  refine ⟨?_, hvx.symm, hvy.symm, wrap_agrees _, trivial⟩
  simp only [pointAt, heading, leftOf, zero_mul, add_zero, hvx, hvy, Prod.mk.injEq]
  exact ⟨by ring, by ring⟩

/-- Non-vacuity: 10 m/s at heading 1. -/
example :
    let u := (bicycle (n := 1) {}).computeUpdate (fun _ => { data := { accel := 0, steering := 0 }, valid := true })
      (fun _ => ptAt 0 0 1 (10 * cos 1) (10 * sin 1)) 0
    (u.x, u.y) = pointAt 0 0 1 (10 * 0.1) 0 :=
  (C30_straight (n := 1) {} (by norm_num) (by norm_num) (fun _ => { data := { accel := 0, steering := 0 }, valid := true })
    (fun _ => ptAt 0 0 1 (10 * cos 1) (10 * sin 1)) 0 rfl (speed := 10) (by norm_num) rfl rfl).1

/-! ### C65: braking -/

/-- C65, full expectation: a vehicle moving forwards along its heading never ends up moving backwards. -/
def C65_full : Prop :=
  ∀ (P : BicycleParams), 0 ≤ P.maxAccel → 0 ≤ P.maxSteering → 0 < P.dt → ∀ (act : Act AccelSteer) (p : Pt ℝ) (speed : ℝ),
    0 ≤ speed → p.velX = speed * cos p.yaw → p.velY = speed * sin p.yaw →
    let u := (bicycle (n := 1) P).computeUpdate (fun _ => act) (fun _ => p) 0
    0 ≤ u.velX * cos u.yaw + u.velY * sin u.yaw

/-- C65: a parked vehicle that brakes with the default parameters drives backwards at 0.6 m/s. -/
theorem C65_violated : ¬ C65_full := by
  intro h
  have := h {} (by norm_num) (by norm_num) (by norm_num) { data := { accel := -6, steering := 0 }, valid := true }
    (ptAt 0 0 0 0 0) 0 (le_refl _) (by simp [ptAt]) (by simp [ptAt])
  have hc : clip (-6) (-6) 6 = -6 := clip_id (by norm_num) (by norm_num)
  have hw : wrapYaws 0 = 0 := C21_wrap_id (by linarith [pi_pos]) pi_pos
  have hc0 : clip 0 (-0.3) 0.3 = 0 := clip_id (by norm_num) (by norm_num)
  simp only [bicycle, DynamicsModel.ofSingle, bicycleUpdate, bicyclePhysical, bicycleClip, BicycleParams.accelBound,
    BicycleParams.steeringBound, ptAt, Bool.false_eq_true, if_false, hc, hc0, zero_mul, add_zero, hw, cos_zero, sin_zero] at this
  norm_num at this

/-- C65: what holds: no reversal when the current speed is at least what the strongest braking can remove in one step. Missing:
lower speeds, where braking reverses the vehicle (`C65_violated`). -/
theorem C65_no_reverse_partial (P : BicycleParams) (ha : 0 ≤ P.maxAccel) (hs : 0 ≤ P.maxSteering) (hdt : 0 ≤ P.dt)
    (act : Fin n → Act AccelSteer) (cur : Fin n → Pt ℝ) (i : Fin n)
    (hfast : P.maxAccel * P.dt ≤ norm2 ((cur i).velX, (cur i).velY)) :
    let u := (bicycle P).computeUpdate act cur i
    0 ≤ u.velX * cos u.yaw + u.velY * sin u.yaw := by
  obtain ⟨⟨s, h1, h2, h3⟩, -⟩ := C30_limits P ha hs hdt act cur i
  intro u
  change u.velX = s * cos u.yaw at h1
  change u.velY = s * sin u.yaw at h2
  have h4 := sin_sq_add_cos_sq u.yaw
  have : u.velX * cos u.yaw + u.velY * sin u.yaw = s := by rw [h1, h2]; linear_combination s * h4
  rw [this]
  have := abs_le.1 h3
  linarith

example : ({} : BicycleParams).maxAccel * ({} : BicycleParams).dt ≤ norm2 (3, 4) := by
  have : norm2 (3, 4) = 5 := by
    unfold norm2; rw [show (3 : ℝ) ^ 2 + 4 ^ 2 = 5 ^ 2 by norm_num]; exact sqrt_sq (by norm_num)
  rw [this]; norm_num

/-! ### C31: the inverse -/

/-- What `compute_inverse` returns for a transition of the bicycle model whose two speeds are at least the cut-off. -/
theorem inversePair_of_update (P : BicycleParams) (hdt : 0 < P.dt) (a : AccelSteer) (p q : Pt ℝ)
    (hspeed : 0.6 ≤ norm2 (p.velX, p.velY)) (hnew : 0.6 ≤ norm2 (p.velX, p.velY) + a.accel * P.dt)
    (hqx : q.velX = (norm2 (p.velX, p.velY) + a.accel * P.dt) * cos q.yaw)
    (hqy : q.velY = (norm2 (p.velX, p.velY) + a.accel * P.dt) * sin q.yaw)
    (hyaw : AnglesAgree q.yaw (p.yaw + a.steering * (norm2 (p.velX, p.velY) * P.dt + 0.5 * a.accel * P.dt ^ 2))) :
    (bicycleInversePair P.dt true p q).accel = a.accel ∧ (bicycleInversePair P.dt true p q).steering =
      wrapYaws (a.steering * (norm2 (p.velX, p.velY) * P.dt + 0.5 * a.accel * P.dt ^ 2)) /
        (norm2 (p.velX, p.velY) * P.dt + 0.5 * a.accel * P.dt ^ 2) := by
  set v := norm2 (p.velX, p.velY) with hv
  set w := v + a.accel * P.dt with hw
  have hw0 : 0 < w := by linarith
  have hs1 : √(p.velX ^ 2 + p.velY ^ 2) = v := rfl
  have hs2 : √(q.velX ^ 2 + q.velY ^ 2) = w := by
    have := norm2_heading w q.yaw
    rw [abs_of_pos hw0] at this
    rw [hqx, hqy]; exact this
  have hacc : (w - v) / P.dt = a.accel := by rw [hw]; field_simp; ring
  have hreal : AnglesAgree (if |w| ≤ 0.6 then wrapYaws q.yaw else arctan2 q.velY q.velX) q.yaw := by
    split
    · exact wrap_agrees _
    · rw [hqx, hqy]; exact arctan2_agrees hw0
  unfold bicycleInversePair
  simp only [hs1, hs2, hacc, if_true, true_and]
  rw [if_neg (by rw [abs_of_pos hw0]; linarith), if_neg (by rw [abs_of_pos (by linarith)]; linarith)]
  congr 1
  obtain ⟨k1, h1⟩ := hreal
  obtain ⟨k2, h2⟩ := wrap_agrees p.yaw
  obtain ⟨k3, h3⟩ := hyaw
  rw [h1, h2, h3]
  have : p.yaw + a.steering * (v * P.dt + 0.5 * a.accel * P.dt ^ 2) + ↑k3 * (2 * π) + ↑k1 * (2 * π) - (p.yaw + ↑k2 * (2 * π))
      = a.steering * (v * P.dt + 0.5 * a.accel * P.dt ^ 2) + ((k3 + k1 - k2 : ℤ) : ℝ) * (2 * π) := by push_cast; ring
  rw [this, C21_wrap_periodic]

/-- C31: the inverse returns the action that produced the transition: for every in-spec action, parameters whose strongest
braking removes less than 1.2 m/s per step, speeds at or above 0.6 m/s and a heading change below π. `acc` and `steer` are the
action in physical units. -/
theorem C31_recovers (P : BicycleParams) (hdt : 0 < P.dt) (ha : 0 < P.maxAccel) (hs : 0 < P.maxSteering)
    (hcut : P.maxAccel * P.dt < 1.2)
    (traj : Traj ℝ n T) (md : Fin n → ObjMeta) {t t' : Fin T} (ht : (t' : Nat) = t + 1) (i : Fin n)
    (hv : (traj i t).valid = true) (hv' : (traj i t').valid = true)
    (act : Fin n → Act AccelSteer) (hin : P.inSpec (act i).data)
    (hx : (traj i t').velX = ((bicycle P).computeUpdate act (fun j => traj j t) i).velX)
    (hy : (traj i t').velY = ((bicycle P).computeUpdate act (fun j => traj j t) i).velY)
    (hyaw : (traj i t').yaw = ((bicycle P).computeUpdate act (fun j => traj j t) i).yaw)
    (hspeed : 0.6 ≤ norm2 ((traj i t).velX, (traj i t).velY))
    (hnew : 0.6 ≤ norm2 ((traj i t').velX, (traj i t').velY))
    (hturn :
      let acc := if P.normalizeActions then (act i).data.accel * P.maxAccel else (act i).data.accel
      let steer := if P.normalizeActions then (act i).data.steering * P.maxSteering else (act i).data.steering
      |steer * (norm2 ((traj i t).velX, (traj i t).velY) * P.dt + acc * P.dt ^ 2 / 2)| < π) :
    (bicycle P).inverse traj md t i = { data := (act i).data, valid := true } := by
  obtain ⟨hb, -⟩ := bicyclePhysical_bounds P ha.le hs.le (act i).data
  obtain ⟨⟨h1, h2⟩, h3, h4⟩ := hin
  have hclip : bicycleClip P (act i).data = (act i).data := by
    unfold bicycleClip; rw [clip_id h1 h2, clip_id h3 h4]
  set a := bicyclePhysical P (act i).data with hadef
  have hacc : a.accel = if P.normalizeActions then (act i).data.accel * P.maxAccel else (act i).data.accel := by
    rw [hadef]; unfold bicyclePhysical; rw [hclip]; cases P.normalizeActions <;> rfl
  have hste : a.steering = if P.normalizeActions then (act i).data.steering * P.maxSteering else (act i).data.steering := by
    rw [hadef]; unfold bicyclePhysical; rw [hclip]; cases P.normalizeActions <;> rfl
  simp only [← hacc, ← hste] at hturn
  set p := traj i t with hp
  set q := traj i t' with hq
  set v := norm2 (p.velX, p.velY) with hvdef
  have hqx : q.velX = (v + a.accel * P.dt) * cos q.yaw := by rw [hyaw, hx]; rfl
  have hqy : q.velY = (v + a.accel * P.dt) * sin q.yaw := by rw [hyaw, hy]; rfl
  have hyaw' : AnglesAgree q.yaw (p.yaw + a.steering * (v * P.dt + 0.5 * a.accel * P.dt ^ 2)) := by
    rw [hyaw]; exact wrap_agrees _
  rw [hqx, hqy, norm2_heading] at hnew
  have hw : 0.6 ≤ v + a.accel * P.dt := by
    rcases le_abs'.1 hnew with h | h
    · have := (abs_le.1 hb).1
      nlinarith
    · exact h
  obtain ⟨hpa, hps⟩ := inversePair_of_update P hdt a p q hspeed hw hqx hqy hyaw'
  have hdist : v * P.dt + 0.5 * a.accel * P.dt ^ 2 ≠ 0 := by
    have : 0 < (v + (v + a.accel * P.dt)) * P.dt := mul_pos (by linarith) hdt
    nlinarith
  have hturn' : |a.steering * (v * P.dt + 0.5 * a.accel * P.dt ^ 2)| < π := by
    convert hturn using 4; ring
  rw [C21_wrap_id (abs_lt.1 hturn').1.le (abs_lt.1 hturn').2, mul_div_cancel_right₀ _ hdist] at hps
  simp only [bicycle, DynamicsModel.ofSingle, bicycleInverse, bicycleComputeInverse, window2_eq _ ht, ← hp, ← hq, hv, hv',
    Bool.and_self, if_true, hpa, hps]
  have hab : bicycleInversePair P.dt true p q = a := congrArg₂ AccelSteer.mk hpa hps
  rw [hab]
  have : (if P.normalizeActions then { accel := a.accel / P.maxAccel, steering := a.steering / P.maxSteering } else a)
      = (act i).data := by
    cases hn : P.normalizeActions
    · simp only [hn, Bool.false_eq_true, if_false] at hacc hste ⊢
      exact congrArg₂ AccelSteer.mk hacc hste
    · simp only [hn, if_true] at hacc hste ⊢
      rw [hacc, hste, mul_div_cancel_right₀ _ ha.ne', mul_div_cancel_right₀ _ hs.ne']
  rw [this, hclip]

/-- C31: below the cut-off at either step the inferred steering is 0, for any two consecutive steps (valid or not). -/
theorem C31_low_speed (P : BicycleParams) (hs : 0 ≤ P.maxSteering)
    (traj : Traj ℝ n T) (md : Fin n → ObjMeta) {t t' : Fin T} (ht : (t' : Nat) = t + 1) (i : Fin n)
    (hlow : norm2 ((traj i t).velX, (traj i t).velY) < 0.6 ∨ norm2 ((traj i t').velX, (traj i t').velY) < 0.6) :
    ((bicycle P).inverse traj md t i).data.steering = 0 := by
  have h1 : |√((traj i t).velX ^ 2 + (traj i t).velY ^ 2)| = norm2 ((traj i t).velX, (traj i t).velY) :=
    abs_of_nonneg (sqrt_nonneg _)
  have h2 : |√((traj i t').velX ^ 2 + (traj i t').velY ^ 2)| = norm2 ((traj i t').velX, (traj i t').velY) :=
    abs_of_nonneg (sqrt_nonneg _)
  have h0 : ((bicycleComputeInverse (traj i) t P.dt).data).steering = 0 := by
    simp only [bicycleComputeInverse, window2_eq _ ht]
    split
    · simp only [bicycleInversePair, h1, h2]
      split
      · rfl
      · split
        · rfl
        · rcases hlow with h | h <;> contradiction
    · rfl
  have hb : 0 ≤ P.steeringBound := by
    unfold BicycleParams.steeringBound; split <;> linarith
  simp only [bicycle, DynamicsModel.ofSingle, bicycleInverse, bicycleClip]
  split
  · rw [h0]; simp only [zero_div]; exact clip_id (by linarith) hb
  · rw [h0]; exact clip_id (by linarith) hb

/-- C31: the inverse action always lies in the action spec, at every time index and for every trajectory. -/
theorem C31_in_spec (P : BicycleParams) (ha : 0 ≤ P.maxAccel) (hs : 0 ≤ P.maxSteering) (traj : Traj ℝ n T)
    (md : Fin n → ObjMeta) (t : Int) (i : Fin n) : P.inSpec ((bicycle P).inverse traj md t i).data := by
  have h1 : 0 ≤ P.accelBound := by unfold BicycleParams.accelBound; split <;> linarith
  have h2 : 0 ≤ P.steeringBound := by unfold BicycleParams.steeringBound; split <;> linarith
  exact ⟨clip_mem (by linarith), clip_mem (by linarith)⟩

/-- C31: valid exactly when both steps are valid; zero when not. -/
theorem C31_invalid (P : BicycleParams) (ha : 0 ≤ P.maxAccel) (hs : 0 ≤ P.maxSteering) (traj : Traj ℝ n T)
    (md : Fin n → ObjMeta) {t t' : Fin T} (ht : (t' : Nat) = t + 1) (i : Fin n) :
    let a := (bicycle P).inverse traj md t i
    (a.valid = true ↔ (traj i t).valid = true ∧ (traj i t').valid = true) ∧
    (a.valid = false → a.data = { accel := 0, steering := 0 }) := by
  have h1 : 0 ≤ P.accelBound := by unfold BicycleParams.accelBound; split <;> linarith
  have h2 : 0 ≤ P.steeringBound := by unfold BicycleParams.steeringBound; split <;> linarith
  simp only [bicycle, DynamicsModel.ofSingle, bicycleInverse, bicycleComputeInverse, window2_eq _ ht]
  refine ⟨Bool.and_eq_true_iff, fun h => ?_⟩
  simp only [h, Bool.false_eq_true, if_false, bicycleClip]
  split <;> simp only [zero_div] <;> rw [clip_id (by linarith) h1, clip_id (by linarith) h2]

/-- Non-vacuity of `C31_recovers`: 10 m/s, acceleration 1, steering 0.1, with the default and with the normalised spec. -/
example (norm : Bool) :
    let P : BicycleParams := { normalizeActions := norm }
    let act : Act AccelSteer := { data := { accel := 1, steering := 0.1 }, valid := true }
    let p := ptAt 0 0 0 10 0
    let u := bicycleUpdate P act p
    (bicycle P).inverse (twoSteps p (ptAt u.x u.y u.yaw u.velX u.velY)) soloMeta (0 : Fin 2) 0 =
      { data := { accel := 1, steering := 0.1 }, valid := true } := by
  intro P act p u
  have hn : norm2 (10, 0) = 10 := by
    unfold norm2; rw [show (10 : ℝ) ^ 2 + 0 ^ 2 = 10 ^ 2 by norm_num]; exact sqrt_sq (by norm_num)
  refine C31_recovers P (by norm_num [P]) (by norm_num [P]) (by norm_num [P]) (by norm_num [P])
    (twoSteps p (ptAt u.x u.y u.yaw u.velX u.velY)) soloMeta (t := 0) (t' := 1) rfl 0 rfl rfl (fun _ => act) ?_ rfl rfl rfl ?_ ?_ ?_
  · cases norm <;> norm_num [P, act, BicycleParams.inSpec, BicycleParams.accelBound, BicycleParams.steeringBound]
  · change 0.6 ≤ norm2 (10, 0); rw [hn]; norm_num
  · obtain ⟨-, h, -⟩ := C30_limits (n := 1) P (by norm_num [P]) (by norm_num [P]) (by norm_num [P]) (fun _ => act) (fun _ => p) 0
    change |norm2 (u.velX, u.velY) - norm2 (10, 0)| ≤ _ at h
    rw [hn] at h
    change 0.6 ≤ norm2 (u.velX, u.velY)
    have := (abs_le.1 h).1
    norm_num [P] at this ⊢
    linarith
  · have h10 : norm2 ((twoSteps p (ptAt u.x u.y u.yaw u.velX u.velY) 0 0).velX,
      (twoSteps p (ptAt u.x u.y u.yaw u.velX u.velY) 0 0).velY) = 10 := hn
    have hpi := Real.one_le_pi_div_two
    rw [h10]
    cases norm <;> norm_num [P, act, abs_lt] <;> linarith

/-! ### C32: kinematic infeasibility -/

/-- The steering inferred for a pair of steps, in terms of speeds, directions and the mean-speed distance. -/
theorem inversePair_steering {dt : ℝ} (hdt : 0 < dt) (p q : Pt ℝ) (ψ δ : ℝ) :
    let v := norm2 (p.velX, p.velY)
    let w := norm2 (q.velX, q.velY)
    0.6 ≤ v → 0.6 ≤ w →
    (if w = 0.6 then ψ = q.yaw else q.velX = w * cos ψ ∧ q.velY = w * sin ψ) →
    -π ≤ δ → δ < π → AnglesAgree (p.yaw + δ) ψ →
    (bicycleInversePair dt true p q).steering = δ / ((v + w) / 2 * dt) := by
  intro v w hv hw hψ h1 h2 hδ
  have hs1 : √(p.velX ^ 2 + p.velY ^ 2) = v := rfl
  have hs2 : √(q.velX ^ 2 + q.velY ^ 2) = w := rfl
  unfold bicycleInversePair
  simp only [hs1, hs2, if_true]
  rw [if_neg (by rw [abs_of_nonneg (by linarith)]; linarith), if_neg (by rw [abs_of_nonneg (by linarith)]; linarith)]
  have hreal : AnglesAgree (if |w| ≤ 0.6 then wrapYaws q.yaw else arctan2 q.velY q.velX) ψ := by
    rw [abs_of_nonneg (by linarith : 0 ≤ w)]
    by_cases hw6 : w = 0.6
    · rw [if_pos hw6] at hψ
      rw [if_pos hw6.le, hψ]; exact wrap_agrees _
    · rw [if_neg hw6] at hψ
      have hgt : 0.6 < w := lt_of_le_of_ne hw (Ne.symm hw6)
      rw [if_neg (by linarith), hψ.1, hψ.2]
      exact arctan2_agrees (by linarith)
  congr 1
  · symm
    rw [C21_wrap_unique]
    refine ⟨h1, h2, ?_⟩
    obtain ⟨k1, e1⟩ := hreal
    obtain ⟨k2, e2⟩ := wrap_agrees p.yaw
    obtain ⟨k3, e3⟩ := hδ
    refine ⟨k1 - k2 - k3, ?_⟩
    rw [e1, e2]; push_cast; linarith
  · field_simp; ring

/-- C32: the metric value is 0 or 1, and for the transition from step `t` to the current step `t'` it is 1 exactly when both
steps are valid and either the speed changes by more than `(max_acc + 0.001) * dt`, or both speeds are at least 0.6 m/s and the
heading change `δ` in [-π, π), measured towards the direction of the new velocity (or the recorded heading when the new speed
is exactly 0.6), exceeds `max_steering + 0.001` per metre of the mean-speed distance. -/
theorem C32_metric_iff (K : KimParams) (hdt : 0 < K.dt) (ha : 0 ≤ K.maxAcc) (hs : 0 ≤ K.maxSteering)
    (s : SimState ℝ n T) {t t' : Fin T} (ht : (t' : Nat) = t + 1) (hnow : (t' : Int) = s.timestep) (i : Fin n) :
    let p := s.simTrajectory i t
    let q := s.simTrajectory i t'
    let v := norm2 (p.velX, p.velY)
    let w := norm2 (q.velX, q.velY)
    let r := kinematicsInfeasibilityMetric K s i
    (r.value = 0 ∨ r.value = 1) ∧ (r.valid = true ↔ p.valid = true ∧ q.valid = true) ∧
    (r.value = 1 ↔ (p.valid = true ∧ q.valid = true) ∧
      (|w - v| > (K.maxAcc + 0.001) * K.dt ∨
        (0.6 ≤ v ∧ 0.6 ≤ w ∧ ∃ ψ δ : ℝ,
          (if w = 0.6 then ψ = q.yaw else q.velX = w * cos ψ ∧ q.velY = w * sin ψ) ∧
          -π ≤ δ ∧ δ < π ∧ AnglesAgree (p.yaw + δ) ψ ∧
          |δ| > (K.maxSteering + 0.001) * ((v + w) / 2 * K.dt)))) := by
  intro p q v w r
  have hwin : window2 (s.simTrajectory i) (s.timestep - 1) = (p, q) := by
    have : s.timestep - 1 = ((t : Nat) : Int) := by omega
    rw [this]; exact window2_eq _ ht
  have hv0 : 0 ≤ v := norm2_nonneg _
  have hw0 : 0 ≤ w := norm2_nonneg _
  have hcomp : bicycleComputeInverse (s.simTrajectory i) (s.timestep - 1) K.dt =
      { data := if (p.valid && q.valid) then bicycleInversePair K.dt true p q else { accel := 0, steering := 0 },
        valid := p.valid && q.valid } := by
    simp only [bicycleComputeInverse, hwin]
  refine ⟨?_, ?_, ?_⟩
  · change (if _ then (1 : ℝ) else 0) = 0 ∨ (if _ then (1 : ℝ) else 0) = 1
    split
    · exact Or.inr rfl
    · exact Or.inl rfl
  · change (bicycleComputeInverse (s.simTrajectory i) (s.timestep - 1) K.dt).valid = true ↔ _
    rw [hcomp]
    exact Bool.and_eq_true_iff
  · have h1 : r.value = 1 ↔ (|(bicycleComputeInverse (s.simTrajectory i) (s.timestep - 1) K.dt).data.accel| > K.maxAcc + 1e-3 ∨
        |(bicycleComputeInverse (s.simTrajectory i) (s.timestep - 1) K.dt).data.steering| > K.maxSteering + 1e-3) := by
      change (if _ then (1 : ℝ) else 0) = 1 ↔ _
      split <;> rename_i h
      · simp only [true_iff]; exact h
      · simp only [zero_ne_one, false_iff]; exact h
    rw [h1, hcomp]
    by_cases hval : (p.valid && q.valid) = true
    · simp only [hval, if_true]
      have hval' := Bool.and_eq_true_iff.1 hval
      have hacc : |(bicycleInversePair K.dt true p q).accel| > K.maxAcc + 1e-3 ↔ |w - v| > (K.maxAcc + 0.001) * K.dt := by
        change |(w - v) / K.dt| > K.maxAcc + 1e-3 ↔ _
        rw [abs_div, abs_of_pos hdt, gt_iff_lt, lt_div_iff₀ hdt]
      have hste : |(bicycleInversePair K.dt true p q).steering| > K.maxSteering + 1e-3 ↔
          (0.6 ≤ v ∧ 0.6 ≤ w ∧ ∃ ψ δ : ℝ,
          (if w = 0.6 then ψ = q.yaw else q.velX = w * cos ψ ∧ q.velY = w * sin ψ) ∧
          -π ≤ δ ∧ δ < π ∧ AnglesAgree (p.yaw + δ) ψ ∧
          |δ| > (K.maxSteering + 0.001) * ((v + w) / 2 * K.dt)) := by
        have hlow : (v < 0.6 ∨ w < 0.6) → (bicycleInversePair K.dt true p q).steering = 0 := by
          intro hl
          have e1 : |√(p.velX ^ 2 + p.velY ^ 2)| = v := abs_of_nonneg hv0
          have e2 : |√(q.velX ^ 2 + q.velY ^ 2)| = w := abs_of_nonneg hw0
          simp only [bicycleInversePair, e1, e2]
          split
          · rfl
          · split
            · rfl
            · rcases hl with h | h <;> contradiction
        by_cases hv6 : 0.6 ≤ v
        · by_cases hw6 : 0.6 ≤ w
          · have hd : 0 < (v + w) / 2 * K.dt := mul_pos (by linarith) hdt
            have main : ∀ ψ δ : ℝ, (if w = 0.6 then ψ = q.yaw else q.velX = w * cos ψ ∧ q.velY = w * sin ψ) →
                -π ≤ δ → δ < π → AnglesAgree (p.yaw + δ) ψ →
                (|(bicycleInversePair K.dt true p q).steering| > K.maxSteering + 1e-3 ↔
                  |δ| > (K.maxSteering + 0.001) * ((v + w) / 2 * K.dt)) := by
              intro ψ δ a1 a2 a3 a4
              rw [inversePair_steering hdt p q ψ δ hv6 hw6 a1 a2 a3 a4]
              change |δ / ((v + w) / 2 * K.dt)| > _ ↔ _
              rw [abs_div, abs_of_pos hd, gt_iff_lt, lt_div_iff₀ hd]
            constructor
            · intro h
              refine ⟨hv6, hw6, ?_⟩
              let ψ := if w = 0.6 then q.yaw else arctan2 q.velY q.velX
              have hψ : (if w = 0.6 then ψ = q.yaw else q.velX = w * cos ψ ∧ q.velY = w * sin ψ) := by
                by_cases hw6' : w = 0.6
                · simp only [ψ, if_pos hw6']
                · simp only [ψ, if_neg hw6']
                  exact arctan2_heading _ _
              have hag : AnglesAgree (p.yaw + wrapYaws (ψ - p.yaw)) ψ := by
                obtain ⟨k, hk⟩ := wrap_agrees (ψ - p.yaw)
                exact ⟨k, by rw [hk]; ring⟩
              obtain ⟨r1, r2⟩ := C21_wrap_range (ψ - p.yaw)
              exact ⟨ψ, wrapYaws (ψ - p.yaw), hψ, r1, r2, hag, (main ψ _ hψ r1 r2 hag).1 h⟩
            · rintro ⟨-, -, ψ, δ, a1, a2, a3, a4, a5⟩
              exact (main ψ δ a1 a2 a3 a4).2 a5
          · rw [hlow (Or.inr (not_le.1 hw6))]
            constructor
            · intro h; rw [abs_zero] at h; linarith
            · rintro ⟨-, h, -⟩; exact absurd h hw6
        · rw [hlow (Or.inl (not_le.1 hv6))]
          constructor
          · intro h; rw [abs_zero] at h; linarith
          · rintro ⟨h, -⟩; exact absurd h hv6
      rw [hacc, hste]
      constructor
      · intro h; exact ⟨hval', h⟩
      · rintro ⟨-, h⟩; exact h
    · simp only [hval]
      constructor
      · rintro (h | h)
        · simp only [Bool.false_eq_true, if_false, abs_zero] at h; linarith
        · simp only [Bool.false_eq_true, if_false, abs_zero] at h; linarith
      · rintro ⟨h, -⟩; exact absurd (Bool.and_eq_true_iff.2 h) hval

/-- C32: a transition made by `BaseEnvironment.step` with the bicycle model is never flagged for a controlled object, for any
action, provided the model's limits do not exceed the metric's, both use the same `dt`, and the strongest braking removes less
than 1.2 m/s per step (as with all limits up to the metric's default 10.4 m/s² at 10 Hz). -/
theorem C32_bicycle_feasible (P : BicycleParams) (K : KimParams) (hdt : 0 < P.dt) (hK : K.dt = P.dt)
    (ha : 0 ≤ P.maxAccel) (hs : 0 ≤ P.maxSteering) (haK : P.maxAccel ≤ K.maxAcc) (hsK : P.maxSteering ≤ K.maxSteering)
    (hcut : P.maxAccel * P.dt < 1.2) {cfg : EnvConfig} {s s' : SimState ℝ n T} {act : Fin n → Act AccelSteer}
    (h : step (bicycle P) cfg s act = .ok s') (hw : 1 ≤ cfg.initSteps) (hT : cfg.initSteps ≤ T)
    {t t' : Fin T} (ht : (t : Int) = s.timestep) (ht' : (t' : Int) = s.timestep + 1)
    (i : Fin n) (hc : IsControlled cfg s i) :
    (kinematicsInfeasibilityMetric K s' i).value = 0 := by
  obtain ⟨hts, -, hmove, -⟩ := C06_step_moves h hw hT ht ht' i
  obtain ⟨-, -, hyaw, hvx, hvy⟩ := hmove hc
  have hsucc : (t' : Nat) = t + 1 := by omega
  have hold : s'.simTrajectory i t = s.simTrajectory i t := by
    obtain ⟨m, -, rfl⟩ := step_ok h
    simp only
    rw [forward_apply _ act _ _ m _ ht ht', if_neg]
    intro e; rw [e] at hsucc; omega
  obtain ⟨h01, -, hiff⟩ := C32_metric_iff K (hK ▸ hdt) (ha.trans haK) (hs.trans hsK) s' hsucc (by omega) i
  rcases h01 with h0 | h1
  · exact h0
  exfalso
  obtain ⟨-, hbad⟩ := hiff.1 h1
  rw [hold] at hbad
  set p := s.simTrajectory i t with hp
  set q := s'.simTrajectory i t' with hq
  obtain ⟨hpa, hps⟩ := bicyclePhysical_bounds P ha hs (act i).data
  set a := bicyclePhysical P (act i).data with hadef
  set v := norm2 (p.velX, p.velY) with hvdef
  have hv0 : 0 ≤ v := norm2_nonneg _
  have hqx : q.velX = (v + a.accel * P.dt) * cos q.yaw := by rw [hyaw, hvx]; rfl
  have hqy : q.velY = (v + a.accel * P.dt) * sin q.yaw := by rw [hyaw, hvy]; rfl
  have hyaw' : AnglesAgree q.yaw (p.yaw + a.steering * (v * P.dt + 0.5 * a.accel * P.dt ^ 2)) := by
    rw [hyaw]; exact wrap_agrees _
  have hwn : norm2 (q.velX, q.velY) = |v + a.accel * P.dt| := by rw [hqx, hqy, norm2_heading]
  have hacc : |a.accel * P.dt| ≤ P.maxAccel * P.dt := by
    rw [abs_mul, abs_of_pos hdt]; exact mul_le_mul_of_nonneg_right hpa hdt.le
  rw [hwn, hK] at hbad
  rcases hbad with hbad | ⟨hv6, hw6, ψ, δ, hψ, hd1, hd2, hδ, hbad⟩
  · have h2 : |(|v + a.accel * P.dt| - |v|)| ≤ |(v + a.accel * P.dt) - v| := abs_abs_sub_abs_le _ _
    rw [abs_of_nonneg hv0, add_sub_cancel_left] at h2
    nlinarith
  · have hpos : 0.6 ≤ v + a.accel * P.dt := by
      rcases le_abs'.1 hw6 with h | h
      · have := (abs_le.1 hacc).1
        linarith
      · exact h
    obtain ⟨-, hst⟩ := inversePair_of_update P hdt a p q hv6 hpos hqx hqy hyaw'
    have hst2 := inversePair_steering hdt p q ψ δ hv6 (by rw [hwn]; exact hw6) (by rw [hwn]; exact hψ) hd1 hd2 hδ
    rw [hst] at hst2
    have habs : |v + a.accel * P.dt| = v + a.accel * P.dt := abs_of_pos (by linarith)
    rw [habs] at hbad
    simp only [← hvdef] at hst2
    rw [hwn, habs] at hst2
    have hde : (v + (v + a.accel * P.dt)) / 2 * P.dt = v * P.dt + 0.5 * a.accel * P.dt ^ 2 := by ring
    have hdpos : 0 < v * P.dt + 0.5 * a.accel * P.dt ^ 2 := by
      rw [← hde]; exact mul_pos (by linarith) hdt
    rw [hde] at hst2 hbad
    have hδe : δ = wrapYaws (a.steering * (v * P.dt + 0.5 * a.accel * P.dt ^ 2)) := by
      rw [div_left_inj' hdpos.ne'] at hst2; exact hst2.symm
    have hle := C21_wrap_abs_le (a.steering * (v * P.dt + 0.5 * a.accel * P.dt ^ 2))
    rw [← hδe, abs_mul, abs_of_pos hdpos] at hle
    nlinarith

/-- With the default arguments of both, a step of the bicycle model is never flagged, for any action. -/
theorem C32_default_feasible {cfg : EnvConfig} {s s' : SimState ℝ n T} {act : Fin n → Act AccelSteer}
    (h : step (bicycle {}) cfg s act = .ok s') (hw : 1 ≤ cfg.initSteps) (hT : cfg.initSteps ≤ T)
    {t t' : Fin T} (ht : (t : Int) = s.timestep) (ht' : (t' : Int) = s.timestep + 1) (i : Fin n) (hc : IsControlled cfg s i) :
    (kinematicsInfeasibilityMetric {} s' i).value = 0 :=
  C32_bicycle_feasible {} {} (by norm_num) rfl (by norm_num) (by norm_num) (by norm_num) (by norm_num) (by norm_num) h hw hT ht ht' i hc

/-- With the default arguments the metric flags exactly a change of speed by more than 1.0401 m/s in one step, or, when both speeds are at
least 0.6 m/s, a turn of more than 0.301 radians per metre. -/
theorem C32_default_metric (s : SimState ℝ n T) {t t' : Fin T} (ht : (t' : Nat) = t + 1) (hnow : (t' : Int) = s.timestep) (i : Fin n) :
    let p := s.simTrajectory i t
    let q := s.simTrajectory i t'
    let v := norm2 (p.velX, p.velY)
    let w := norm2 (q.velX, q.velY)
    (kinematicsInfeasibilityMetric {} s i).value = 1 ↔ (p.valid = true ∧ q.valid = true) ∧
      (|w - v| > 1.0401 ∨
        (0.6 ≤ v ∧ 0.6 ≤ w ∧ ∃ ψ δ : ℝ,
          (if w = 0.6 then ψ = q.yaw else q.velX = w * cos ψ ∧ q.velY = w * sin ψ) ∧
          -π ≤ δ ∧ δ < π ∧ AnglesAgree (p.yaw + δ) ψ ∧ |δ| > 0.301 * ((v + w) / 2 * 0.1))) := by
  have h := (C32_metric_iff {} (by norm_num) (by norm_num) (by norm_num) s ht hnow i).2.2
  have e1 : ((10.4 : ℝ) + 0.001) * 0.1 = 1.0401 := by norm_num
  have e2 : ((0.3 : ℝ) + 0.001) = 0.301 := by norm_num
  simp only [e1, e2] at h
  exact h

/-- Non-vacuity: the default bicycle model and metric, the moving scenario of C64, an extreme (out of range) action. -/
example : ∃ s0 s', reset driveCfg driveScen = .ok s0 ∧
    step (bicycle {}) driveCfg s0 (fun _ => { data := { accel := 100, steering := -7 }, valid := true }) = .ok s' ∧
    (kinematicsInfeasibilityMetric {} s' 0).value = 0 := by
  obtain ⟨s0, h0⟩ : ∃ s0, reset driveCfg driveScen = .ok s0 := ⟨_, rfl⟩
  have hr := C01_reset_spec h0
  obtain ⟨s', h1⟩ := step_exists (bicycle {}) driveCfg s0
    (fun _ => { data := { accel := 100, steering := -7 }, valid := true }) (by decide)
  refine ⟨s0, s', h0, h1, ?_⟩
  refine C32_bicycle_feasible {} {} (by norm_num) rfl (by norm_num) (by norm_num) (by norm_num) (by norm_num) (by norm_num)
    h1 (by decide) (by decide) (t := 0) (t' := 1) (by rw [hr.1]; rfl) (by rw [hr.1]; rfl) 0 ?_
  change (s0.objectMetadata 0).isSdc = true
  rw [hr.2.2.2.objects]; rfl

/-- Non-vacuity of the metric's other side: a jump from 1 to 9 m/s in one step is flagged. -/
example : (kinematicsInfeasibilityMetric {} { driveScen with
    simTrajectory := fun _ t => ptAt 0 0 0 (if t = 0 then 1 else 9) 0, timestep := 1 } 0).value = 1 := by
  have hn : ∀ x : ℝ, 0 ≤ x → norm2 (x, 0) = x := fun x hx => by
    unfold norm2; simp [sqrt_sq hx]
  refine (C32_metric_iff {} (by norm_num) (by norm_num) (by norm_num)
    { driveScen with simTrajectory := fun _ t => ptAt 0 0 0 (if t = 0 then 1 else 9) 0, timestep := 1 }
    (t := 0) (t' := 1) rfl rfl 0).2.2.2 ⟨⟨rfl, rfl⟩, Or.inl ?_⟩
  change |norm2 (9, 0) - norm2 (1, 0)| > _
  rw [hn 9 (by norm_num), hn 1 (by norm_num)]
  norm_num

end

end Waymax
