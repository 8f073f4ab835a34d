import Verif.Props.BicycleMachineSteps
import Verif.Props.Bicycle
/-
One step of the bicycle model in machine arithmetic compared with the same step over the real numbers.
-/

namespace Waymax

open Real

/-- The arguments of the constructor as Python reads them. -/
noncomputable def BicycleParams.machine (R : BicycleParams) : BicycleParamsFl :=
  { dt := Flt.round _ R.dt, maxAccel := Flt.round _ R.maxAccel, maxSteering := Flt.round _ R.maxSteering,
    normalizeActions := R.normalizeActions }

/-- The real numbers of an action. -/
noncomputable def AccelSteerFl.real {φ : Format} (a : AccelSteerFl φ) : AccelSteer := { accel := a.accel.val, steering := a.steering.val }

/-- Two angles are the same up to full turns and an error of `e`. -/
def AnglesWithin (e a b : ℝ) : Prop := ∃ k : ℤ, |a - b - k * (2 * π)| ≤ e

theorem mul_close {a A b B ea eb MA MB : ℝ} (ha : |a - A| ≤ ea) (hb : |b - B| ≤ eb) (hA : |A| ≤ MA) (hB : |b| ≤ MB) :
    |a * b - A * B| ≤ ea * MB + MA * eb := by
  rw [show a * b - A * B = (a - A) * b + A * (b - B) by ring]
  refine (abs_add_le _ _).trans ?_
  rw [abs_mul, abs_mul]
  have h1 := mul_le_mul ha hB (abs_nonneg _) ((abs_nonneg _).trans ha)
  have h2 := mul_le_mul hA hb (abs_nonneg _) ((abs_nonneg _).trans hA)
  linarith

theorem bound_of_close {a A e M : ℝ} (h1 : |a - A| ≤ e) (h2 : |A| ≤ M) : |a| ≤ M + e := by
  have := abs_le_add_sub a A
  linarith

theorem clip_close {x h h' e : ℝ} (hh : |h - h'| ≤ e) : |clip x (-h) h - clip x (-h') h'| ≤ e := by
  unfold clip
  have h1 : |max x (-h) - max x (-h')| ≤ e := by
    have := abs_max_sub_max_le_max x (-h) x (-h')
    rw [sub_self, abs_zero, show -h - -h' = -(h - h') by ring, abs_neg] at this
    exact this.trans (max_le ((abs_nonneg _).trans hh) hh)
  refine (abs_min_sub_min_le_max _ _ _ _).trans (max_le h1 hh)

theorem clip_bound {x h : ℝ} (hh : 0 ≤ h) : |clip x (-h) h| ≤ h := by
  unfold clip
  exact abs_le.2 ⟨le_min (le_max_right _ _) (by linarith), min_le_right _ _⟩

section
variable {φ : Format} {L : Libm φ} (h : L.Accurate singleError)

theorem Flt.clip_val (x hi : Flt φ) : (x.clip hi.neg hi).val = Waymax.clip x.val (-hi.val) hi.val := by
  have e1 : ∀ a b : Flt φ, (max a b).val = max a.val b.val := fun a b => by
    rcases le_total a b with hab | hab
    · rw [max_eq_right hab, max_eq_right (show a.val ≤ b.val from hab)]
    · rw [max_eq_left hab, max_eq_left (show b.val ≤ a.val from hab)]
  have e2 : ∀ a b : Flt φ, (min a b).val = min a.val b.val := fun a b => by
    rcases le_total a b with hab | hab
    · rw [min_eq_left hab, min_eq_left (show a.val ≤ b.val from hab)]
    · rw [min_eq_right hab, min_eq_right (show b.val ≤ a.val from hab)]
  unfold Flt.clip Waymax.clip
  rw [e2, e1]
  rfl

include h

theorem pyFloat_round_close {x : ℝ} (h0 : 0 ≤ x) :
    |(pyFloat φ (Flt.round float64 x)).val - x| ≤ 101 / 100 * singleError * x + 1 / 10 ^ 20 := by
  have e1 := float64_err x
  have e2 := pyFloat_close h (Flt.round float64 x)
  rw [abs_of_nonneg h0] at e1
  have e3 := abs_le_add_sub (Flt.round float64 x).val x
  rw [abs_of_nonneg h0] at e3
  have e4 : |(pyFloat φ (Flt.round float64 x)).val - x| ≤
      |(pyFloat φ (Flt.round float64 x)).val - (Flt.round float64 x).val| + |(Flt.round float64 x).val - x| := by
    rw [show (pyFloat φ (Flt.round float64 x)).val - x =
      ((pyFloat φ (Flt.round float64 x)).val - (Flt.round float64 x).val) + ((Flt.round float64 x).val - x) by ring]
    exact abs_add_le _ _
  generalize |(pyFloat φ (Flt.round float64 x)).val - x| = A at *
  generalize |(pyFloat φ (Flt.round float64 x)).val - (Flt.round float64 x).val| = B at *
  generalize |(Flt.round float64 x).val - x| = C at *
  generalize |(Flt.round float64 x).val| = D at *
  unfold singleError at *
  norm_num at *
  linarith

/-- One entry of the clipped and scaled action. -/
theorem entry_close {x : Flt φ} {m : ℝ} (h0 : 0 ≤ m) :
    let pm := pyFloat φ (Flt.round float64 m)
    let one := Flt.round φ 1
    |(x.clip pm.neg pm).val - clip x.val (-m) m| ≤ 21 / 10 * singleError * m + 1 / 10 ^ 19 ∧
    |((x.clip one.neg one).mul pm).val - clip x.val (-1) 1 * m| ≤ 21 / 10 * singleError * m + 1 / 10 ^ 19 := by
  intro pm one
  have c := pyFloat_round_close h h0
  have hone : one.val = 1 := Format.fl_of_rep Flt.rep_one
  constructor
  · rw [Flt.clip_val]
    refine (clip_close c).trans ?_
    unfold singleError
    norm_num
    linarith
  · have e := h.mul (x.clip one.neg one) pm
    rw [Flt.clip_val, hone] at e
    have b := clip_bound (x := x.val) (h := 1) (by norm_num)
    obtain ⟨k, hk⟩ : ∃ k, k = clip x.val (-1) 1 := ⟨_, rfl⟩
    rw [← hk] at e b ⊢
    have hpm : |k * pm.val| ≤ m + (101 / 100 * singleError * m + 1 / 10 ^ 20) := by
      rw [abs_mul]
      have h2 := abs_le_add_sub pm.val m
      rw [abs_of_nonneg h0] at h2
      have := mul_le_mul b (h2.trans (add_le_add le_rfl c)) (abs_nonneg _) (by norm_num)
      linarith
    have hpm2 : |k * pm.val - k * m| ≤ 101 / 100 * singleError * m + 1 / 10 ^ 20 := by
      rw [← mul_sub, abs_mul]
      have := mul_le_mul b c (abs_nonneg _) (by norm_num)
      linarith
    have tri : |((x.clip one.neg one).mul pm).val - k * m| ≤
        |((x.clip one.neg one).mul pm).val - k * pm.val| + |k * pm.val - k * m| := by
      rw [show ((x.clip one.neg one).mul pm).val - k * m =
        (((x.clip one.neg one).mul pm).val - k * pm.val) + (k * pm.val - k * m) by ring]
      exact abs_add_le _ _
    have tiny : (2 : ℝ) ^ (-100 : ℤ) ≤ 1 / 10 ^ 30 := by norm_num
    generalize (2 : ℝ) ^ (-100 : ℤ) = z at *
    generalize |((x.clip one.neg one).mul pm).val - k * m| = A at *
    generalize |((x.clip one.neg one).mul pm).val - k * pm.val| = B at *
    generalize |k * pm.val - k * m| = C at *
    generalize |k * pm.val| = D at *
    unfold singleError at *
    norm_num at *
    linarith

/-- The command in physical units. -/
theorem physical_close {R : BicycleParams} (ha0 : 0 ≤ R.maxAccel) (ha1 : R.maxAccel ≤ 11) (hs0 : 0 ≤ R.maxSteering)
    (hs1 : R.maxSteering ≤ 1) (a : AccelSteerFl φ) :
    |(bicyclePhysicalFl R.machine a).accel.val - (bicyclePhysical R a.real).accel| ≤ 24 * singleError ∧
    |(bicyclePhysicalFl R.machine a).steering.val - (bicyclePhysical R a.real).steering| ≤ 22 / 10 * singleError ∧
    |(bicyclePhysical R a.real).accel| ≤ 11 ∧ |(bicyclePhysical R a.real).steering| ≤ R.maxSteering := by
  obtain ⟨x1, x2⟩ := entry_close h (x := a.accel) ha0
  obtain ⟨y1, y2⟩ := entry_close h (x := a.steering) hs0
  have hone : ∀ x : ℝ, |clip x (-1) 1| ≤ 1 := fun x => clip_bound (by norm_num)
  have bx : 21 / 10 * singleError * R.maxAccel + 1 / 10 ^ 19 ≤ 24 * singleError := by
    unfold singleError
    norm_num
    linarith
  have bs : 21 / 10 * singleError * R.maxSteering + 1 / 10 ^ 19 ≤ 22 / 10 * singleError := by
    unfold singleError
    norm_num
    linarith
  unfold bicyclePhysicalFl bicyclePhysical bicycleClipFl bicycleClip BicycleParamsFl.accelBound BicycleParamsFl.steeringBound
    BicycleParams.accelBound BicycleParams.steeringBound BicycleParams.machine
  cases R.normalizeActions
  · exact ⟨x1.trans bx, y1.trans bs, (clip_bound ha0).trans ha1, clip_bound hs0⟩
  · refine ⟨x2.trans bx, y2.trans bs, ?_, ?_⟩
    · show |clip a.accel.val (-1) 1 * R.maxAccel| ≤ 11
      rw [abs_mul, abs_of_nonneg ha0]
      exact (mul_le_of_le_one_left ha0 (hone _)).trans ha1
    · show |clip a.steering.val (-1) 1 * R.maxSteering| ≤ R.maxSteering
      rw [abs_mul, abs_of_nonneg hs0]
      exact mul_le_of_le_one_left hs0 (hone _)

/-- A product of machine numbers compared with a product of the real numbers they stand for. -/
theorem Libm.Accurate.mul_of_close {a b : Flt φ} {A B ea eb MA MB M : ℝ} (ha : |a.val - A| ≤ ea) (hb : |b.val - B| ≤ eb)
    (hA : |A| ≤ MA) (hB : |b.val| ≤ MB) (hM : |a.val| ≤ M) :
    |(a.mul b).val - A * B| ≤ ea * MB + MA * eb + (singleError * (M * MB) + 1 / 10 ^ 30) := by
  have e1 := mul_close ha hb hA hB
  have e2 := h.mul a b
  have e3 : |a.val * b.val| ≤ M * MB := by
    rw [abs_mul]
    exact mul_le_mul hM hB (abs_nonneg _) ((abs_nonneg _).trans hM)
  have tiny : (2 : ℝ) ^ (-100 : ℤ) ≤ 1 / 10 ^ 30 := by norm_num
  have e4 : singleError * |a.val * b.val| ≤ singleError * (M * MB) := mul_le_mul_of_nonneg_left e3 h.pos.le
  have e5 : |(a.mul b).val - A * B| ≤ |(a.mul b).val - a.val * b.val| + |a.val * b.val - A * B| := by
    rw [show (a.mul b).val - A * B = ((a.mul b).val - a.val * b.val) + (a.val * b.val - A * B) by ring]
    exact abs_add_le _ _
  generalize (2 : ℝ) ^ (-100 : ℤ) = z at *
  linarith

/-- A sum of machine numbers compared with a sum of the real numbers they stand for. -/
theorem Libm.Accurate.add_of_close {a b : Flt φ} {A B ea eb M : ℝ} (ha : |a.val - A| ≤ ea) (hb : |b.val - B| ≤ eb)
    (hM : |a.val + b.val| ≤ M) :
    |(a.add b).val - (A + B)| ≤ ea + eb + singleError * M := by
  have e2 := h.add a b
  have e4 : singleError * |a.val + b.val| ≤ singleError * M := mul_le_mul_of_nonneg_left hM h.pos.le
  have e5 : |(a.add b).val - (A + B)| ≤ |(a.add b).val - (a.val + b.val)| + |a.val - A| + |b.val - B| := by
    rw [show (a.add b).val - (A + B) = ((a.add b).val - (a.val + b.val)) + (a.val - A) + (b.val - B) by ring]
    exact abs_add_three _ _ _
  linarith

/-- One coordinate of the position after one step. -/
theorem coordinate_close {x v a c : Flt φ} {A C : ℝ} (ha : |a.val - A| ≤ 24 * singleError) (hA : |A| ≤ 11)
    (hc : |c.val - C| ≤ singleError) (hC : |C| ≤ 1) :
    |((x.add (v.mul (pyFloat φ tenth))).add ((((Flt.round φ 0.5).mul a).mul c).mul (pySquare φ tenth))).val -
      (x.val + v.val * 0.1 + 0.5 * A * C * 0.1 ^ 2)| ≤ singleError * (3 * |x.val| + |v.val| + 1) := by
  obtain ⟨t1, t2⟩ := dt_close h
  have t1' := bound_of_close t1 (M := 1 / 10) (by rw [abs_of_pos (by norm_num)])
  have t2' := bound_of_close t2 (M := 1 / 100) (by rw [abs_of_pos (by norm_num)])
  have ha' := bound_of_close ha hA
  have hc' := bound_of_close hc hC
  have hhalf : |(Flt.round φ 0.5).val - 1 / 2| ≤ 0 := by rw [half_eq]; simp
  have hhalf' : |(Flt.round φ 0.5).val| ≤ 1 / 2 := by rw [half_eq, abs_of_pos (by norm_num)]
  -- the velocity
  have e1 := h.mul_of_close (a := v) (b := pyFloat φ tenth) (A := v.val) (B := 1 / 10) (ea := 0) (by simp) t1 le_rfl t1' le_rfl
  have e1' := bound_of_close e1 (M := |v.val| * (1 / 10)) (by rw [abs_mul, abs_of_pos (by norm_num : (0 : ℝ) < 1 / 10)])
  have e2 := h.add_of_close (a := x) (b := v.mul (pyFloat φ tenth)) (A := x.val) (ea := 0) (by simp) e1
    ((abs_add_le _ _).trans (add_le_add le_rfl e1'))
  -- the acceleration
  have f1 := h.mul_of_close (a := Flt.round φ 0.5) (b := a) hhalf ha (MA := 1 / 2) (by rw [abs_of_pos (by norm_num)]) ha' hhalf'
  have hHA : |1 / 2 * A| ≤ 11 / 2 := by
    rw [abs_mul, abs_of_pos (by norm_num : (0 : ℝ) < 1 / 2)]
    linarith
  have f1' := bound_of_close f1 hHA
  have f2 := h.mul_of_close (a := (Flt.round φ 0.5).mul a) (b := c) f1 hc hHA hc' f1'
  have hHAC : |1 / 2 * A * C| ≤ 11 / 2 := by
    rw [abs_mul]
    have := mul_le_mul hHA hC (abs_nonneg _) (by norm_num)
    linarith
  have f2' := bound_of_close f2 hHAC
  have f3 := h.mul_of_close (a := ((Flt.round φ 0.5).mul a).mul c) (b := pySquare φ tenth) f2 t2 hHAC t2' f2'
  have hHACt : |1 / 2 * A * C * (1 / 100)| ≤ 11 / 200 := by
    rw [abs_mul, abs_of_pos (by norm_num : (0 : ℝ) < 1 / 100)]
    linarith
  have f3' := bound_of_close f3 hHACt
  have e2' := bound_of_close e2 (M := |x.val| + |v.val| * (1 / 10)) (by
    refine (abs_add_le _ _).trans ?_
    rw [abs_mul, abs_of_pos (by norm_num : (0 : ℝ) < 1 / 10)])
  have g := h.add_of_close e2 f3 ((abs_add_le _ _).trans (add_le_add e2' f3'))
  rw [show x.val + v.val * 0.1 + 0.5 * A * C * 0.1 ^ 2 = x.val + v.val * (1 / 10) + 1 / 2 * A * C * (1 / 100) by ring]
  refine g.trans ?_
  have hx := abs_nonneg x.val
  have hv := abs_nonneg v.val
  generalize |x.val| = X at *
  generalize |v.val| = V at *
  unfold singleError
  norm_num
  linarith

/-- The new speed before it is given a direction. -/
theorem new_speed_close {s a : Flt φ} {A N : ℝ} (ha : |a.val - A| ≤ 24 * singleError) (hA : |A| ≤ 11) (hN : 0 ≤ N)
    (hs : |s.val - N| ≤ 7 / 2 * singleError * N + 1 / 10 ^ 12) :
    |(s.add (a.mul (pyFloat φ tenth))).val - (N + A * 0.1)| ≤ singleError * (19 / 4 * N + 8) := by
  obtain ⟨t1, -⟩ := dt_close h
  have t1' := bound_of_close t1 (M := 1 / 10) (by rw [abs_of_pos (by norm_num)])
  have ha' := bound_of_close ha hA
  have e1 := h.mul_of_close ha t1 hA t1' ha'
  have hAt : |A * (1 / 10)| ≤ 11 / 10 := by
    rw [abs_mul, abs_of_pos (by norm_num : (0 : ℝ) < 1 / 10)]
    linarith
  have e1' := bound_of_close e1 hAt
  have hs' := bound_of_close hs (abs_of_nonneg hN).le
  have g := h.add_of_close hs e1 ((abs_add_le _ _).trans (add_le_add hs' e1'))
  rw [show N + A * 0.1 = N + A * (1 / 10) by ring]
  refine g.trans ?_
  unfold singleError
  norm_num
  linarith

/-- The turn before it is added to the heading. -/
theorem new_turn_close {s a st : Flt φ} {A N S : ℝ} (ha : |a.val - A| ≤ 24 * singleError) (hA : |A| ≤ 11) (hN : 0 ≤ N)
    (hs : |s.val - N| ≤ 7 / 2 * singleError * N + 1 / 10 ^ 12) (hst : |st.val - S| ≤ 22 / 10 * singleError) (hS : |S| ≤ 1) :
    |(st.mul (travelFl tenth s a)).val - S * (N * 0.1 + 0.5 * A * 0.1 ^ 2)| ≤ singleError * (5 / 4 * N + 2) ∧
    |S * (N * 0.1 + 0.5 * A * 0.1 ^ 2)| ≤ N * (1 / 10) + 11 / 200 := by
  obtain ⟨t1, t2⟩ := dt_close h
  have t1' := bound_of_close t1 (M := 1 / 10) (by rw [abs_of_pos (by norm_num)])
  have t2' := bound_of_close t2 (M := 1 / 100) (by rw [abs_of_pos (by norm_num)])
  have ha' := bound_of_close ha hA
  have hst' := bound_of_close hst hS
  have hs' := bound_of_close hs (abs_of_nonneg hN).le
  have hhalf : |(Flt.round φ 0.5).val - 1 / 2| ≤ 0 := by rw [half_eq]; simp
  have hhalf' : |(Flt.round φ 0.5).val| ≤ 1 / 2 := by rw [half_eq, abs_of_pos (by norm_num)]
  have e1 := h.mul_of_close hs t1 (abs_of_nonneg hN).le t1' hs'
  have hNt : |N * (1 / 10)| ≤ N * (1 / 10) := by rw [abs_of_nonneg (by positivity)]
  have e1' := bound_of_close e1 hNt
  have f1 := h.mul_of_close (a := Flt.round φ 0.5) (b := a) hhalf ha (MA := 1 / 2) (by rw [abs_of_pos (by norm_num)]) ha' hhalf'
  have hHA : |1 / 2 * A| ≤ 11 / 2 := by
    rw [abs_mul, abs_of_pos (by norm_num : (0 : ℝ) < 1 / 2)]
    linarith
  have f1' := bound_of_close f1 hHA
  have f3 := h.mul_of_close (a := (Flt.round φ 0.5).mul a) (b := pySquare φ tenth) f1 t2 hHA t2' f1'
  have hHAt : |1 / 2 * A * (1 / 100)| ≤ 11 / 200 := by
    rw [abs_mul, abs_of_pos (by norm_num : (0 : ℝ) < 1 / 100)]
    linarith
  have f3' := bound_of_close f3 hHAt
  have g := h.add_of_close e1 f3 ((abs_add_le _ _).trans (add_le_add e1' f3'))
  have hD : |N * (1 / 10) + 1 / 2 * A * (1 / 100)| ≤ N * (1 / 10) + 11 / 200 :=
    (abs_add_le _ _).trans (add_le_add hNt hHAt)
  have g' := bound_of_close g hD
  have r := h.mul_of_close (a := st) hst g hS g' hst'
  rw [show N * 0.1 + 0.5 * A * 0.1 ^ 2 = N * (1 / 10) + 1 / 2 * A * (1 / 100) by ring]
  constructor
  · refine r.trans ?_
    clear * - hN
    unfold singleError
    norm_num
    linarith
  · rw [abs_mul]
    have := mul_le_mul hS hD (abs_nonneg _) (by norm_num)
    linarith

/-- The new heading, up to full turns. -/
theorem new_heading_close {y g : Flt φ} {G N : ℝ} (hy : |y.val| ≤ 4) (hN : 0 ≤ N) (hN1 : N ≤ 99)
    (hg : |g.val - G| ≤ singleError * (5 / 4 * N + 2)) (hG : |G| ≤ N * (1 / 10) + 11 / 200) :
    AnglesWithin (singleError * (3 / 2 * N + 36)) (y.add g).wrapYaws.val (y.val + G) := by
  obtain ⟨k, hk⟩ := wrap_close h (y.add g)
  have e1 := h.add y g
  have hg' := bound_of_close hg hG
  have hsum : |y.val + g.val| ≤ 4 + (N * (1 / 10) + 11 / 200 + singleError * (5 / 4 * N + 2)) :=
    (abs_add_le _ _).trans (add_le_add hy hg')
  have hadd := bound_of_close e1 hsum
  obtain ⟨r0, r1⟩ := C132_range (y.add g)
  have hpi := pi_close h
  have hpib := abs_le.1 hpi
  have hp3 := pi_gt_d6
  have hp4 := pi_lt_d6
  generalize (Flt.pi φ).val = p at *
  generalize (y.add g).wrapYaws.val = w at *
  generalize (y.add g).val = z at *
  have hk2 : |(k : ℝ)| ≤ 2 := by
    have hz14 : |z| ≤ 1408 / 100 := by
      generalize |z| = Z at *
      generalize |y.val + g.val| = Q at *
      unfold singleError at *
      norm_num at *
      linarith
    have hk' : |w - (z - k * (2 * p))| ≤ 1 / 1000 := by
      refine hk.trans ?_
      generalize |z| = Z at *
      unfold singleError at *
      norm_num at *
      linarith
    rw [abs_le] at hz14 hk'
    have hpl : 3141 / 1000 ≤ p ∧ p ≤ 3142 / 1000 := by
      obtain ⟨q1, q2⟩ := hpib
      unfold singleError at *
      norm_num at *
      constructor <;> linarith
    by_contra hc
    have hc' : 3 ≤ |k| := by
      have : (2 : ℝ) < ((|k| : ℤ) : ℝ) := by push_cast; linarith
      have : (2 : ℤ) < |k| := by exact_mod_cast this
      omega
    have hcr : (3 : ℝ) ≤ |(k : ℝ)| := by exact_mod_cast hc'
    rcases le_abs.1 hcr with hh | hh
    · nlinarith [hz14.1, hz14.2, hk'.1, hk'.2, hpl.1, hpl.2]
    · nlinarith [hz14.1, hz14.2, hk'.1, hk'.2, hpl.1, hpl.2]
  refine ⟨-k, ?_⟩
  have hkp : |(k : ℝ) * (2 * (p - π))| ≤ 128 / 10 * singleError := by
    rw [abs_mul, abs_mul, abs_of_pos (by norm_num : (0 : ℝ) < 2)]
    have := mul_le_mul hk2 (mul_le_mul_of_nonneg_left hpi (by norm_num : (0 : ℝ) ≤ 2)) (by positivity) (by norm_num)
    linarith
  have e5 : |w - (y.val + G) - ((-k : ℤ) : ℝ) * (2 * π)| ≤ |w - (z - k * (2 * p))| + |z - (y.val + g.val)| + |g.val - G| +
      |(k : ℝ) * (2 * (p - π))| := by
    rw [show w - (y.val + G) - ((-k : ℤ) : ℝ) * (2 * π) = (w - (z - k * (2 * p))) + (z - (y.val + g.val)) + (g.val - G) +
      -((k : ℝ) * (2 * (p - π))) by push_cast; ring]
    have j1 := abs_add_le ((w - (z - k * (2 * p))) + (z - (y.val + g.val)) + (g.val - G)) (-((k : ℝ) * (2 * (p - π))))
    have j2 := abs_add_three (w - (z - k * (2 * p))) (z - (y.val + g.val)) (g.val - G)
    rw [abs_neg] at j1
    linarith
  refine e5.trans ?_
  clear e5 hk2 hpi hpib r0 r1
  generalize |w - (z - k * (2 * p))| = Q1 at *
  generalize |z - (y.val + g.val)| = Q2 at *
  generalize |g.val - G| = Q3 at *
  generalize |(k : ℝ) * (2 * (p - π))| = Q4 at *
  generalize |y.val + g.val| = Q5 at *
  generalize |z| = Q6 at *
  unfold singleError at *
  norm_num at *
  linarith

end

/-! ### Angles and velocities -/

theorem AnglesWithin.cos_le {e a b : ℝ} (h : AnglesWithin e a b) : |cos a - cos b| ≤ e := by
  obtain ⟨k, hk⟩ := h
  have : cos b = cos (b + k * (2 * π)) := (cos_add_int_mul_two_pi b k).symm
  rw [this]
  refine le_trans ?_ hk
  have := abs_cos_sub_cos_le a (b + k * (2 * π))
  rwa [← sub_sub] at this

end Waymax
