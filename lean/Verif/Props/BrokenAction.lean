import Verif.Spec.BrokenAction
import Verif.Props.Overflow
import Verif.Props.WrapMachine
import Verif.Props.BicycleMachine
/-
C164: actions that are infinite or NaN in the bicycle model.
-/

namespace Waymax

open Real

section
variable {F : IeeeFormat}

/-! ### Sizes -/

theorem Upd.ext' {α : Type} {u v : Upd α} (h1 : u.x = v.x) (h2 : u.y = v.y) (h3 : u.yaw = v.yaw) (h4 : u.velX = v.velX)
    (h5 : u.velY = v.velY) (h6 : u.valid = v.valid) : u = v := by
  cases u; cases v; simp_all

theorem Small.mul' {k l : ℕ} {a b : Ieee F} {x y : ℝ} (ha : Small k a x) (hb : Small l b y) (hk : k + l < F.top) :
    Small (k + l) (a.mul b) (F.fmt.fl (x * y)) := by
  have h : |F.fmt.fl (x * y)| ≤ 2 ^ (k + l) := by
    apply abs_fl_le
    rw [abs_mul, pow_add]
    exact mul_le_mul ha.2 hb.2 (abs_nonneg _) (by positivity)
  exact ⟨ha.1.mul hb.1 (lt_of_le_of_lt h (two_pow_lt F hk)), h⟩

theorem py_small {k : ℕ} {x : Flt float64} (h : |x.val| ≤ 2 ^ k) (hk : k < F.top) : Small k (pyIe F x) (pyFloat F.fmt x).val :=
  small_ofFlt (abs_fl_le h) hk

theorem real_small {k : ℕ} {x : ℝ} (h : |x| ≤ 2 ^ k) (hk : k < F.top) : Small k (Ieee.ofReal F x) (Flt.round F.fmt x).val :=
  small_ofFlt (abs_fl_le h) hk

theorem pi_small (F : IeeeFormat) : |(Flt.pi F.fmt).val| ≤ 2 ^ 2 ∧ |(Flt.twoPi F.fmt).val| ≤ 2 ^ 3 := by
  have h0 := pi_pos
  have h4 := pi_le_four
  have h1 : |float64.fl π| ≤ 2 ^ 2 := abs_fl_le (by rw [abs_of_pos h0]; linarith)
  refine ⟨abs_fl_le h1, abs_fl_le (abs_fl_le ?_)⟩
  rw [abs_mul, abs_two]
  linarith

theorem wrap_small {k : ℕ} {a : Ieee F} {x : Flt F.fmt} (ha : Small k a x.val) (h2 : 2 ≤ k) (hk : k + 1 < F.top) :
    Small 4 a.wrapYaws x.wrapYaws.val := by
  have hp := pi_small F
  have hroom := F.room
  have h1 := ha.add ((small_ofFlt hp.1 (by omega)).mono h2) hk
  have hm := Flt.mod_mem (x.add (Flt.pi F.fmt)) (Flt.twoPi F.fmt) (by rw [Flt.twoPi_eq]; linarith [Flt.pi_pos (φ := F.fmt)])
  have h3 : Small 3 ((a.add (Ieee.ofFlt F (Flt.pi F.fmt))).mod (Flt.twoPi F.fmt)) ((x.add (Flt.pi F.fmt)).mod (Flt.twoPi F.fmt)).val := by
    obtain ⟨z, hz, e, hv⟩ := h1.1
    have : z = x.add (Flt.pi F.fmt) := Subtype.ext hv
    subst this
    rw [e]
    refine small_ofFlt ?_ (by omega)
    rw [abs_of_nonneg hm.1]
    exact hm.2.trans ((le_abs_self _).trans hp.2)
  exact h3.sub ((small_ofFlt hp.1 (by omega)).mono (by omega)) (by omega)

theorem speed_small {L : Libm F.fmt} (hL : SaneSqrt L) {B : ℕ} (hB : 2 * B + 7 < F.top) {p : Pt (Flt F.fmt)} (hp : MotionWithin B p) :
    Small (2 * B + 1) (speedIe L (p.ieee F).velX (p.ieee F).velY) (speedFl L p.velX p.velY).val := by
  have hx := small_ofFlt (F := F) hp.velX (by omega)
  have hy := small_ofFlt (F := F) hp.velY (by omega)
  have hs := (hx.mul' hx (by omega)).add (hy.mul' hy (by omega)) (by omega)
  have nonneg (x : Flt F.fmt) : 0 ≤ (x.mul x).val := fl_nonneg (mul_self_nonneg _)
  have h0 : 0 ≤ ((p.velX.mul p.velX).add (p.velY.mul p.velY)).val := fl_nonneg (add_nonneg (nonneg _) (nonneg _))
  have hb := hL _ h0
  obtain ⟨z, hz, e, hv⟩ := hs.1
  have : z = (p.velX.mul p.velX).add (p.velY.mul p.velY) := Subtype.ext hv
  subst this
  have e' : speedIe L (p.ieee F).velX (p.ieee F).velY = Ieee.ofFlt F (speedFl L p.velX p.velY) := by
    unfold speedIe
    change (((Ieee.ofFlt F p.velX).mul (Ieee.ofFlt F p.velX)).add ((Ieee.ofFlt F p.velY).mul (Ieee.ofFlt F p.velY))).sqrt L = _
    rw [e]
    exact if_neg (not_lt.2 h0)
  rw [e']
  refine small_ofFlt ?_ (by omega)
  have h2 := hs.2
  change |((p.velX.mul p.velX).add (p.velY.mul p.velY)).val| ≤ _ at h2
  rw [abs_of_nonneg h0] at h2
  unfold speedFl
  rw [abs_of_nonneg hb.1]
  refine hb.2.trans (max_le (one_le_pow₀ (by norm_num)) (h2.trans (le_of_eq ?_)))
  congr 1
  omega

theorem travel_small {B : ℕ} (hB : 2 * B + 7 < F.top) {dt : Flt float64} (hdt : |dt.val| ≤ 1) {s a : Ieee F} {s' a' : Flt F.fmt}
    (hs : Small (2 * B + 1) s s'.val) (ha : Small 4 a a'.val) : Small (2 * B + 5) (travelIe dt s a) (travelFl dt s' a').val := by
  have ht := py_small (F := F) (x := dt) (k := 0) (by simpa using hdt) (by omega)
  have ht2 := py_small (F := F) (x := dt.mul dt) (k := 0)
    (abs_fl_le (by rw [abs_mul, pow_zero]; exact mul_le_one₀ hdt (abs_nonneg _) hdt)) (by omega)
  have hh := real_small (F := F) (x := 0.5) (k := 0) (by norm_num) (by omega)
  have h1 := (hs.mul ht (by omega)).mono (show 2 * B + 1 ≤ 2 * B + 4 by omega)
  have h2 := (((hh.mul' ha (by omega)).mul ht2 (by omega)).mono (show 0 + 4 ≤ 2 * B + 4 by omega))
  exact h1.add h2 (by omega)

theorem hasVal_clip {a : Ieee F} {x : Flt F.fmt} (ha : HasVal a x.val) {b : Flt F.fmt} (hb : |b.val| < 2 ^ F.top) :
    HasVal (a.clip (Ieee.ofFlt F b).neg (Ieee.ofFlt F b)) (x.clip b.neg b).val := by
  have h := hasVal_ofFlt hb
  exact (ha.max h.neg).min h

theorem clip_size {φ : Format} {x b : Flt φ} (hb : 0 ≤ b.val) : |(x.clip b.neg b).val| ≤ b.val := by
  change |min (max x.val (-b.val)) b.val| ≤ _
  rw [abs_le]
  exact ⟨le_min (le_max_right _ _) (by linarith), min_le_right _ _⟩

/-- The bounds of the action are not negative and of ordinary size. -/
theorem bounds_small (F : IeeeFormat) {P : BicycleParamsFl} (hP : ModerateLimits P) :
    (0 ≤ (P.accelBound F.fmt).val ∧ (P.accelBound F.fmt).val ≤ 2 ^ 4) ∧ (0 ≤ (P.steeringBound F.fmt).val ∧ (P.steeringBound F.fmt).val ≤ 2 ^ 0) := by
  have h1 : |F.fmt.fl 1| ≤ 2 ^ 0 := abs_fl_le (by norm_num)
  have h10 : 0 ≤ F.fmt.fl 1 := fl_nonneg (by norm_num)
  have ha : |F.fmt.fl P.maxAccel.val| ≤ 2 ^ 4 := abs_fl_le (by rw [abs_of_nonneg hP.accel.1]; norm_num; exact hP.accel.2)
  have hs : |F.fmt.fl P.maxSteering.val| ≤ 2 ^ 0 := abs_fl_le (by rw [abs_of_nonneg hP.steering.1]; norm_num; exact hP.steering.2)
  have ha0 := fl_nonneg (φ := F.fmt) hP.accel.1
  have hs0 := fl_nonneg (φ := F.fmt) hP.steering.1
  rw [abs_of_nonneg h10] at h1
  rw [abs_of_nonneg ha0] at ha
  rw [abs_of_nonneg hs0] at hs
  unfold BicycleParamsFl.accelBound BicycleParamsFl.steeringBound
  split
  · exact ⟨⟨h10, h1.trans (by norm_num)⟩, h10, h1⟩
  · exact ⟨⟨ha0, ha⟩, hs0, hs⟩

theorem physical_small {P : BicycleParamsFl} (hP : ModerateLimits P) {a : AccelSteerIe F} {a' : AccelSteerFl F.fmt}
    (h1 : HasVal a.accel a'.accel.val) (h2 : HasVal a.steering a'.steering.val) :
    Small 4 (bicyclePhysicalIe P a).accel (bicyclePhysicalFl P a').accel.val ∧
    Small 0 (bicyclePhysicalIe P a).steering (bicyclePhysicalFl P a').steering.val := by
  have hroom := F.room
  obtain ⟨⟨b0, b1⟩, c0, c1⟩ := bounds_small F hP
  have hA : Small 4 (bicycleClipIe P a).accel (bicycleClipFl P a').accel.val :=
    ⟨hasVal_clip h1 (by rw [abs_of_nonneg b0]; exact lt_of_le_of_lt b1 (two_pow_lt F (by omega))), (clip_size b0).trans b1⟩
  have hS : Small 0 (bicycleClipIe P a).steering (bicycleClipFl P a').steering.val :=
    ⟨hasVal_clip h2 (by rw [abs_of_nonneg c0]; exact lt_of_le_of_lt c1 (two_pow_lt F (by omega))), (clip_size c0).trans c1⟩
  by_cases hn : P.normalizeActions = true
  · have e1 : P.accelBound F.fmt = Flt.round F.fmt 1 := by simp [BicycleParamsFl.accelBound, hn]
    have hA0 : |(bicycleClipFl P a').accel.val| ≤ 2 ^ 0 := by
      refine (clip_size b0).trans ?_
      rw [e1]
      exact (le_abs_self _).trans (abs_fl_le (by norm_num))
    have m1 := Small.mul' (⟨hA.1, hA0⟩ : Small 0 _ _)
      (py_small (F := F) (x := P.maxAccel) (k := 4) (by rw [abs_of_nonneg hP.accel.1]; norm_num; exact hP.accel.2) (by omega)) (by omega)
    have m2 := Small.mul hS
      (py_small (F := F) (x := P.maxSteering) (k := 0) (by rw [abs_of_nonneg hP.steering.1]; norm_num; exact hP.steering.2) (by omega)) (by omega)
    simp only [bicyclePhysicalIe, bicyclePhysicalFl, if_pos hn]
    exact ⟨m1, m2⟩
  · simp only [bicyclePhysicalIe, bicyclePhysicalFl, if_neg hn]
    exact ⟨hA, hS⟩

/-! ### No overflow -/

/-- Whenever position, heading and velocity are moderate, a step of the bicycle model with an action of finite numbers gives exactly what
arithmetic without overflow gives. -/
theorem C164_no_overflow {L : Libm F.fmt} (hs : SaneSqrt L) (ht : SaneTrig L) {P : BicycleParamsFl} (hP : ModerateLimits P) {B : ℕ}
    (hB : 2 * B + 7 < F.top) {p : Pt (Flt F.fmt)} (hp : MotionWithin B p) {a : AccelSteerFl F.fmt}
    (ha : |a.accel.val| < 2 ^ F.top ∧ |a.steering.val| < 2 ^ F.top) (v : Bool) :
    bicycleUpdateIe L P { data := a.ieee F, valid := v } (p.ieee F) = (bicycleUpdateFl L P { data := a, valid := v } p).ieee F ∧
    (bicycleUpdateIe L P { data := a.ieee F, valid := v } (p.ieee F)).AllFinite := by
  obtain ⟨hA, hS⟩ := physical_small hP (a := a.ieee F) (a' := a) (hasVal_ofFlt ha.1) (hasVal_ofFlt ha.2)
  have hspeed := speed_small hs hB hp
  have htravel := travel_small hB hP.dt hspeed hA
  have hx := small_ofFlt (F := F) hp.x (by omega)
  have hy := small_ofFlt (F := F) hp.y (by omega)
  have hvx := small_ofFlt (F := F) hp.velX (by omega)
  have hvy := small_ofFlt (F := F) hp.velY (by omega)
  have hyaw := small_ofFlt (F := F) hp.yaw (by omega)
  have hyaw' : |p.yaw.val| < 2 ^ F.top := lt_of_le_of_lt hp.yaw (two_pow_lt F (by omega))
  have hc := trig_small hyaw' (ht p.yaw).2
  have hsn := trig_small hyaw' (ht p.yaw).1
  have hdt := hP.dt
  have t1 := py_small (F := F) (x := P.dt) (k := 0) (by simpa using hdt) (by omega)
  have t2 := py_small (F := F) (x := P.dt.mul P.dt) (k := 0)
    (abs_fl_le (by rw [abs_mul, pow_zero]; exact mul_le_one₀ hdt (abs_nonneg _) hdt)) (by omega)
  have hh := real_small (F := F) (x := 0.5) (k := 0) (by norm_num) (by omega)
  have ax := ((((hh.mul' hA (by omega)).mul hc (by omega)).mul t2 (by omega)).mono (show 0 + 4 ≤ B + 4 by omega))
  have ay := ((((hh.mul' hA (by omega)).mul hsn (by omega)).mul t2 (by omega)).mono (show 0 + 4 ≤ B + 4 by omega))
  have nx := ((hx.add (hvx.mul t1 (by omega)) (by omega)).mono (show B + 1 ≤ B + 4 by omega)).add ax (by omega)
  have ny := ((hy.add (hvy.mul t1 (by omega)) (by omega)).mono (show B + 1 ≤ B + 4 by omega)).add ay (by omega)
  have dyaw := (hS.mul' htravel (by omega)).mono (show 0 + (2 * B + 5) ≤ 2 * B + 5 by omega)
  have nyaw := wrap_small (x := p.yaw.add ((bicyclePhysicalFl P a).steering.mul (travelFl P.dt (speedFl L p.velX p.velY) (bicyclePhysicalFl P a).accel)))
    ((hyaw.mono (show B ≤ 2 * B + 5 by omega)).add dyaw (by omega)) (by omega) (by omega)
  have nvel := (hspeed.mono (show 2 * B + 1 ≤ 2 * B + 4 by omega)).add
    ((hA.mul t1 (by omega)).mono (show 4 ≤ 2 * B + 4 by omega)) (by omega)
  obtain ⟨z, hz, ez, hv⟩ := nyaw.1
  have ez' := Subtype.ext hv
  subst ez'
  have nc : Small 0 ((Ieee.fin _ hz : Ieee F).trig L.cos) _ := small_ofFlt (by simpa using (ht _).2) (by omega)
  have ns : Small 0 ((Ieee.fin _ hz : Ieee F).trig L.sin) _ := small_ofFlt (by simpa using (ht _).1) (by omega)
  rw [← ez] at nc ns
  have nvx := nvel.mul nc (by omega)
  have nvy := nvel.mul ns (by omega)
  refine ⟨?_, nx.1.finite, ny.1.finite, nyaw.1.finite, nvx.1.finite, nvy.1.finite⟩
  exact Upd.ext' nx.1.eq ny.1.eq nyaw.1.eq nvx.1.eq nvy.1.eq rfl

/-! ### Infinite actions -/

theorem clip_inf {b : Flt F.fmt} (h0 : 0 ≤ b.val) (hb : |b.val| < 2 ^ F.top) (neg : Bool) :
    (Ieee.inf neg : Ieee F).clip (Ieee.ofFlt F b).neg (Ieee.ofFlt F b) =
      (if neg then (Ieee.ofFlt F b).neg else Ieee.ofFlt F b).clip (Ieee.ofFlt F b).neg (Ieee.ofFlt F b) := by
  have hle : ¬ b.val < -b.val := by linarith
  rw [Ieee.ofFlt_small hb]
  cases neg
  · simp [Ieee.clip, Ieee.max, Ieee.min, Ieee.neg, Ieee.isNan, Ieee.lt, Flt.neg, hle]
  · simp [Ieee.clip, Ieee.max, Ieee.min, Ieee.neg, Ieee.isNan, Ieee.lt, Flt.neg, hle]

/-- An infinite acceleration is executed as the largest acceleration in that direction. -/
theorem C164_infinite_acceleration (L : Libm F.fmt) {P : BicycleParamsFl} (hP : ModerateLimits P) (neg : Bool) (st : Ieee F) (v : Bool)
    (p : Pt (Ieee F)) :
    bicycleUpdateIe L P { data := { accel := .inf neg, steering := st }, valid := v } p =
      bicycleUpdateIe L P { data := { accel := if neg then (Ieee.ofFlt F (P.accelBound F.fmt)).neg else Ieee.ofFlt F (P.accelBound F.fmt),
                                      steering := st }, valid := v } p := by
  have hroom := F.room
  obtain ⟨⟨b0, b1⟩, -, -⟩ := bounds_small F hP
  have e := clip_inf (F := F) b0 (by rw [abs_of_nonneg b0]; exact lt_of_le_of_lt b1 (two_pow_lt F (by omega))) neg
  simp only [bicycleUpdateIe, bicyclePhysicalIe, bicycleClipIe, e]

/-- An infinite steering is executed as the largest steering in that direction. -/
theorem C164_infinite_steering (L : Libm F.fmt) {P : BicycleParamsFl} (hP : ModerateLimits P) (neg : Bool) (ac : Ieee F) (v : Bool)
    (p : Pt (Ieee F)) :
    bicycleUpdateIe L P { data := { accel := ac, steering := .inf neg }, valid := v } p =
      bicycleUpdateIe L P { data := { accel := ac,
                                      steering := if neg then (Ieee.ofFlt F (P.steeringBound F.fmt)).neg else Ieee.ofFlt F (P.steeringBound F.fmt) },
                            valid := v } p := by
  have hroom := F.room
  obtain ⟨-, c0, c1⟩ := bounds_small F hP
  have e := clip_inf (F := F) c0 (by rw [abs_of_nonneg c0]; exact lt_of_le_of_lt c1 (two_pow_lt F (by omega))) neg
  simp only [bicycleUpdateIe, bicyclePhysicalIe, bicycleClipIe, e]

/-- The entry of an action that the model executes in the place of a number that need not be finite. -/
theorem entry_finite {b : Flt F.fmt} (h0 : 0 ≤ b.val) (hb : |b.val| < 2 ^ F.top) {a : Ieee F} (ha : a ≠ .nan) :
    ∃ x : Flt F.fmt, |x.val| < 2 ^ F.top ∧
      a.clip (Ieee.ofFlt F b).neg (Ieee.ofFlt F b) = (Ieee.ofFlt F x).clip (Ieee.ofFlt F b).neg (Ieee.ofFlt F b) := by
  cases a with
  | nan => exact absurd rfl ha
  | fin x hx => exact ⟨x, hx, by rw [Ieee.ofFlt_small hx]⟩
  | inf neg =>
    rw [clip_inf h0 hb]
    cases neg
    · exact ⟨b, hb, rfl⟩
    · have hb' : |b.neg.val| < 2 ^ F.top := by simpa [Flt.neg] using hb
      refine ⟨b.neg, hb', ?_⟩
      rw [Ieee.ofFlt_small hb, Ieee.ofFlt_small hb']
      rfl

/-- As long as no entry of the action is NaN, the position, heading and velocity after the step are finite. -/
theorem C164_no_nan_partial {L : Libm F.fmt} (hs : SaneSqrt L) (ht : SaneTrig L) {P : BicycleParamsFl} (hP : ModerateLimits P) {B : ℕ}
    (hB : 2 * B + 7 < F.top) {p : Pt (Flt F.fmt)} (hp : MotionWithin B p) {act : Act (AccelSteerIe F)} (ha : act.data.Numbers) :
    (bicycleUpdateIe L P act (p.ieee F)).AllFinite := by
  have hroom := F.room
  obtain ⟨⟨b0, b1⟩, c0, c1⟩ := bounds_small F hP
  obtain ⟨x, hx, ex⟩ := entry_finite (F := F) b0 (by rw [abs_of_nonneg b0]; exact lt_of_le_of_lt b1 (two_pow_lt F (by omega))) ha.1
  obtain ⟨y, hy, ey⟩ := entry_finite (F := F) c0 (by rw [abs_of_nonneg c0]; exact lt_of_le_of_lt c1 (two_pow_lt F (by omega))) ha.2
  have e : bicycleUpdateIe L P act (p.ieee F) =
      bicycleUpdateIe L P { data := ({ accel := x, steering := y } : AccelSteerFl F.fmt).ieee F, valid := act.valid } (p.ieee F) := by
    simp only [bicycleUpdateIe, bicyclePhysicalIe, bicycleClipIe, ex, ey, AccelSteerFl.ieee]
  rw [e]
  exact (C164_no_overflow hs ht hP hB hp (a := { accel := x, steering := y }) ⟨hx, hy⟩ _).2

/-! ### NaN -/

@[simp] theorem clip_nan (lo hi : Ieee F) : (Ieee.nan : Ieee F).clip lo hi = .nan := by simp [Ieee.clip]
@[simp] theorem wrap_nan : (Ieee.nan : Ieee F).wrapYaws = .nan := by simp [Ieee.wrapYaws, Ieee.mod]
@[simp] theorem div_nan_left (a : Ieee F) : (Ieee.nan : Ieee F).div a = .nan := by cases a <;> rfl
@[simp] theorem div_nan_right (a : Ieee F) : a.div .nan = .nan := by cases a <;> rfl
@[simp] theorem abs_nan : (Ieee.nan : Ieee F).abs = .nan := rfl

theorem physical_nan_accel (P : BicycleParamsFl) (st : Ieee F) : (bicyclePhysicalIe P { accel := .nan, steering := st }).accel = .nan := by
  simp only [bicyclePhysicalIe, bicycleClipIe]
  split <;> simp

theorem physical_nan_steering (P : BicycleParamsFl) (ac : Ieee F) : (bicyclePhysicalIe P { accel := ac, steering := .nan }).steering = .nan := by
  simp only [bicyclePhysicalIe, bicycleClipIe]
  split <;> simp

/-- An acceleration of NaN is not clipped away: position, heading and velocity become NaN, and the object stays valid. -/
theorem C164_nan_acceleration (L : Libm F.fmt) (P : BicycleParamsFl) (st : Ieee F) (v : Bool) (p : Pt (Ieee F)) :
    bicycleUpdateIe L P { data := { accel := .nan, steering := st }, valid := v } p =
      { x := .nan, y := .nan, yaw := .nan, velX := .nan, velY := .nan, valid := p.valid && v } := by
  simp [bicycleUpdateIe, physical_nan_accel, travelIe]

/-- A steering of NaN makes heading and velocity NaN; the position does not depend on the steering. -/
theorem C164_nan_steering (L : Libm F.fmt) (P : BicycleParamsFl) (ac : Ieee F) (v : Bool) (p : Pt (Ieee F)) :
    let u := bicycleUpdateIe L P { data := { accel := ac, steering := .nan }, valid := v } p
    u.yaw = .nan ∧ u.velX = .nan ∧ u.velY = .nan ∧ u.valid = (p.valid && v) ∧
    ∀ st, let w := bicycleUpdateIe L P { data := { accel := ac, steering := st }, valid := v } p
      u.x = w.x ∧ u.y = w.y := by
  refine ⟨?_, ?_, ?_, rfl, fun st => ⟨?_, ?_⟩⟩
  · simp [bicycleUpdateIe, physical_nan_steering]
  · simp [bicycleUpdateIe, physical_nan_steering]
  · simp [bicycleUpdateIe, physical_nan_steering]
  · simp only [bicycleUpdateIe, bicyclePhysicalIe, bicycleClipIe]
    split <;> rfl
  · simp only [bicycleUpdateIe, bicyclePhysicalIe, bicycleClipIe]
    split <;> rfl

/-- A valid object at the origin that stands still, as the witness below. -/
noncomputable def restPt (φ : Format) : Pt (Flt φ) :=
  { x := Flt.round φ 0, y := Flt.round φ 0, z := Flt.round φ 0, velX := Flt.round φ 0, velY := Flt.round φ 0, yaw := Flt.round φ 0,
    length := Flt.round φ 1, width := Flt.round φ 1, height := Flt.round φ 1, timestampMicros := 0, valid := true }

theorem rest_within (φ : Format) (B : ℕ) : MotionWithin B (restPt φ) := by
  have h : |φ.fl 0| ≤ 2 ^ B := abs_fl_le (by rw [abs_zero]; positivity)
  exact ⟨h, h, h, h, h⟩

/-- C164 does not hold in full: NaN gets through the clipping. -/
theorem C164_full_violated (F : IeeeFormat) (L : Libm F.fmt) (P : BicycleParamsFl) : ¬ C164_full F L P := by
  intro hf
  have hroom := F.room
  have := (hf 0 { data := { accel := .nan, steering := .nan }, valid := true } (restPt F.fmt) (by omega) (rest_within _ 0)).1
  rw [C164_nan_acceleration] at this
  cases this

/-! ### The rest of the episode -/

theorem update_nan_velocity (L : Libm F.fmt) (P : BicycleParamsFl) (act : Act (AccelSteerIe F)) {p : Pt (Ieee F)}
    (h : p.velX = .nan ∨ p.velY = .nan) :
    (bicycleUpdateIe L P act p).yaw = .nan ∧ (bicycleUpdateIe L P act p).velX = .nan ∧ (bicycleUpdateIe L P act p).velY = .nan := by
  have hs : speedIe L p.velX p.velY = .nan := by rcases h with h | h <;> simp [speedIe, h]
  simp [bicycleUpdateIe, travelIe, hs]

theorem update_nan_position (L : Libm F.fmt) (P : BicycleParamsFl) (act : Act (AccelSteerIe F)) {p : Pt (Ieee F)}
    (hx : p.velX = .nan) (hy : p.velY = .nan) : (bicycleUpdateIe L P act p).x = .nan ∧ (bicycleUpdateIe L P act p).y = .nan := by
  simp [bicycleUpdateIe, hx, hy]

theorem update_nan_action (L : Libm F.fmt) (P : BicycleParamsFl) {act : Act (AccelSteerIe F)} (h : ¬ act.data.Numbers) (p : Pt (Ieee F)) :
    (bicycleUpdateIe L P act p).yaw = .nan ∧ (bicycleUpdateIe L P act p).velX = .nan ∧ (bicycleUpdateIe L P act p).velY = .nan := by
  obtain ⟨⟨ac, st⟩, v⟩ := act
  by_cases ha : ac = .nan
  · subst ha
    rw [C164_nan_acceleration]
    exact ⟨rfl, rfl, rfl⟩
  · have : st = .nan := by
      by_contra hst
      exact h ⟨ha, hst⟩
    subst this
    have := C164_nan_steering L P ac v p
    exact ⟨this.1, this.2.1, this.2.2.1⟩

section
variable {n T : Nat} [NeZero T]

/-- One action with NaN in it is never made up for: from the step it is executed to the end of the episode, whatever the later actions are, the
heading and the velocity of the controlled object are NaN, and from the next step on so is its position. -/
theorem C164_never_recovers {L : Libm F.fmt} {P : BicycleParamsFl} {cfg : EnvConfig} {scen s0 s1 : SimState (Ieee F) n T}
    {acts : List (Fin n → Act (AccelSteerIe F))} (E : Episode (bicycleIe L P) cfg scen s0 acts s1) {i : Fin n} (hi : IsControlled cfg s0 i)
    {k : Nat} (hk : k < acts.length) (hbad : ¬ (acts[k] i).data.Numbers) {t : Fin T} (h1 : cfg.initSteps + k ≤ t.val)
    (h2 : t.val < cfg.initSteps + acts.length) :
    let p := s1.simTrajectory i t
    p.yaw = .nan ∧ p.velX = .nan ∧ p.velY = .nan ∧ (cfg.initSteps + k < t.val → p.x = .nan ∧ p.y = .nan) := by
  have hw := E.warm
  obtain ⟨m, hm⟩ : ∃ m, t.val = cfg.initSteps + k + m := ⟨t.val - (cfg.initSteps + k), by omega⟩
  induction m generalizing t with
  | zero =>
    obtain ⟨c, hc, hrec⟩ := E.recurrence hk (t := ⟨t.val - 1, by omega⟩) (t' := t) (by simp only; omega) (by omega) i
    have hct : c = true := hc.2 hi
    subst hct
    obtain ⟨a, b, d⟩ := update_nan_action L P hbad (s1.simTrajectory i ⟨t.val - 1, by omega⟩)
    intro p
    have hp : p = s1.simTrajectory i t := rfl
    rw [hrec] at hp
    rw [hp]
    refine ⟨?_, ?_, ?_, fun h => absurd h (by omega)⟩
    · simpa [updatedPt, newField, bicycleIe, DynamicsModel.ofSingle] using a
    · simpa [updatedPt, newField, bicycleIe, DynamicsModel.ofSingle] using b
    · simpa [updatedPt, newField, bicycleIe, DynamicsModel.ofSingle] using d
  | succ m ih =>
    have hlt : t.val - 1 < T := by omega
    obtain ⟨-, ivx, ivy, -⟩ := ih (t := ⟨t.val - 1, hlt⟩) (by simp only; omega) (by simp only; omega) (by simp only; omega)
    have hkm : k + (m + 1) < acts.length := by omega
    obtain ⟨c, hc, hrec⟩ := E.recurrence hkm (t := ⟨t.val - 1, hlt⟩) (t' := t) (by simp only; omega) (by omega) i
    have hct : c = true := hc.2 hi
    subst hct
    obtain ⟨a, b, d⟩ := update_nan_velocity L P (acts[k + (m + 1)] i) (.inl ivx)
    obtain ⟨e, f⟩ := update_nan_position L P (acts[k + (m + 1)] i) ivx ivy
    intro p
    have hp : p = s1.simTrajectory i t := rfl
    rw [hrec] at hp
    rw [hp]
    refine ⟨?_, ?_, ?_, fun _ => ⟨?_, ?_⟩⟩
    · simpa [updatedPt, newField, bicycleIe, DynamicsModel.ofSingle] using a
    · simpa [updatedPt, newField, bicycleIe, DynamicsModel.ofSingle] using b
    · simpa [updatedPt, newField, bicycleIe, DynamicsModel.ofSingle] using d
    · simpa [updatedPt, newField, bicycleIe, DynamicsModel.ofSingle] using e
    · simpa [updatedPt, newField, bicycleIe, DynamicsModel.ofSingle] using f

/-! ### What the metric says -/

theorem lt_zero_false {x : Flt F.fmt} (h : 0 ≤ x.val) : (Ieee.ofFlt F x).lt (Ieee.ofReal F 0).abs = false := by
  rw [Ieee.ofReal_zero]
  unfold Ieee.ofFlt Ieee.zero
  split
  · simp [Ieee.lt, Ieee.abs, Flt.abs, h]
  · simp [Ieee.lt, Ieee.abs, h]

/-- The kinematic infeasibility metric rates a valid object whose velocity is NaN as feasible. -/
theorem C164_rated_feasible (L : Libm F.fmt) {K : KimParamsFl} (hK : 0 ≤ K.maxSteering.val) {s : SimState (Ieee F) n T} {i : Fin n}
    {t t' : Fin T} (ht' : (t' : Nat) = t + 1) (hs : (t' : Int) = s.timestep) (hv : (s.simTrajectory i t).valid = true)
    (hv' : (s.simTrajectory i t').valid = true)
    (hnan : (s.simTrajectory i t).velX = .nan ∨ (s.simTrajectory i t).velY = .nan ∨ (s.simTrajectory i t').velX = .nan ∨
      (s.simTrajectory i t').velY = .nan) :
    kinematicsInfeasibilityMetricIe L K s i = { value := Ieee.ofReal F 0, valid := true } := by
  have hw : window2 (s.simTrajectory i) (s.timestep - 1) = (s.simTrajectory i t, s.simTrajectory i t') := by
    have : s.timestep - 1 = ((t : Nat) : Int) := by omega
    rw [this, window2_eq _ ht']
  generalize s.simTrajectory i t = p at *
  generalize s.simTrajectory i t' = q at *
  have hthr : 0 ≤ (kimThreshold F.fmt K.maxSteering).val := fl_nonneg (fl_nonneg (add_nonneg hK (fl_nonneg (by norm_num))))
  have hacc : (bicycleInversePairIe L K.dt p q).accel = .nan := by
    simp only [bicycleInversePairIe]
    rcases hnan with h | h | h | h <;> simp [speedIe, h]
  have hst : (bicycleInversePairIe L K.dt p q).steering = .nan ∨ (bicycleInversePairIe L K.dt p q).steering = Ieee.ofReal F 0 := by
    have hn : ((speedIe L q.velX q.velY).sub (speedIe L p.velX p.velY)).div (pyIe F K.dt) = .nan := hacc
    simp only [bicycleInversePairIe, hn, travelIe]
    simp only [Ieee.mul_nan, Ieee.nan_mul, Ieee.add_nan, div_nan_right]
    split
    · exact .inr rfl
    · split
      · exact .inr rfl
      · exact .inl rfl
  simp only [kinematicsInfeasibilityMetricIe, bicycleComputeInverseIe, hw, hv, hv', Bool.and_self, if_true, hacc, abs_nan, Ieee.lt_nan,
    Bool.false_or]
  rcases hst with h | h
  · simp [h]
  · rw [h, lt_zero_false hthr]
    simp

end

/-! ### Cases -/

/-- The default arguments of the bicycle model and of the metric are of ordinary size. -/
theorem default_moderate (normalize : Bool) : ModerateLimits (.default normalize) := by
  have h1 : |float64.fl 0.1| ≤ 2 ^ 0 := abs_fl_le (by norm_num)
  have h3 : |float64.fl 0.3| ≤ 2 ^ 0 := abs_fl_le (by norm_num)
  have h30 : 0 ≤ float64.fl 0.3 := fl_nonneg (by norm_num)
  have h6 := float64_six normalize
  rw [pow_zero] at h1
  refine ⟨h1, ⟨?_, ?_⟩, h30, ?_⟩
  · rw [h6]; norm_num
  · rw [h6]; norm_num
  · rw [abs_of_nonneg h30, pow_zero] at h3
    exact h3

/-- In single precision, with coordinates and speeds up to `2 ^ 60`, the default model turns every action without NaN into finite numbers. -/
example (normalize : Bool) (neg : Bool) :
    (bicycleUpdateIe (F := binary32) (exactLibm float32) (.default normalize)
      { data := { accel := .inf neg, steering := .inf neg }, valid := true } ((restPt float32).ieee binary32)).AllFinite :=
  C164_no_nan_partial (F := binary32) (exactLibm_sane _).1 (exactLibm_sane _).2 (default_moderate _) (B := 60) (by decide) (rest_within _ _)
    ⟨by simp, by simp⟩

/-- One object at rest at the origin, in three steps. -/
noncomputable def restScen (F : IeeeFormat) : SimState (Ieee F) 1 3 :=
  { simTrajectory := fun _ _ => (restPt F.fmt).ieee F, logTrajectory := fun _ _ => (restPt F.fmt).ieee F, logTrafficLight := [],
    objectMetadata := soloMeta, timestep := 0, sdcPaths := none, roadgraphPoints := none }

/-- Control of the SDC, no new objects. -/
def exBadCfg : EnvConfig := { maxNumObjects := 1, initSteps := 1, allowNewObjectsAfterWarmup := false }

/-- A NaN action, then a proper one. -/
noncomputable def badActs (F : IeeeFormat) : List (Fin 1 → Act (AccelSteerIe F)) :=
  [fun _ => { data := { accel := .nan, steering := Ieee.ofReal F 0 }, valid := true },
   fun _ => { data := { accel := Ieee.ofReal F 0, steering := Ieee.ofReal F 0 }, valid := true }]

/-- The hypotheses of the statement about the rest of the episode are met. -/
example (L : Libm F.fmt) : ∃ s0 s1, Episode (bicycleIe L (.default false)) exBadCfg (restScen F) s0 (badActs F) s1 ∧
    (s1.simTrajectory 0 2).x = .nan ∧ (s1.simTrajectory 0 2).valid = true ∧
    kinematicsInfeasibilityMetricIe L .default s1 0 = { value := Ieee.ofReal F 0, valid := true } := by
  have E : ∃ s0 s1, Episode (bicycleIe L (.default false)) exBadCfg (restScen F) s0 (badActs F) s1 :=
    ⟨_, _, rfl, rfl, by decide, by simp [badActs, exBadCfg]⟩
  obtain ⟨s0, s1, E⟩ := E
  have hc : IsControlled exBadCfg s0 0 := by
    rw [E.reset_data]
    simp [IsControlled, restScen, soloMeta, exBadCfg]
  have hlen : 0 < (badActs F).length := by simp [badActs]
  have hbad : ¬ ((badActs F)[0] 0).data.Numbers := fun h => h.1 rfl
  have ht : s1.timestep = 2 := by rw [E.timestep_eq]; rfl
  have hv (t : Fin 3) : (s1.simTrajectory 0 t).valid = true := by
    have := (C07_validity_without_injection E rfl 0 (t0 := 0) (t := t) rfl (Fin.zero_le _) (by rw [ht]; omega)).1 hc
    exact this
  have h2 := C164_never_recovers E hc (k := 0) hlen hbad (t := 2) (by decide) (by simp [badActs, exBadCfg])
  refine ⟨s0, s1, E, (h2.2.2.2 (by decide)).1, hv 2, ?_⟩
  exact C164_rated_feasible L (fl_nonneg (by norm_num)) (t := 1) (t' := 2) rfl (by rw [ht]; rfl) (hv 1) (hv 2) (.inr (.inr (.inl h2.2.1)))

end

end Waymax
