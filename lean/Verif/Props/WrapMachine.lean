import Verif.Model.Machine
import Mathlib.Analysis.Real.Pi.Bounds
/-
C132: yaw wrapping in machine arithmetic.
-/

namespace Waymax

open Real

namespace Flt

variable {φ : Format}

theorem float64_pi : float64.fl π = 7074237752028440 * 2 ^ (-51 : ℤ) := by
  have h1 := Real.pi_gt_d20
  have h2 := Real.pi_lt_d20
  rw [Format.fl_eq (e := -51) (by rw [abs_of_pos Real.pi_pos]; norm_num [float64]; linarith)
    (by rw [abs_of_pos Real.pi_pos]; norm_num [float64]; linarith) (by decide)]
  have : rint (π / 2 ^ (-51 : ℤ)) = 7074237752028440 := by
    apply rint_eq_of_abs_lt
    rw [abs_lt]
    norm_num
    constructor <;> linarith
  rw [this]
  norm_num

theorem normal_of_one_le {x : ℝ} (h : 1 ≤ |x|) : (2 : ℝ) ^ (φ.emin + φ.prec - 1) ≤ |x| := by
  refine le_trans ?_ h
  rw [show (1 : ℝ) = 2 ^ (0 : ℤ) by norm_num]
  apply zpow_le_zpow_right₀ (by norm_num)
  have := φ.normal_one
  omega

theorem rep_one : φ.Rep 1 := by
  have := φ.two_le
  have hn := φ.normal_one
  refine ⟨1, 0, ?_, by omega, by simp⟩
  rw [abs_one]
  exact_mod_cast Nat.one_lt_two_pow (by omega)

/-- The machine's π is twice a number of the format that is at least 1. -/
theorem pi_half : ∃ h : ℝ, φ.Rep h ∧ 1 ≤ h ∧ h ≤ 2 ∧ (pi φ).val = 2 * h := by
  refine ⟨φ.fl (float64.fl π / 2), φ.rep_fl _, Format.le_fl_of_rep rep_one ?_, Format.fl_le_of_rep ?_ ?_, ?_⟩
  · rw [float64_pi]
    norm_num
  · have := (rep_one (φ := φ)).double
    simpa using this
  · rw [float64_pi]
    norm_num
  · show φ.fl (float64.fl π) = _
    rw [← Format.fl_double (normal_of_one_le (by rw [float64_pi]; norm_num))]
    congr 1
    ring

theorem pi_pos : 0 < (pi φ).val := by
  obtain ⟨h, -, h1, -, e⟩ := pi_half (φ := φ)
  rw [e]
  linarith

theorem twoPi_eq : (twoPi φ).val = 2 * (pi φ).val := by
  show φ.fl (float64.fl (2 * float64.fl π)) = 2 * φ.fl (float64.fl π)
  rw [Format.fl_of_rep (float64.rep_fl π).double, Format.fl_double (normal_of_one_le (by rw [float64_pi]; norm_num))]

/-- The remainder has the sign of the dividend and is the dividend minus a multiple of the divisor. -/
theorem rem_spec (a b : Flt φ) (hb : 0 < b.val) :
    |(rem a b).val| < b.val ∧ (0 ≤ a.val → 0 ≤ (rem a b).val) ∧ (a.val ≤ 0 → (rem a b).val ≤ 0) ∧
      ∃ k : ℤ, (rem a b).val = a.val - b.val * k := by
  have hq : b.val * (a.val / b.val) = a.val := by field_simp
  refine ⟨?_, ?_, ?_, ?_⟩
  · have := (truncRem_le a.val b.val).2 hb.ne'
    rwa [abs_of_pos hb] at this
  · intro h
    have h' : 0 ≤ a.val / b.val := div_nonneg h hb.le
    show 0 ≤ truncRem _ _
    unfold truncRem
    rw [if_pos h']
    nlinarith [Int.floor_le (a.val / b.val)]
  · intro h
    show truncRem _ _ ≤ 0
    unfold truncRem
    split_ifs with h'
    · have : a.val = 0 := by
        rcases h.eq_or_lt with e | hl
        · exact e
        · exact absurd (div_neg_of_neg_of_pos hl hb) (not_lt.2 h')
      rw [this]
      simp
    · nlinarith [Int.le_ceil (a.val / b.val)]
  · show ∃ k : ℤ, truncRem _ _ = _
    unfold truncRem
    split_ifs
    · exact ⟨_, rfl⟩
    · exact ⟨_, rfl⟩

theorem mod_eq (a b : Flt φ) (hb : 0 < b.val) : mod a b = if (rem a b).val < 0 then add (rem a b) b else rem a b := by
  unfold mod
  by_cases h : (rem a b).val < 0
  · simp only [if_pos h]
    rw [if_pos ⟨by simp [h, hb.le], h.ne⟩]
  · simp only [if_neg h]
    rw [if_neg]
    rintro ⟨h1, -⟩
    exact h (h1.2 (not_lt.2 hb.le))

theorem mod_mem (a b : Flt φ) (hb : 0 < b.val) : 0 ≤ (mod a b).val ∧ (mod a b).val ≤ b.val := by
  obtain ⟨h1, -, -, -⟩ := rem_spec a b hb
  rw [abs_lt] at h1
  rw [mod_eq a b hb]
  split_ifs with h
  · constructor
    · exact Format.le_fl_of_rep Format.Rep.zero (by linarith)
    · exact Format.fl_le_of_rep b.property (by linarith)
  · exact ⟨not_lt.1 h, h1.2.le⟩

/-- A dividend between zero and the divisor is its own remainder. -/
theorem mod_self {a b : Flt φ} (h0 : 0 ≤ a.val) (h1 : a.val < b.val) : mod a b = a := by
  have hb : 0 < b.val := lt_of_le_of_lt h0 h1
  have e : (rem a b).val = a.val := by
    show truncRem _ _ = _
    unfold truncRem
    rw [if_pos (div_nonneg h0 hb.le), Int.floor_eq_zero_iff.2 ⟨div_nonneg h0 hb.le, (div_lt_one hb).2 h1⟩]
    simp
  rw [mod_eq a b hb, if_neg (by rw [e]; exact not_lt.2 h0)]
  exact Subtype.ext e

end Flt

open Flt

section
variable {φ : Format}

/-- A wrapped yaw is between -π and π, where π is the machine's π. -/
theorem C132_range (y : Flt φ) : -(Flt.pi φ).val ≤ y.wrapYaws.val ∧ y.wrapYaws.val ≤ (Flt.pi φ).val := by
  have hp := pi_pos (φ := φ)
  have ht := twoPi_eq (φ := φ)
  obtain ⟨h0, h1⟩ := mod_mem (add y (Flt.pi φ)) (twoPi φ) (by rw [ht]; linarith)
  rw [ht] at h1
  constructor
  · exact Format.le_fl_of_rep (Flt.pi φ).property.neg (by linarith)
  · exact Format.fl_le_of_rep (Flt.pi φ).property (by linarith)

/-- A wrapped yaw is the yaw minus full turns of the machine, up to a rounding error relative to the size of the yaw and of π. -/
theorem C132_same_angle (y : Flt φ) :
    ∃ k : ℤ, |y.wrapYaws.val - (y.val - k * (2 * (Flt.pi φ).val))| ≤ φ.u * (|y.val| + 4 * (Flt.pi φ).val) := by
  have hp := pi_pos (φ := φ)
  have ht := twoPi_eq (φ := φ)
  have hu := φ.u_pos
  have hb : 0 < (twoPi φ).val := by rw [ht]; linarith
  obtain ⟨p, hpe⟩ : ∃ p, p = (Flt.pi φ).val := ⟨_, rfl⟩
  obtain ⟨s, hs⟩ : ∃ s, s = add y (Flt.pi φ) := ⟨_, rfl⟩
  have es : |s.val - (y.val + p)| ≤ φ.u * (|y.val| + p) := by
    rw [hs, hpe]
    refine (Format.fl_add_rel y.property (Flt.pi φ).property).trans (mul_le_mul_of_nonneg_left ?_ hu.le)
    exact (abs_add_le _ _).trans (by rw [abs_of_pos hp])
  obtain ⟨m, hm⟩ : ∃ m, m = mod s (twoPi φ) := ⟨_, rfl⟩
  obtain ⟨h0, h1⟩ := mod_mem s (twoPi φ) hb
  rw [← hm, ht, ← hpe] at h1
  rw [← hm] at h0
  have ew : |y.wrapYaws.val - (m.val - p)| ≤ φ.u * p := by
    have : y.wrapYaws = sub m (Flt.pi φ) := by rw [hm, hs]; rfl
    rw [this, hpe]
    refine (Format.fl_sub_rel m.property (Flt.pi φ).property).trans (mul_le_mul_of_nonneg_left ?_ hu.le)
    rw [← hpe, abs_le]
    constructor <;> linarith
  have em : ∃ k : ℤ, |m.val - (s.val - k * (2 * p))| ≤ φ.u * (2 * p) := by
    obtain ⟨r1, -, -, k, hk⟩ := rem_spec s (twoPi φ) hb
    rw [abs_lt, ht, ← hpe] at r1
    rw [ht, ← hpe] at hk
    rw [hm, mod_eq s _ hb]
    split_ifs with h
    · refine ⟨k - 1, ?_⟩
      have := Format.fl_add_rel (rem s (twoPi φ)).property (twoPi φ).property
      rw [ht, ← hpe] at this
      rw [show s.val - ((k - 1 : ℤ) : ℝ) * (2 * p) = (rem s (twoPi φ)).val + 2 * p by rw [hk]; push_cast; ring]
      show |φ.fl ((rem s (twoPi φ)).val + (twoPi φ).val) - _| ≤ _
      rw [ht, ← hpe]
      refine this.trans (mul_le_mul_of_nonneg_left ?_ hu.le)
      rw [abs_le]
      constructor <;> linarith
    · refine ⟨k, ?_⟩
      rw [hk, show s.val - 2 * p * k - (s.val - k * (2 * p)) = 0 by ring, abs_zero]
      rw [← hpe] at hp
      positivity
  obtain ⟨k, em⟩ := em
  refine ⟨k, ?_⟩
  rw [← hpe]
  rw [abs_le] at *
  constructor <;> nlinarith [es.1, es.2, ew.1, ew.2, em.1, em.2]

/-- The shape of wrapping: the yaw is shifted, and a number `m` between 0 and a full turn is shifted back. -/
theorem wrapYaws_of_shift {r : Flt φ} {m : Flt φ} (hm : m.val = r.val + (Flt.pi φ).val) (h0 : 0 ≤ m.val)
    (h1 : m.val < 2 * (Flt.pi φ).val) : r.wrapYaws = r := by
  have e1 : add r (Flt.pi φ) = m := by
    apply Subtype.ext
    show φ.fl (r.val + (Flt.pi φ).val) = m.val
    rw [← hm, Format.fl_of_rep m.property]
  unfold Flt.wrapYaws
  rw [e1, mod_self h0 (by rw [twoPi_eq]; exact h1)]
  apply Subtype.ext
  show φ.fl (m.val - (Flt.pi φ).val) = r.val
  rw [hm, add_sub_cancel_right, Format.fl_of_rep r.property]

/-- A wrapped yaw plus π is a number of the format. -/
theorem rep_wrap_add_pi (y : Flt φ) : φ.Rep (y.wrapYaws.val + (Flt.pi φ).val) := by
  have hp := pi_pos (φ := φ)
  obtain ⟨r0, r1⟩ := C132_range y
  obtain ⟨h, hh, -, -, hpe⟩ := pi_half (φ := φ)
  obtain ⟨h0, h1⟩ := mod_mem (add y (Flt.pi φ)) (twoPi φ) (by rw [twoPi_eq]; linarith)
  rw [twoPi_eq] at h1
  obtain ⟨m, hm⟩ : ∃ m, m = mod (add y (Flt.pi φ)) (twoPi φ) := ⟨_, rfl⟩
  have hw : y.wrapYaws.val = φ.fl (m.val - (Flt.pi φ).val) := by rw [hm]; rfl
  rw [← hm] at h0 h1
  rcases le_or_gt ((Flt.pi φ).val) (2 * m.val) with hc | hc
  · rw [hw, Format.fl_of_rep (Format.sterbenz m.property (Flt.pi φ).property hc h1), sub_add_cancel]
    exact m.property
  · have hle : y.wrapYaws.val ≤ -h := by
      rw [hw]
      exact Format.fl_le_of_rep hh.neg (by linarith)
    have := Format.sterbenz (Flt.pi φ).property y.wrapYaws.property.neg (by linarith) (by linarith)
    rwa [sub_neg_eq_add, add_comm] at this

/-- Wrapping twice is wrapping once, unless the result is π itself. -/
theorem C132_idempotent (y : Flt φ) (hy : y.wrapYaws.val ≠ (Flt.pi φ).val) : y.wrapYaws.wrapYaws = y.wrapYaws := by
  obtain ⟨r0, r1⟩ := C132_range y
  have hrep := rep_wrap_add_pi y
  exact wrapYaws_of_shift (m := ⟨_, hrep⟩) rfl (by simp only; linarith)
    (by simp only; have := lt_of_le_of_ne r1 hy; linarith)

/-- `y` is a yaw in the half-open interval from -π to π. -/
def YawInRange (y : Flt φ) : Prop := -(Flt.pi φ).val ≤ y.val ∧ y.val < (Flt.pi φ).val

/-- What holds over the real numbers (C21): a yaw in range is not changed by wrapping. -/
def KeepsYawsInRange (φ : Format) : Prop := ∀ y : Flt φ, YawInRange y → y.wrapYaws = y

/-- A yaw in range is kept exactly when adding π to it is exact. -/
theorem C132_keeps_iff {y : Flt φ} (hy : YawInRange y) : y.wrapYaws = y ↔ φ.Rep (y.val + (Flt.pi φ).val) := by
  constructor
  · intro h
    have := rep_wrap_add_pi y
    rwa [h] at this
  · intro h
    exact wrapYaws_of_shift (m := ⟨_, h⟩) rfl (by simp only; linarith [hy.1]) (by simp only; linarith [hy.2])

end

/-! ### float32 -/

theorem float32_pi : (Flt.pi float32).val = 13176795 * 2 ^ (-22 : ℤ) := by
  show float32.fl (float64.fl π) = _
  rw [float64_pi, Format.fl_eq (e := -22) (by rw [abs_of_pos (by positivity)]; norm_num [float32])
    (by rw [abs_of_pos (by positivity)]; norm_num [float32]) (by decide)]
  have : rint (7074237752028440 * 2 ^ (-51 : ℤ) / 2 ^ (-22 : ℤ)) = 13176795 := by
    apply rint_eq_of_abs_lt
    rw [abs_lt]
    norm_num
  rw [this]
  norm_num

/-- C132: the format called float32 has the numbers of IEEE single precision: the smallest positive number is `2 ^ -149`, all integers up to
`2 ^ 24` in magnitude are numbers of the format, and `2 ^ 24 + 1` is not. -/
theorem C132_float32_numbers : (float32.Rep (2 ^ (-149 : ℤ)) ∧ ∀ x, float32.Rep x → 0 < x → 2 ^ (-149 : ℤ) ≤ x) ∧
    (∀ k : ℤ, |k| ≤ 2 ^ 24 → float32.Rep k) ∧ ¬ float32.Rep (2 ^ 24 + 1) := by
  refine ⟨⟨⟨1, -149, by decide, by decide, by norm_num⟩, fun x hx h0 => ?_⟩, fun k hk => Format.rep_int hk (by decide), ?_⟩
  · obtain ⟨k, hk⟩ := hx.grid
    have hp := Format.two_zpow_pos (-149)
    rw [show float32.emin = -149 from rfl] at hk
    rw [hk] at h0 ⊢
    have h1 : (0 : ℝ) < k := (mul_pos_iff_of_pos_right hp).1 h0
    have h2 : (1 : ℝ) ≤ k := by exact_mod_cast h1
    nlinarith
  · rintro hx
    obtain ⟨k, hk⟩ := hx.gap (e := 1) (by rw [abs_of_pos (by norm_num)]; norm_num [float32])
    have : ((2 ^ 24 + 1 : ℤ) : ℝ) = ((k * 2 : ℤ) : ℝ) := by
      push_cast
      norm_num at hk ⊢
      exact hk
    have := Int.cast_injective this
    omega

/-- In float32 a wrapped yaw is below π: the interval is half open, as over the real numbers. -/
theorem C132_float32_range (y : Flt float32) :
    -(Flt.pi float32).val ≤ y.wrapYaws.val ∧ y.wrapYaws.val < (Flt.pi float32).val := by
  refine ⟨(C132_range y).1, ?_⟩
  have hb : 0 < (twoPi float32).val := by
    rw [twoPi_eq]
    linarith [pi_pos (φ := float32)]
  have key : (mod (add y (Flt.pi float32)) (twoPi float32)).val ≤ 13176794 * 2 ^ (-21 : ℤ) := by
    obtain ⟨r1, r2, r3, q, hq⟩ := rem_spec (add y (Flt.pi float32)) (twoPi float32) hb
    rw [mod_eq _ _ hb]
    rw [twoPi_eq, float32_pi] at r1 hq
    split_ifs with h
    · -- the dividend is negative, hence a multiple of 2 ^ -22
      have hs : (add y (Flt.pi float32)).val < 0 := by
        by_contra hc
        exact absurd (r2 (not_lt.1 hc)) (not_le.2 h)
      have hy : y.val + (Flt.pi float32).val < 0 := by
        by_contra hc
        exact absurd (Format.le_fl_of_rep (φ := float32) Format.Rep.zero (not_lt.1 hc)) (not_le.2 hs)
      rw [float32_pi] at hy
      obtain ⟨k, hk⟩ := y.property.gap (e := -22) (by
        rw [abs_of_neg (by norm_num at hy; linarith)]
        norm_num [float32] at hy ⊢
        linarith)
      obtain ⟨j, hj⟩ := Format.fl_grid (φ := float32) (k := k + 13176795) (e := -22) (by decide)
      have hj' : (add y (Flt.pi float32)).val = j * 2 ^ (-22 : ℤ) := by
        show float32.fl (y.val + (Flt.pi float32).val) = _
        rw [← hj, hk, float32_pi]
        congr 1
        push_cast
        ring
      have hr : (rem (add y (Flt.pi float32)) (twoPi float32)).val = ((j - 2 * 13176795 * q : ℤ) : ℝ) * 2 ^ (-22 : ℤ) := by
        rw [hq, hj']
        push_cast
        ring
      have hneg : (j - 2 * 13176795 * q : ℤ) ≤ -1 := by
        by_contra hc
        rw [not_le] at hc
        have : (0 : ℤ) ≤ j - 2 * 13176795 * q := by omega
        have : (0 : ℝ) ≤ ((j - 2 * 13176795 * q : ℤ) : ℝ) * 2 ^ (-22 : ℤ) := by
          have h1 : (0 : ℝ) ≤ ((j - 2 * 13176795 * q : ℤ) : ℝ) := by exact_mod_cast this
          positivity
        rw [← hr] at this
        linarith
      have hle : (rem (add y (Flt.pi float32)) (twoPi float32)).val + (twoPi float32).val ≤ (13176794 + 1 / 2) * 2 ^ (-21 : ℤ) := by
        rw [hr, twoPi_eq, float32_pi]
        have h1 : ((j - 2 * 13176795 * q : ℤ) : ℝ) ≤ -1 := by exact_mod_cast hneg
        have h2 : (0 : ℝ) < 2 ^ (-22 : ℤ) := by positivity
        have h3 : (2 : ℝ) ^ (-21 : ℤ) = 2 * 2 ^ (-22 : ℤ) := by norm_num
        rw [h3]
        generalize ((j - 2 * 13176795 * q : ℤ) : ℝ) = c at h1
        generalize (2 : ℝ) ^ (-22 : ℤ) = e at h2
        nlinarith
      show float32.fl _ ≤ _
      refine (Format.fl_mono hle).trans ?_
      rw [Format.fl_eq (e := -21) (by rw [abs_of_pos (by positivity)]; norm_num [float32])
        (by rw [abs_of_pos (by positivity)]; norm_num [float32]) (by decide)]
      have : rint ((13176794 + 1 / 2) * 2 ^ (-21 : ℤ) / 2 ^ (-21 : ℤ)) = 13176794 := by
        rw [mul_div_assoc, div_self (by positivity), mul_one]
        have := Format.rint_half (k := 13176794)
        norm_num at this ⊢
        exact this
      rw [this]
      norm_num
    · -- the remainder is below a full turn
      rw [abs_lt] at r1
      by_contra hc
      rw [not_le] at hc
      obtain ⟨k, hk⟩ := (rem (add y (Flt.pi float32)) (twoPi float32)).property.gap (e := -21) (by
        rw [abs_of_pos (lt_trans (by positivity) hc)]
        norm_num [float32] at hc ⊢
        linarith)
      rw [hk] at hc r1
      have h2 : (0 : ℝ) < 2 ^ (-21 : ℤ) := by positivity
      have a1 : (13176794 : ℝ) < k := lt_of_mul_lt_mul_right hc h2.le
      have a2 : (k : ℝ) < 13176795 := by
        have h3 : (2 : ℝ) ^ (-22 : ℤ) * 2 = 2 ^ (-21 : ℤ) := by norm_num
        have := r1.2
        rw [show 2 * (13176795 * (2 : ℝ) ^ (-22 : ℤ)) = 13176795 * 2 ^ (-21 : ℤ) by rw [← h3]; ring] at this
        exact lt_of_mul_lt_mul_right this h2.le
      have b1 : (13176794 : ℤ) < k := by exact_mod_cast a1
      have b2 : k < (13176795 : ℤ) := by exact_mod_cast a2
      omega
  have hlt : 13176794 * (2 : ℝ) ^ (-21 : ℤ) - (Flt.pi float32).val ≤ 13176793 * 2 ^ (-22 : ℤ) := by
    rw [float32_pi]
    norm_num
  have hrep : float32.Rep (13176793 * 2 ^ (-22 : ℤ)) := ⟨13176793, -22, by decide, by decide, by norm_num⟩
  refine lt_of_le_of_lt (Format.fl_le_of_rep hrep (le_trans (sub_le_sub_right key _) hlt)) ?_
  rw [float32_pi]
  norm_num

/-- In float32 wrapping twice is wrapping once, always. -/
theorem C132_float32_idempotent (y : Flt float32) : y.wrapYaws.wrapYaws = y.wrapYaws :=
  C132_idempotent y (C132_float32_range y).2.ne

/-- The number 2 ^ -30 of float32, a very small heading. -/
noncomputable def tinyYaw : Flt float32 := ⟨2 ^ (-30 : ℤ), 1, -30, by decide, by decide, by norm_num⟩

theorem tinyYaw_in_range : YawInRange tinyYaw := by
  constructor <;> rw [float32_pi] <;> norm_num [tinyYaw]

/-- In float32 wrapping does change yaws in range: the heading 2 ^ -30 loses its digits. -/
theorem C132_keeps_yaws_in_range_violated : ¬ KeepsYawsInRange float32 := by
  intro h
  have := (C132_keeps_iff tinyYaw_in_range).1 (h tinyYaw tinyYaw_in_range)
  rw [float32_pi] at this
  obtain ⟨k, hk⟩ := this.gap (e := -22) (by
    rw [abs_of_pos (by norm_num [tinyYaw])]
    norm_num [float32, tinyYaw])
  norm_num [tinyYaw] at hk
  have h2 : (k : ℝ) * 256 = 13176795 * 256 + 1 := by linarith
  have h3 : k * 256 = 13176795 * 256 + 1 := by exact_mod_cast h2
  omega

/-- The part that holds: in float32 a yaw in range changes by at most three rounding units of π. -/
theorem C132_float32_in_range_partial {y : Flt float32} (hy : YawInRange y) :
    |y.wrapYaws.val - y.val| ≤ 3 * float32.u * (Flt.pi float32).val := by
  obtain ⟨h0, h1⟩ := hy
  have hp := pi_pos (φ := float32)
  have hu := float32.u_pos
  have hy1 : y.val ≤ 13176794 * 2 ^ (-22 : ℤ) := by
    by_contra hc
    rw [not_le] at hc
    obtain ⟨k, hk⟩ := y.property.gap (e := -22) (by
      rw [abs_of_pos (lt_trans (by positivity) hc)]
      norm_num [float32] at hc ⊢
      linarith)
    rw [hk] at hc
    rw [hk, float32_pi] at h1
    have h2 : (0 : ℝ) < 2 ^ (-22 : ℤ) := by positivity
    have a1 : (13176794 : ℝ) < k := lt_of_mul_lt_mul_right hc h2.le
    have a2 : (k : ℝ) < 13176795 := lt_of_mul_lt_mul_right h1 h2.le
    have b1 : (13176794 : ℤ) < k := by exact_mod_cast a1
    have b2 : k < (13176795 : ℤ) := by exact_mod_cast a2
    omega
  obtain ⟨s, hs⟩ : ∃ s, s = add y (Flt.pi float32) := ⟨_, rfl⟩
  have s0 : 0 ≤ s.val := by
    rw [hs]
    exact Format.le_fl_of_rep Format.Rep.zero (by linarith)
  have s1 : s.val ≤ 13176794 * 2 ^ (-21 : ℤ) := by
    rw [hs]
    show float32.fl _ ≤ _
    have hle : y.val + (Flt.pi float32).val ≤ (13176794 + 1 / 2) * 2 ^ (-21 : ℤ) := by
      rw [float32_pi]
      norm_num at hy1 ⊢
      linarith
    refine (Format.fl_mono hle).trans ?_
    rw [Format.fl_eq (e := -21) (by rw [abs_of_pos (by positivity)]; norm_num [float32])
      (by rw [abs_of_pos (by positivity)]; norm_num [float32]) (by decide)]
    have : rint ((13176794 + 1 / 2) * 2 ^ (-21 : ℤ) / 2 ^ (-21 : ℤ)) = 13176794 := by
      rw [mul_div_assoc, div_self (by positivity), mul_one]
      have := Format.rint_half (k := 13176794)
      norm_num at this ⊢
      exact this
    rw [this]
    norm_num
  have s2 : s.val < (twoPi float32).val := by
    rw [twoPi_eq, float32_pi]
    refine lt_of_le_of_lt s1 ?_
    norm_num
  have es : |s.val - (y.val + (Flt.pi float32).val)| ≤ float32.u * (2 * (Flt.pi float32).val) := by
    rw [hs]
    refine (Format.fl_add_rel y.property (Flt.pi float32).property).trans (mul_le_mul_of_nonneg_left ?_ hu.le)
    rw [abs_of_nonneg (by linarith)]
    linarith
  have ew : |y.wrapYaws.val - (s.val - (Flt.pi float32).val)| ≤ float32.u * (Flt.pi float32).val := by
    have : y.wrapYaws = sub s (Flt.pi float32) := by
      show sub (mod (add y (Flt.pi float32)) (twoPi float32)) (Flt.pi float32) = _
      rw [← hs, mod_self s0 s2]
    rw [this]
    refine (Format.fl_sub_rel s.property (Flt.pi float32).property).trans (mul_le_mul_of_nonneg_left ?_ hu.le)
    rw [twoPi_eq] at s2
    rw [abs_le]
    constructor <;> linarith
  rw [abs_le] at *
  constructor <;> nlinarith [es.1, es.2, ew.1, ew.2]

/-! ### float64 -/

theorem float64_machine_pi : (Flt.pi float64).val = 7074237752028440 * 2 ^ (-51 : ℤ) := by
  show float64.fl (float64.fl π) = _
  rw [Format.fl_fl, float64_pi]

/-- The number just below -π in float64. -/
noncomputable def belowMinusPi : Flt float64 :=
  ⟨-7074237752028441 * 2 ^ (-51 : ℤ), -7074237752028441, -51, by decide, by decide, by norm_num⟩

/-- With 64 bits the interval is closed: the yaw just below -π is wrapped to π itself, and wrapping that again gives -π. -/
theorem C132_float64_reaches_pi :
    belowMinusPi.wrapYaws = Flt.pi float64 ∧ (Flt.pi float64).wrapYaws = (Flt.pi float64).neg := by
  have hb : 0 < (twoPi float64).val := by
    rw [twoPi_eq]
    linarith [pi_pos (φ := float64)]
  constructor
  · have e1 : (add belowMinusPi (Flt.pi float64)).val = -1 * 2 ^ (-51 : ℤ) := by
      show float64.fl _ = _
      rw [float64_machine_pi, show belowMinusPi.val + 7074237752028440 * 2 ^ (-51 : ℤ) = -1 * 2 ^ (-51 : ℤ) by
        show -7074237752028441 * (2 : ℝ) ^ (-51 : ℤ) + _ = _
        ring]
      exact Format.fl_of_rep ⟨-1, -51, by decide, by decide, by norm_num⟩
    have e2 : (rem (add belowMinusPi (Flt.pi float64)) (twoPi float64)).val = -1 * 2 ^ (-51 : ℤ) := by
      show truncRem _ _ = _
      rw [e1, twoPi_eq, float64_machine_pi]
      have hc : ⌈(-1 * 2 ^ (-51 : ℤ) : ℝ) / (2 * (7074237752028440 * 2 ^ (-51 : ℤ)))⌉ = 0 := by
        rw [Int.ceil_eq_iff]
        constructor <;> norm_num
      unfold truncRem
      rw [if_neg (by rw [not_le]; norm_num), hc]
      simp
    have e3 : (mod (add belowMinusPi (Flt.pi float64)) (twoPi float64)).val = 2 * (Flt.pi float64).val := by
      rw [mod_eq _ _ hb, if_pos (by rw [e2]; norm_num)]
      show float64.fl _ = _
      rw [e2, twoPi_eq, float64_machine_pi,
        show (-1 * 2 ^ (-51 : ℤ) : ℝ) + 2 * (7074237752028440 * 2 ^ (-51 : ℤ)) = (7074237752028439 + 1 / 2) * 2 ^ (-50 : ℤ) by
          norm_num,
        Format.fl_eq (e := -50) (by rw [abs_of_pos (by positivity)]; norm_num [float64])
        (by rw [abs_of_pos (by positivity)]; norm_num [float64]) (by decide)]
      have : rint ((7074237752028439 + 1 / 2) * 2 ^ (-50 : ℤ) / 2 ^ (-50 : ℤ)) = 7074237752028440 := by
        rw [mul_div_assoc, div_self (by positivity), mul_one]
        have := Format.rint_half (k := 7074237752028439)
        norm_num at this ⊢
        exact this
      rw [this]
      norm_num
    apply Subtype.ext
    show float64.fl (_ - _) = _
    rw [e3, show 2 * (Flt.pi float64).val - (Flt.pi float64).val = (Flt.pi float64).val by ring,
      Format.fl_of_rep (Flt.pi float64).property]
  · have e1 : (add (Flt.pi float64) (Flt.pi float64)).val = (twoPi float64).val := by
      show float64.fl _ = _
      rw [twoPi_eq, ← two_mul, Format.fl_of_rep (Flt.pi float64).property.double]
    have e2 : (rem (add (Flt.pi float64) (Flt.pi float64)) (twoPi float64)).val = 0 := by
      show truncRem _ _ = _
      rw [e1]
      unfold truncRem
      rw [div_self hb.ne', if_pos (by norm_num)]
      simp
    have e3 : (mod (add (Flt.pi float64) (Flt.pi float64)) (twoPi float64)).val = 0 := by
      rw [mod_eq _ _ hb, if_neg (by rw [e2]; norm_num), e2]
    apply Subtype.ext
    show float64.fl (_ - _) = _
    rw [e3, zero_sub, Format.fl_of_rep (Flt.pi float64).property.neg]
    rfl

/-- The yaw 4 in float32 is wrapped to a number between -π and π that differs from 4 by a full turn up to rounding, and which is
kept by wrapping. -/
example : ∃ y : Flt float32, y.val = 4 ∧ y.wrapYaws.val < 0 ∧ y.wrapYaws.wrapYaws = y.wrapYaws := by
  refine ⟨⟨4, 4, 0, by decide, by decide, by norm_num⟩, rfl, ?_, C132_float32_idempotent _⟩
  obtain ⟨k, hk⟩ := C132_same_angle (⟨4, 4, 0, by decide, by decide, by norm_num⟩ : Flt float32)
  obtain ⟨h0, h1⟩ := C132_float32_range (⟨4, 4, 0, by decide, by decide, by norm_num⟩ : Flt float32)
  rw [float32_pi] at h0 h1 hk
  rw [abs_le] at hk
  norm_num [Format.u, float32] at hk h0 h1
  have a : (0 : ℝ) < k := by
    by_contra hc
    have : (k : ℝ) ≤ 0 := not_lt.1 hc
    linarith [hk.1, hk.2]
  have b : (1 : ℤ) ≤ k := by
    have : (0 : ℤ) < k := by exact_mod_cast a
    omega
  have b' : (1 : ℝ) ≤ k := by exact_mod_cast b
  norm_num [float32]
  linarith [hk.1, hk.2]

end Waymax
