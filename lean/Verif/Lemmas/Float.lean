import Verif.Model.Float
import Verif.Props.Discretizer
/-
Facts about rounding: it is the nearest number of the format, it is monotone and odd, it keeps the numbers of the format, and sums and
differences of numbers of the format have relative error at most the unit roundoff.
-/

namespace Waymax

theorem rint_mono {x y : ℝ} (h : x ≤ y) : rint x ≤ rint y := by
  by_contra hc
  have h1 := abs_le.1 (rint_close x)
  have h2 := abs_le.1 (rint_close y)
  have h3 : rint y + 1 ≤ rint x := by omega
  have h4 : ((rint y : ℤ) : ℝ) + 1 ≤ rint x := by exact_mod_cast h3
  have : x = y := by linarith [h1.1, h2.2]
  subst this
  omega

theorem rint_int (k : ℤ) : rint (k : ℝ) = k := rint_eq_of_abs_lt (by simp)

theorem rint_neg (x : ℝ) : rint (-x) = -rint x := by
  rcases lt_or_ge (|x - rint x|) (1 / 2) with h | h
  · apply rint_eq_of_abs_lt
    rw [show -x - ((-rint x : ℤ) : ℝ) = -(x - rint x) by push_cast; ring, abs_neg]
    exact h
  · have hx : x - ⌊x⌋ = 1 / 2 := by
      have f0 := Int.floor_le x
      have f1 := Int.lt_floor_add_one x
      by_contra hne
      rcases lt_or_gt_of_ne hne with hl | hg
      · rw [rint_eq_of_abs_lt (k := ⌊x⌋) (by rw [abs_of_nonneg (by linarith)]; exact hl), abs_of_nonneg (by linarith)] at h
        linarith
      · have e : rint x = ⌊x⌋ + 1 := rint_eq_of_abs_lt (by push_cast; rw [abs_of_neg (by linarith)]; linarith)
        rw [e] at h
        push_cast at h
        rw [abs_of_neg (by linarith)] at h
        linarith
    have hf : ⌊-x⌋ = -⌊x⌋ - 1 := by
      rw [Int.floor_eq_iff]
      push_cast
      constructor <;> linarith
    unfold rint
    rw [hf]
    have hx' : -x - ((-⌊x⌋ - 1 : ℤ) : ℝ) = 1 / 2 := by push_cast; linarith
    rw [hx, hx']
    simp only [lt_irrefl, if_false, gt_iff_lt]
    split_ifs <;> omega

namespace Format

variable {φ : Format}

theorem two_zpow_pos (e : ℤ) : (0 : ℝ) < 2 ^ e := zpow_pos (by norm_num) e

theorem lt_expo (φ : Format) (x : ℝ) : |x| < 2 ^ (φ.expo x + φ.prec) := by
  refine lt_of_lt_of_le (Int.lt_zpow_succ_log_self (b := 2) (by norm_num) |x|) ?_
  push_cast
  apply zpow_le_zpow_right₀ (by norm_num)
  unfold expo
  omega

theorem expo_le {x : ℝ} (hx : x ≠ 0) (h : φ.emin < φ.expo x) : 2 ^ (φ.expo x + φ.prec - 1) ≤ |x| := by
  have e : φ.expo x = Int.log 2 |x| - (φ.prec - 1) := by
    unfold expo at h ⊢
    omega
  rw [e, show Int.log 2 |x| - ((φ.prec : ℤ) - 1) + φ.prec - 1 = Int.log 2 |x| by ring]
  have := Int.zpow_log_le_self (b := 2) (by norm_num) (abs_pos.2 hx)
  exact_mod_cast this

theorem emin_le_expo (φ : Format) (x : ℝ) : φ.emin ≤ φ.expo x := le_max_right _ _

theorem expo_neg (x : ℝ) : φ.expo (-x) = φ.expo x := by simp [expo]

theorem fl_neg (x : ℝ) : φ.fl (-x) = -φ.fl x := by
  unfold fl
  rw [expo_neg, neg_div, rint_neg]
  push_cast
  ring

theorem fl_zero : φ.fl 0 = 0 := by
  have := rint_int 0
  simp only [Int.cast_zero] at this
  simp [fl, this]

theorem rint_scaled_le (φ : Format) (x : ℝ) : |rint (x / 2 ^ φ.expo x)| ≤ 2 ^ φ.prec := by
  have hp := two_zpow_pos (φ.expo x)
  have h := lt_expo φ x
  rw [zpow_add₀ (by norm_num), zpow_natCast] at h
  have hb : |x / 2 ^ φ.expo x| ≤ 2 ^ φ.prec := by
    rw [abs_div, abs_of_pos hp, div_le_iff₀ hp]
    linarith
  rw [abs_le] at hb ⊢
  have e1 := rint_int (2 ^ φ.prec)
  have e2 := rint_int (-2 ^ φ.prec)
  constructor
  · rw [← e2]
    apply rint_mono
    push_cast
    exact hb.1
  · rw [← e1]
    apply rint_mono
    push_cast
    exact hb.2

/-- `m * 2 ^ e` with `|m| ≤ 2 ^ prec` is a number of the format. -/
theorem rep_of_le {m e : ℤ} (hm : |m| ≤ 2 ^ φ.prec) (he : φ.emin ≤ e) : φ.Rep (m * 2 ^ e) := by
  rcases hm.lt_or_eq with h | h
  · exact ⟨m, e, h, he, rfl⟩
  · have h2 := φ.two_le
    obtain ⟨p, hp⟩ : ∃ p, φ.prec = p + 1 := ⟨φ.prec - 1, by omega⟩
    have hlt : (2 : ℤ) ^ p < 2 ^ φ.prec := by
      rw [hp, pow_succ]
      have : (0 : ℤ) < 2 ^ p := by positivity
      omega
    rcases abs_choice m with hc | hc
    · refine ⟨2 ^ p, e + 1, by rwa [abs_of_pos (by positivity)], by omega, ?_⟩
      rw [show m = 2 ^ φ.prec by omega, hp, zpow_add_one₀ (by norm_num)]
      push_cast
      ring
    · refine ⟨-2 ^ p, e + 1, by rwa [abs_neg, abs_of_pos (by positivity)], by omega, ?_⟩
      rw [show m = -2 ^ φ.prec by omega, hp, zpow_add_one₀ (by norm_num)]
      push_cast
      ring

theorem rep_fl (φ : Format) (x : ℝ) : φ.Rep (φ.fl x) := rep_of_le (rint_scaled_le φ x) (emin_le_expo φ x)

theorem expo_le_of_rep {m e : ℤ} (hm : |m| < 2 ^ φ.prec) (he : φ.emin ≤ e) (hx : (m : ℝ) * 2 ^ e ≠ 0) :
    φ.expo (m * 2 ^ e) ≤ e := by
  have hp := two_zpow_pos e
  by_contra hc
  have h := expo_le (φ := φ) hx (by omega)
  have : |(m : ℝ) * 2 ^ e| < 2 ^ (e + φ.prec) := by
    rw [abs_mul, abs_of_pos hp, zpow_add₀ (by norm_num), zpow_natCast, mul_comm]
    apply mul_lt_mul_of_pos_left _ hp
    exact_mod_cast hm
  have h2 := (zpow_lt_zpow_iff_right₀ (by norm_num : (1 : ℝ) < 2)).1 (lt_of_le_of_lt h this)
  omega

/-- Numbers of the format are kept. -/
theorem fl_of_rep {x : ℝ} (h : φ.Rep x) : φ.fl x = x := by
  obtain ⟨m, e, hm, he, rfl⟩ := h
  by_cases hx : (m : ℝ) * 2 ^ e = 0
  · rw [hx, fl_zero]
  · have hle := expo_le_of_rep hm he hx
    obtain ⟨d, hd⟩ := Int.eq_ofNat_of_zero_le (sub_nonneg.2 hle)
    have hp := two_zpow_pos (φ.expo ((m : ℝ) * 2 ^ e))
    unfold fl
    have : (m : ℝ) * 2 ^ e / 2 ^ φ.expo ((m : ℝ) * 2 ^ e) = ((m * 2 ^ d : ℤ) : ℝ) := by
      rw [mul_div_assoc, ← zpow_sub₀ (by norm_num), hd]
      push_cast
      rfl
    rw [this, rint_int, ← this]
    field_simp

theorem fl_fl (x : ℝ) : φ.fl (φ.fl x) = φ.fl x := fl_of_rep (rep_fl φ x)

theorem Rep.neg {x : ℝ} (h : φ.Rep x) : φ.Rep (-x) := by
  obtain ⟨m, e, hm, he, rfl⟩ := h
  exact ⟨-m, e, by rwa [abs_neg], he, by push_cast; ring⟩

theorem Rep.zero : φ.Rep 0 := ⟨0, φ.emin, by simp, le_rfl, by simp⟩

/-- Doubling is exact. -/
theorem Rep.double {x : ℝ} (h : φ.Rep x) : φ.Rep (2 * x) := by
  obtain ⟨m, e, hm, he, rfl⟩ := h
  exact ⟨m, e + 1, hm, by omega, by rw [zpow_add_one₀ (by norm_num)]; ring⟩

/-- Small integers are numbers of the format. -/
theorem rep_int {k : ℤ} (hk : |k| ≤ 2 ^ φ.prec) (he : φ.emin ≤ 0) : φ.Rep k := by
  have := rep_of_le (φ := φ) hk he
  simpa using this

theorem fl_close (φ : Format) (x : ℝ) : |φ.fl x - x| ≤ 2 ^ φ.expo x / 2 := by
  have hp := two_zpow_pos (φ.expo x)
  have h := rint_close (x / 2 ^ φ.expo x)
  have e : φ.fl x - x = -((x / 2 ^ φ.expo x - rint (x / 2 ^ φ.expo x)) * 2 ^ φ.expo x) := by
    unfold fl
    field_simp
    ring
  rw [e, abs_neg, abs_mul, abs_of_pos hp]
  nlinarith

theorem fl_le_of_grid {x : ℝ} (j : ℤ) : |φ.fl x - x| ≤ |(j : ℝ) * 2 ^ φ.expo x - x| := by
  have hp := two_zpow_pos (φ.expo x)
  have h := rint_nearest (x / 2 ^ φ.expo x) j
  have e (k : ℤ) : |(k : ℝ) * 2 ^ φ.expo x - x| = |x / 2 ^ φ.expo x - k| * 2 ^ φ.expo x := by
    rw [← abs_of_pos hp, ← abs_mul, abs_of_pos hp, abs_sub_comm]
    congr 1
    field_simp
  unfold fl
  rw [e, e]
  exact mul_le_mul_of_nonneg_right h hp.le

/-- Rounding gives a nearest number of the format. -/
theorem fl_nearest {x y : ℝ} (hy : φ.Rep y) : |φ.fl x - x| ≤ |y - x| := by
  by_cases hx : x = 0
  · subst hx
    rw [fl_zero]
    simp
  obtain ⟨m, e, hm, he, rfl⟩ := hy
  rcases le_or_gt (φ.expo x) e with hle | hlt
  · obtain ⟨d, hd⟩ := Int.eq_ofNat_of_zero_le (sub_nonneg.2 hle)
    have := fl_le_of_grid (φ := φ) (x := x) (m * 2 ^ d)
    rwa [show (((m * 2 ^ d : ℤ)) : ℝ) * 2 ^ φ.expo x = m * 2 ^ e by
      rw [show e = d + φ.expo x by omega, zpow_add₀ (by norm_num)]
      push_cast
      rw [zpow_natCast]
      ring] at this
  · have hlow := expo_le hx (lt_of_le_of_lt he hlt)
    have hp := two_zpow_pos e
    have hy : |(m : ℝ) * 2 ^ e| ≤ 2 ^ (φ.expo x + φ.prec - 1) := by
      rw [abs_mul, abs_of_pos hp]
      have h1 : |(m : ℝ)| ≤ 2 ^ φ.prec := by exact_mod_cast hm.le
      calc |(m : ℝ)| * 2 ^ e ≤ 2 ^ φ.prec * 2 ^ e := mul_le_mul_of_nonneg_right h1 hp.le
        _ = 2 ^ (φ.prec + e) := by rw [zpow_add₀ (by norm_num), zpow_natCast]
        _ ≤ _ := zpow_le_zpow_right₀ (by norm_num) (by omega)
    have h2 := φ.two_le
    have hg (s : ℤ) : ((s * 2 ^ (φ.prec - 1) : ℤ) : ℝ) * 2 ^ φ.expo x = s * 2 ^ (φ.expo x + φ.prec - 1) := by
      push_cast
      rw [show φ.expo x + (φ.prec : ℤ) - 1 = (φ.prec - 1 : ℕ) + φ.expo x by omega, zpow_add₀ (by norm_num), zpow_natCast]
      ring
    rw [abs_le] at hy
    rcases abs_cases x with ⟨ha, h0⟩ | ⟨ha, h0⟩
    · rw [ha] at hlow
      have := fl_le_of_grid (φ := φ) (x := x) (1 * 2 ^ (φ.prec - 1))
      rw [hg] at this
      refine this.trans ?_
      rw [abs_of_nonpos (by push_cast; linarith), abs_of_nonpos (by linarith [hy.2])]
      push_cast
      linarith [hy.2]
    · rw [ha] at hlow
      have := fl_le_of_grid (φ := φ) (x := x) (-1 * 2 ^ (φ.prec - 1))
      rw [hg] at this
      refine this.trans ?_
      rw [abs_of_nonneg (by push_cast; linarith), abs_of_nonneg (by linarith [hy.1])]
      push_cast
      linarith [hy.1]

/-- Rounding is monotone. -/
theorem fl_mono {x y : ℝ} (h : x ≤ y) : φ.fl x ≤ φ.fl y := by
  by_contra hc
  rw [not_le] at hc
  have hx := fl_nearest (φ := φ) (x := x) (rep_fl φ y)
  have hy := fl_nearest (φ := φ) (x := y) (rep_fl φ x)
  -- both numbers are equally near to both points, so the points are equal
  rcases h.eq_or_lt with rfl | hlt
  · exact lt_irrefl _ hc
  · rcases abs_cases (φ.fl x - x) with ⟨a, _⟩ | ⟨a, _⟩ <;> rcases abs_cases (φ.fl y - x) with ⟨b, _⟩ | ⟨b, _⟩ <;>
      rcases abs_cases (φ.fl y - y) with ⟨c, _⟩ | ⟨c, _⟩ <;> rcases abs_cases (φ.fl x - y) with ⟨d, _⟩ | ⟨d, _⟩ <;>
      rw [a, b] at hx <;> rw [c, d] at hy <;> linarith

theorem fl_le_of_rep {x y : ℝ} (hy : φ.Rep y) (h : x ≤ y) : φ.fl x ≤ y := by
  rw [← fl_of_rep hy]
  exact fl_mono h

theorem le_fl_of_rep {x y : ℝ} (hy : φ.Rep y) (h : y ≤ x) : y ≤ φ.fl x := by
  rw [← fl_of_rep hy]
  exact fl_mono h

theorem u_pos (φ : Format) : 0 < φ.u := two_zpow_pos _

/-- Relative error in the normal range. -/
theorem fl_rel {x : ℝ} (h : 2 ^ (φ.emin + φ.prec - 1) ≤ |x|) : |φ.fl x - x| ≤ φ.u * |x| := by
  have hx : x ≠ 0 := by
    rintro rfl
    rw [abs_zero] at h
    exact absurd h (not_le.2 (two_zpow_pos _))
  refine (fl_close φ x).trans ?_
  have key : (2 : ℝ) ^ (φ.expo x + φ.prec - 1) ≤ |x| := by
    rcases (emin_le_expo φ x).lt_or_eq with h1 | h1
    · exact expo_le hx h1
    · rw [← h1]
      exact h
  have e : (2 : ℝ) ^ φ.expo x / 2 = φ.u * 2 ^ (φ.expo x + φ.prec - 1) := by
    unfold u
    rw [← zpow_add₀ (by norm_num), show -(φ.prec : ℤ) + (φ.expo x + φ.prec - 1) = φ.expo x - 1 by ring, zpow_sub_one₀ (by norm_num)]
    rw [div_eq_mul_inv]
  rw [e]
  exact mul_le_mul_of_nonneg_left key (u_pos φ).le

/-- A multiple of a power of two that is small enough is a number of the format. -/
theorem rep_of_grid {k e : ℤ} (he : φ.emin ≤ e) (h : |(k : ℝ) * 2 ^ e| ≤ 2 ^ (e + φ.prec)) : φ.Rep (k * 2 ^ e) := by
  apply rep_of_le _ he
  have hp := two_zpow_pos e
  rw [abs_mul, abs_of_pos hp, zpow_add₀ (by norm_num), zpow_natCast, mul_comm] at h
  have := le_of_mul_le_mul_left h hp
  exact_mod_cast this

theorem Rep.grid {x : ℝ} (h : φ.Rep x) : ∃ k : ℤ, x = k * 2 ^ φ.emin := by
  obtain ⟨m, e, hm, he, rfl⟩ := h
  obtain ⟨d, hd⟩ := Int.eq_ofNat_of_zero_le (sub_nonneg.2 he)
  refine ⟨m * 2 ^ d, ?_⟩
  rw [show e = d + φ.emin by omega, zpow_add₀ (by norm_num)]
  push_cast
  rw [zpow_natCast]
  ring

/-- Sums of numbers of the format have small relative error, also in the underflow range. -/
theorem fl_add_rel {x y : ℝ} (hx : φ.Rep x) (hy : φ.Rep y) : |φ.fl (x + y) - (x + y)| ≤ φ.u * |x + y| := by
  rcases le_or_gt (2 ^ (φ.emin + φ.prec - 1)) |x + y| with h | h
  · exact fl_rel h
  · obtain ⟨k, hk⟩ := hx.grid
    obtain ⟨l, hl⟩ := hy.grid
    have e : x + y = ((k + l : ℤ) : ℝ) * 2 ^ φ.emin := by
      rw [hk, hl]
      push_cast
      ring
    have hr : φ.Rep (x + y) := by
      rw [e]
      apply rep_of_grid le_rfl
      rw [← e]
      exact h.le.trans (zpow_le_zpow_right₀ (by norm_num) (by omega))
    rw [fl_of_rep hr, sub_self, abs_zero]
    exact mul_nonneg (u_pos φ).le (abs_nonneg _)

theorem fl_sub_rel {x y : ℝ} (hx : φ.Rep x) (hy : φ.Rep y) : |φ.fl (x - y) - (x - y)| ≤ φ.u * |x - y| := by
  rw [sub_eq_add_neg]
  exact fl_add_rel hx hy.neg

/-- Two numbers of the same sign that differ by at most a factor of two have an exact difference (Sterbenz). -/
theorem sterbenz {x y : ℝ} (hx : φ.Rep x) (hy : φ.Rep y) (h1 : y ≤ 2 * x) (h2 : x ≤ 2 * y) : φ.Rep (x - y) := by
  have x0 : 0 ≤ x := by linarith
  have y0 : 0 ≤ y := by linarith
  obtain ⟨m, e, hm, he, ex⟩ := hx
  obtain ⟨n, f, hn, hf, ey⟩ := hy
  have hd (a b : ℤ) (h : b ≤ a) (c : ℤ) : ∃ k : ℤ, (c : ℝ) * 2 ^ a = k * 2 ^ b := by
    obtain ⟨d, hd⟩ := Int.eq_ofNat_of_zero_le (sub_nonneg.2 h)
    refine ⟨c * 2 ^ d, ?_⟩
    rw [show a = d + b by omega, zpow_add₀ (by norm_num)]
    push_cast
    rw [zpow_natCast]
    ring
  have habs : |x - y| ≤ x ∧ |x - y| ≤ y := by
    constructor <;> rw [abs_le] <;> constructor <;> linarith
  have bound {c : ℤ} {a : ℤ} (hc : |c| < 2 ^ φ.prec) : (c : ℝ) * 2 ^ a ≤ 2 ^ (a + φ.prec) := by
    rw [zpow_add₀ (by norm_num), zpow_natCast, mul_comm]
    apply mul_le_mul_of_nonneg_left _ (two_zpow_pos a).le
    have := (abs_lt.1 hc).2.le
    exact_mod_cast this
  rcases le_total e f with h | h
  · obtain ⟨k, hk⟩ := hd f e h n
    have e' : x - y = ((m - k : ℤ) : ℝ) * 2 ^ e := by
      rw [ex, ey, hk]
      push_cast
      ring
    rw [e']
    apply rep_of_grid he
    rw [← e']
    exact habs.1.trans (ex ▸ bound hm)
  · obtain ⟨k, hk⟩ := hd e f h m
    have e' : x - y = ((k - n : ℤ) : ℝ) * 2 ^ f := by
      rw [ex, ey, hk]
      push_cast
      ring
    rw [e']
    apply rep_of_grid hf
    rw [← e']
    exact habs.2.trans (ey ▸ bound hn)

theorem lift_grid {a b : ℤ} (h : b ≤ a) (c : ℤ) : ∃ k : ℤ, (c : ℝ) * 2 ^ a = k * 2 ^ b := by
  obtain ⟨d, hd⟩ := Int.eq_ofNat_of_zero_le (sub_nonneg.2 h)
  refine ⟨c * 2 ^ d, ?_⟩
  rw [show a = d + b by omega, zpow_add₀ (by norm_num)]
  push_cast
  rw [zpow_natCast]
  ring

theorem expo_eq {x : ℝ} {e : ℤ} (h0 : 2 ^ (e + φ.prec - 1) ≤ |x|) (h1 : |x| < 2 ^ (e + φ.prec)) (he : φ.emin ≤ e) :
    φ.expo x = e := by
  have hx : x ≠ 0 := by
    rintro rfl
    rw [abs_zero] at h0
    exact absurd h0 (not_le.2 (two_zpow_pos _))
  have a0 := Int.zpow_log_le_self (b := 2) (by norm_num) (abs_pos.2 hx)
  have a1 := Int.lt_zpow_succ_log_self (b := 2) (by norm_num) |x|
  push_cast at a0 a1
  have b0 := (zpow_lt_zpow_iff_right₀ (by norm_num : (1 : ℝ) < 2)).1 (lt_of_le_of_lt a0 h1)
  have b1 := (zpow_lt_zpow_iff_right₀ (by norm_num : (1 : ℝ) < 2)).1 (lt_of_le_of_lt h0 a1)
  unfold expo
  omega

/-- Rounding when the position of the last digit is known. -/
theorem fl_eq {x : ℝ} {e : ℤ} (h0 : 2 ^ (e + φ.prec - 1) ≤ |x|) (h1 : |x| < 2 ^ (e + φ.prec)) (he : φ.emin ≤ e) :
    φ.fl x = rint (x / 2 ^ e) * 2 ^ e := by
  unfold fl
  rw [expo_eq h0 h1 he]

/-- In the normal range, rounding commutes with doubling. -/
theorem fl_double {x : ℝ} (h : 2 ^ (φ.emin + φ.prec - 1) ≤ |x|) : φ.fl (2 * x) = 2 * φ.fl x := by
  have hx : x ≠ 0 := by
    rintro rfl
    rw [abs_zero] at h
    exact absurd h (not_le.2 (two_zpow_pos _))
  have key : (2 : ℝ) ^ (φ.expo x + φ.prec - 1) ≤ |x| := by
    rcases (emin_le_expo φ x).lt_or_eq with h1 | h1
    · exact expo_le hx h1
    · rw [← h1]
      exact h
  have hlt := lt_expo φ x
  have habs : |2 * x| = 2 * |x| := by rw [abs_mul, abs_of_pos (by norm_num : (0 : ℝ) < 2)]
  rw [fl_eq (e := φ.expo x + 1) (by
      rw [habs, show φ.expo x + 1 + (φ.prec : ℤ) - 1 = φ.expo x + φ.prec - 1 + 1 by ring, zpow_add_one₀ (by norm_num)]
      linarith) (by
      rw [habs, show φ.expo x + 1 + (φ.prec : ℤ) = φ.expo x + φ.prec + 1 by ring, zpow_add_one₀ (by norm_num)]
      linarith) (by have := emin_le_expo φ x; omega)]
  unfold fl
  have hp := two_zpow_pos (φ.expo x)
  rw [zpow_add_one₀ (by norm_num), show 2 * x / (2 ^ φ.expo x * 2) = x / 2 ^ φ.expo x by field_simp]
  ring

/-- A number of the format that is not too small is a multiple of a power of two. -/
theorem Rep.gap {x : ℝ} (h : φ.Rep x) {e : ℤ} (h0 : 2 ^ (e + φ.prec - 1) ≤ |x|) : ∃ k : ℤ, x = k * 2 ^ e := by
  obtain ⟨m, f, hm, hf, rfl⟩ := h
  have hp := two_zpow_pos f
  have : |(m : ℝ) * 2 ^ f| < 2 ^ (f + φ.prec) := by
    rw [abs_mul, abs_of_pos hp, zpow_add₀ (by norm_num), zpow_natCast, mul_comm]
    apply mul_lt_mul_of_pos_left _ hp
    exact_mod_cast hm
  have := (zpow_lt_zpow_iff_right₀ (by norm_num : (1 : ℝ) < 2)).1 (lt_of_le_of_lt h0 this)
  exact lift_grid (by omega) m

/-- Rounding keeps multiples of a power of two. -/
theorem fl_grid {k e : ℤ} (he : φ.emin ≤ e) : ∃ j : ℤ, φ.fl (k * 2 ^ e) = j * 2 ^ e := by
  rcases le_or_gt (φ.expo ((k : ℝ) * 2 ^ e)) e with h | h
  · refine ⟨k, fl_of_rep (rep_of_grid he ?_)⟩
    exact (lt_expo φ _).le.trans (zpow_le_zpow_right₀ (by norm_num) (by omega))
  · unfold fl
    exact lift_grid h.le _

theorem rint_half {k : ℤ} : rint ((k : ℝ) + 1 / 2) = if k % 2 = 0 then k else k + 1 := by
  have hf : ⌊(k : ℝ) + 1 / 2⌋ = k := by
    rw [Int.floor_eq_iff]
    constructor <;> linarith
  unfold rint
  rw [hf]
  simp

end Format

end Waymax
