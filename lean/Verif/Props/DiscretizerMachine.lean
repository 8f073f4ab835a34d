import Verif.Props.WrapMachine
/-
C134: the discretizer in machine arithmetic.
-/

namespace Waymax

namespace Format

variable {φ : Format}

/-- Error of any operation: relative, plus the rounding of the underflow range. -/
theorem fl_err (φ : Format) (x : ℝ) : |φ.fl x - x| ≤ φ.u * |x| + φ.u := by
  have hu := φ.u_pos
  by_cases hx : x = 0
  · subst hx
    rw [fl_zero]
    simpa using hu.le
  rcases le_or_gt (2 ^ (φ.emin + φ.prec - 1)) |x| with h | h
  · exact (fl_rel h).trans (by linarith)
  · refine (fl_close φ x).trans ?_
    have he : φ.expo x ≤ φ.emin := by
      by_contra hc
      have := expo_le hx (not_le.1 hc)
      have h2 := (zpow_lt_zpow_iff_right₀ (by norm_num : (1 : ℝ) < 2)).1 (lt_of_le_of_lt this h)
      omega
    have h1 := φ.normal_one
    have : (2 : ℝ) ^ φ.expo x / 2 ≤ φ.u := by
      unfold u
      rw [div_le_iff₀ (by norm_num), ← zpow_add_one₀ (by norm_num)]
      exact zpow_le_zpow_right₀ (by norm_num) (by omega)
    have := mul_nonneg hu.le (abs_nonneg x)
    linarith

end Format

open Flt

section
variable {φ : Format}

/-- A discretiser that the format resolves: at least one bin, and about `2 ^ prec / 16` values at most between zero and the bounds; the
scale is far from underflow and overflow. -/
structure BinDimFl.Resolved (d : BinDimFl φ) : Prop where
  bins : 1 ≤ d.bins
  pos : 2 ^ (φ.emin + φ.prec - 1) < d.scale.val
  width : d.scale.val * 2 ^ (φ.emin + φ.prec - 1) ≤ 1
  fine : 16 * (d.bins + d.scale.val * |d.lo.val|) ≤ 2 ^ φ.prec

namespace BinDimFl.Resolved

variable {d : BinDimFl φ} (h : d.Resolved)

include h

theorem scale_pos : 0 < d.scale.val := (Format.two_zpow_pos _).trans h.pos

theorem small : φ.u * (d.bins + d.scale.val * |d.lo.val|) ≤ 1 / 16 := by
  have hf := h.fine
  unfold Format.u
  rw [zpow_neg, zpow_natCast, inv_mul_le_iff₀ (by positivity)]
  linarith

theorem small_bins : φ.u * d.bins ≤ 1 / 16 := by
  have := h.small
  have : 0 ≤ φ.u * (d.scale.val * |d.lo.val|) := mul_nonneg φ.u_pos.le (mul_nonneg h.scale_pos.le (abs_nonneg _))
  linarith

theorem u_le : φ.u ≤ 1 / 16 := by
  have := h.small_bins
  have hb : (1 : ℝ) ≤ d.bins := by exact_mod_cast h.bins
  nlinarith [φ.u_pos]

theorem round_int {k : ℤ} (h0 : 0 ≤ k) (h1 : k ≤ d.bins) : (Flt.round φ k).val = k := by
  apply Format.fl_of_rep
  apply Format.rep_int
  · have hf := h.fine
    have := mul_nonneg h.scale_pos.le (abs_nonneg d.lo.val)
    have hk : (k : ℝ) ≤ d.bins := by exact_mod_cast h1
    have : (k : ℝ) ≤ 2 ^ φ.prec := by
      have : (0 : ℝ) ≤ d.bins := Nat.cast_nonneg _
      linarith
    rw [abs_of_nonneg h0]
    exact_mod_cast this
  · have := φ.normal_one
    have := φ.two_le
    omega

/-- The normalised value of bin `k` is `k`, up to the rounding of a division and an addition. -/
theorem value_close {k : ℤ} (h0 : 0 ≤ k) (h1 : k ≤ d.bins) :
    |(d.value k).val - d.lo.val - k / d.scale.val| * d.scale.val ≤
      φ.u * (2 * k + φ.u * k + d.scale.val * |d.lo.val|) := by
  have hu := φ.u_pos
  have hS := h.scale_pos
  have hk0 : (0 : ℝ) ≤ k := by exact_mod_cast h0
  obtain ⟨S, eS⟩ : ∃ S, S = d.scale := ⟨_, rfl⟩
  obtain ⟨q, hq⟩ : ∃ q, q = (Flt.round φ k).div d.scale := ⟨_, rfl⟩
  have e1 : |q.val - k / S.val| * S.val ≤ φ.u * k := by
    have hq' : q.val = φ.fl (k / S.val) := by
      rw [hq, eS]
      show φ.fl ((Flt.round φ k).val / d.scale.val) = _
      rw [h.round_int h0 h1]
    rw [← eS] at hS
    rcases h0.eq_or_lt with hz | hpos
    · rw [hq', ← hz]
      simp [Format.fl_zero]
    · have hk1 : (1 : ℝ) ≤ k := by exact_mod_cast hpos
      have hn : (2 : ℝ) ^ (φ.emin + φ.prec - 1) ≤ |(k : ℝ) / S.val| := by
        rw [abs_of_nonneg (div_nonneg hk0 hS.le), le_div_iff₀ hS]
        have := h.width
        rw [← eS] at this
        linarith
      have := Format.fl_rel hn
      rw [← hq', abs_of_nonneg (div_nonneg hk0 hS.le)] at this
      calc |q.val - k / S.val| * S.val ≤ φ.u * (k / S.val) * S.val := mul_le_mul_of_nonneg_right this hS.le
        _ = φ.u * k := by field_simp
  have e2 : |(d.value k).val - (q.val + d.lo.val)| ≤ φ.u * (|q.val| + |d.lo.val|) := by
    have : (d.value k) = q.add d.lo := by rw [hq]; rfl
    rw [this]
    exact (Format.fl_add_rel q.property d.lo.property).trans (mul_le_mul_of_nonneg_left (abs_add_le _ _) hu.le)
  rw [← eS] at hS ⊢
  have e3 : |q.val| * S.val ≤ k + φ.u * k := by
    have : |q.val| ≤ |q.val - k / S.val| + k / S.val := by
      calc |q.val| = |(q.val - k / S.val) + k / S.val| := by rw [sub_add_cancel]
        _ ≤ _ := (abs_add_le _ _).trans (by rw [abs_of_nonneg (div_nonneg hk0 hS.le)])
    have := mul_le_mul_of_nonneg_right this hS.le
    rw [add_mul, div_mul_cancel₀ _ hS.ne'] at this
    linarith
  have e4 : |(d.value k).val - d.lo.val - k / S.val| ≤ |(d.value k).val - (q.val + d.lo.val)| + |q.val - k / S.val| := by
    rw [show (d.value k).val - d.lo.val - k / S.val = ((d.value k).val - (q.val + d.lo.val)) + (q.val - k / S.val) by ring]
    exact abs_add_le _ _
  have e5 := mul_le_mul_of_nonneg_right e4 hS.le
  have e6 := mul_le_mul_of_nonneg_right e2 hS.le
  rw [add_mul] at e5
  have e7 := mul_le_mul_of_nonneg_left e3 hu.le
  have : φ.u * (|q.val| + |d.lo.val|) * S.val = φ.u * (|q.val| * S.val) + φ.u * (S.val * |d.lo.val|) := by ring
  rw [this] at e6
  nlinarith

/-- The normalised coordinate the code computes for a value `v` whose exact normalised coordinate is `y`. -/
theorem coordinate_close (v : Flt φ) :
    |((v.sub d.lo).mul d.scale).val - (v.val - d.lo.val) * d.scale.val| ≤
      φ.u * (2 + φ.u) * (|v.val - d.lo.val| * d.scale.val) + φ.u := by
  have hu := φ.u_pos
  have hS := h.scale_pos
  obtain ⟨D, hD⟩ : ∃ D, D = v.sub d.lo := ⟨_, rfl⟩
  have e1 : |D.val - (v.val - d.lo.val)| ≤ φ.u * |v.val - d.lo.val| := by
    rw [hD]
    exact Format.fl_sub_rel v.property d.lo.property
  have e2 : |(D.mul d.scale).val - D.val * d.scale.val| ≤ φ.u * |D.val * d.scale.val| + φ.u := Format.fl_err φ _
  rw [← hD]
  have e3 : |D.val| ≤ (1 + φ.u) * |v.val - d.lo.val| := by
    calc |D.val| = |(D.val - (v.val - d.lo.val)) + (v.val - d.lo.val)| := by rw [sub_add_cancel]
      _ ≤ _ := (abs_add_le _ _).trans (by linarith)
  have e4 : |D.val * d.scale.val - (v.val - d.lo.val) * d.scale.val| ≤ φ.u * (|v.val - d.lo.val| * d.scale.val) := by
    rw [← sub_mul, abs_mul, abs_of_pos hS, ← mul_assoc]
    exact mul_le_mul_of_nonneg_right e1 hS.le
  have e5 : |D.val * d.scale.val| ≤ (1 + φ.u) * (|v.val - d.lo.val| * d.scale.val) := by
    rw [abs_mul, abs_of_pos hS, ← mul_assoc]
    exact mul_le_mul_of_nonneg_right e3 hS.le
  have e6 := mul_le_mul_of_nonneg_left e5 hu.le
  calc |(D.mul d.scale).val - (v.val - d.lo.val) * d.scale.val|
      = |((D.mul d.scale).val - D.val * d.scale.val) + (D.val * d.scale.val - (v.val - d.lo.val) * d.scale.val)| := by
        congr 1; ring
    _ ≤ _ := (abs_add_le _ _).trans (by nlinarith)

end BinDimFl.Resolved

theorem clamp_close {z y b : ℝ} (h0 : 0 ≤ y) (h1 : y ≤ b) : |max (min z b) 0 - y| ≤ |z - y| := by
  rcases le_total z b with hz | hz
  · rw [min_eq_left hz]
    rcases le_total 0 z with hz0 | hz0
    · rw [max_eq_left hz0]
    · rw [max_eq_right hz0, abs_of_nonpos (by linarith), abs_of_nonpos (by linarith)]
      linarith
  · rw [min_eq_right hz, max_eq_left (h0.trans h1), abs_of_nonneg (by linarith), abs_of_nonneg (by linarith)]
    linarith

/-- One dimension: the bin of the value of bin `k` is `k`. -/
theorem index_value {d : BinDimFl φ} (h : d.Resolved) {k : ℤ} (h0 : 0 ≤ k) (h1 : k ≤ d.bins) : d.index (d.value k) = k := by
  have hu := φ.u_pos
  have hul := h.u_le
  have hS := h.scale_pos
  have hk0 : (0 : ℝ) ≤ k := by exact_mod_cast h0
  have hk1 : (k : ℝ) ≤ d.bins := by exact_mod_cast h1
  have hsm := h.small
  have hv := h.value_close h0 h1
  have hc := h.coordinate_close (d.value k)
  unfold BinDimFl.index
  have hb : (Flt.round φ d.bins).val = d.bins := by
    have := h.round_int (k := d.bins) (by omega) le_rfl
    exact_mod_cast this
  rw [hb]
  apply rint_eq_of_abs_lt
  refine lt_of_le_of_lt (clamp_close hk0 hk1) ?_
  obtain ⟨z, hz⟩ : ∃ z, z = (((d.value k).sub d.lo).mul d.scale).val := ⟨_, rfl⟩
  obtain ⟨y, hy⟩ : ∃ y, y = ((d.value k).val - d.lo.val) * d.scale.val := ⟨_, rfl⟩
  obtain ⟨L, hL⟩ : ∃ L, L = d.scale.val * |d.lo.val| := ⟨_, rfl⟩
  have hL0 : 0 ≤ L := hL ▸ mul_nonneg hS.le (abs_nonneg _)
  rw [← hL] at hsm hv
  have hv' : |y - k| ≤ φ.u * (2 * k + φ.u * k + L) := by
    rw [hy]
    rw [show ((d.value k).val - d.lo.val) * d.scale.val - k = ((d.value k).val - d.lo.val - k / d.scale.val) * d.scale.val by
      field_simp, abs_mul, abs_of_pos hS]
    exact hv
  have hc' : |z - y| ≤ φ.u * (2 + φ.u) * |y| + φ.u := by
    rw [hz, hy, abs_mul, abs_of_pos hS]
    exact hc
  rw [← hz]
  have ha : φ.u * k ≤ 1 / 16 := by nlinarith
  have hb' : φ.u * (2 * k + φ.u * k + L) ≤ 1 / 16 * (2 + 1 / 16) := by nlinarith [mul_nonneg hu.le hk0]
  have hya : |y| ≤ k + |y - k| := by
    calc |y| = |(y - k) + k| := by rw [sub_add_cancel]
      _ ≤ _ := (abs_add_le _ _).trans (by rw [abs_of_nonneg hk0]; linarith)
  have huy : φ.u * |y| ≤ 1 / 16 * (1 + 1 / 16 * (2 + 1 / 16)) := by nlinarith [mul_le_mul_of_nonneg_left hya hu.le]
  have huy0 : 0 ≤ φ.u * |y| := mul_nonneg hu.le (abs_nonneg _)
  have hzy : |z - y| ≤ (2 + 1 / 16) * (1 / 16 * (1 + 1 / 16 * (2 + 1 / 16))) + 1 / 16 := by nlinarith
  have : |z - k| ≤ |z - y| + |y - k| := by
    rw [show z - k = (z - y) + (y - k) by ring]
    exact abs_add_le _ _
  norm_num at hzy hb' ⊢
  linarith

theorem index_mem (d : BinDimFl φ) (v : Flt φ) (hb : (Flt.round φ d.bins).val = d.bins) : 0 ≤ d.index v ∧ d.index v ≤ d.bins := by
  unfold BinDimFl.index
  rw [hb]
  exact rint_mem (le_max_right _ _) (max_le (min_le_right _ _) (Nat.cast_nonneg _))

/-! ### Vectors -/

/-- C134: in machine arithmetic, index to vector and back is the identity, for every discretiser that the format resolves. In float32
these are about a million bins per dimension. -/
theorem C134_round_trip {ds : List (BinDimFl φ)} (hd : ∀ d ∈ ds, d.Resolved) {k : ℤ} (h0 : 0 ≤ k)
    (h1 : k < (ds.map fun d => (d.bins : ℤ) + 1).prod) : discretizeFl ds (makeContinuousFl ds k) = .ok k := by
  have h1' : k < numBins (ds.map BinDimFl.dim) := by
    rw [numBins_eq, List.map_map]
    exact h1
  have hin := unravelAux_inBins (ds.map BinDimFl.dim) k
  have hlen : (unravelAux (ds.map BinDimFl.dim) k).length = ds.length := by
    rw [← List.length_map (f := BinDimFl.dim) (as := ds)]
    exact hin.length_eq.symm
  have hmk : makeContinuousFl ds k = List.zipWith BinDimFl.value ds (unravelAux (ds.map BinDimFl.dim) k) := by
    unfold makeContinuousFl
    rw [unravelIndex_of_mem _ k h0 h1']
  unfold discretizeFl
  rw [if_neg (by rw [hmk, List.length_zipWith, hlen, min_self]; exact not_not.2 rfl), hmk]
  have key : List.zipWith BinDimFl.index ds (List.zipWith BinDimFl.value ds (unravelAux (ds.map BinDimFl.dim) k)) =
      unravelAux (ds.map BinDimFl.dim) k := by
    generalize unravelAux (ds.map BinDimFl.dim) k = is at hin hlen
    clear h0 h1 h1' hmk
    unfold InBins at hin
    induction ds generalizing is with
    | nil => cases hin; rfl
    | cons d ds ih =>
      cases hin with
      | @cons _ i _ is h hr =>
        simp only [List.zipWith_cons_cons]
        rw [ih (fun d' hd' => hd d' (List.mem_cons_of_mem _ hd')) is hr (by simpa using hlen),
          index_value (hd d (by simp)) h.1 h.2]
  rw [key, ravel_unravelAux, Int.emod_eq_of_lt h0 h1']

/-- C134: vectors are accepted exactly if they have one element per dimension. -/
theorem C134_length (ds : List (BinDimFl φ)) (v : List (Flt φ)) :
    discretizeFl ds v = .error .valueError ↔ v.length ≠ ds.length := by
  unfold discretizeFl
  split_ifs with h
  · exact iff_of_true rfl h
  · exact iff_of_false (by simp) h

/-- C134: a vector inside the bounds comes back to within half a bin, plus a few rounding units of the number of bins. `y` is the exact
position of the value in units of bins. -/
theorem C134_nearest {d : BinDimFl φ} (h : d.Resolved) (v : Flt φ) (h0 : d.lo.val ≤ v.val)
    (h1 : (v.val - d.lo.val) * d.scale.val ≤ d.bins) :
    |(d.value (d.index v)).val - v.val| * d.scale.val ≤ 1 / 2 + 5 * φ.u * (d.bins + d.scale.val * |d.lo.val| + 1) := by
  have hu := φ.u_pos
  have hul := h.u_le
  have hS := h.scale_pos
  have hb : (Flt.round φ d.bins).val = d.bins := by
    have := h.round_int (k := d.bins) (by omega) le_rfl
    exact_mod_cast this
  obtain ⟨i0, i1⟩ := index_mem d v hb
  have hk0 : (0 : ℝ) ≤ d.index v := by exact_mod_cast i0
  have hk1 : (d.index v : ℝ) ≤ d.bins := by exact_mod_cast i1
  have hv := h.value_close i0 i1
  have hc := h.coordinate_close v
  obtain ⟨y, hy⟩ : ∃ y, y = (v.val - d.lo.val) * d.scale.val := ⟨_, rfl⟩
  have hy0 : 0 ≤ y := hy ▸ mul_nonneg (by linarith) hS.le
  have hd : |d.index v - y| ≤ 1 / 2 + (φ.u * (2 + φ.u) * y + φ.u) := by
    rw [abs_of_nonneg (by linarith : 0 ≤ v.val - d.lo.val), ← hy] at hc
    have hr := rint_close (max (min ((v.sub d.lo).mul d.scale).val d.bins) 0)
    have hcl := clamp_close (z := ((v.sub d.lo).mul d.scale).val) hy0 (hy ▸ h1)
    have hi : d.index v = rint (max (min ((v.sub d.lo).mul d.scale).val d.bins) 0) := by
      unfold BinDimFl.index
      rw [hb]
    rw [hi]
    have hcc := hcl.trans hc
    rw [abs_le] at hr hcc ⊢
    constructor <;> linarith [hr.1, hr.2, hcc.1, hcc.2]
  have hsum : |(d.value (d.index v)).val - v.val| * d.scale.val ≤
      |(d.value (d.index v)).val - d.lo.val - d.index v / d.scale.val| * d.scale.val + |d.index v - y| := by
    have e : (d.value (d.index v)).val - v.val =
        ((d.value (d.index v)).val - d.lo.val - d.index v / d.scale.val) + (d.index v - y) / d.scale.val := by
      rw [hy]
      field_simp
      ring
    rw [e]
    calc _ ≤ (|(d.value (d.index v)).val - d.lo.val - d.index v / d.scale.val| + |(d.index v - y) / d.scale.val|) * d.scale.val :=
          mul_le_mul_of_nonneg_right (abs_add_le _ _) hS.le
      _ = _ := by
        rw [add_mul, abs_div, abs_of_pos hS, div_mul_cancel₀ _ hS.ne']
  have hyb : y ≤ d.bins := hy ▸ h1
  have hL0 : 0 ≤ d.scale.val * |d.lo.val| := mul_nonneg hS.le (abs_nonneg _)
  generalize d.scale.val * |d.lo.val| = L at hL0 hv ⊢
  generalize (d.index v : ℝ) = k at hk0 hk1 hv hd hsum
  generalize (d.bins : ℝ) = b at hk1 hyb ⊢
  have a1 : φ.u * k ≤ φ.u * b := mul_le_mul_of_nonneg_left hk1 hu.le
  have a2 : φ.u * y ≤ φ.u * b := mul_le_mul_of_nonneg_left hyb hu.le
  have a3 : 0 ≤ φ.u * k := mul_nonneg hu.le hk0
  have a4 : 0 ≤ φ.u * y := mul_nonneg hu.le hy0
  have a5 : 0 ≤ φ.u * L := mul_nonneg hu.le hL0
  nlinarith

/-! ### Bounds -/

/-- The expectation, which holds over the real numbers (C33): the value of every bin is inside the bounds. -/
def ValuesInBounds (φ : Format) : Prop :=
  ∀ d : BinDimFl φ, d.Resolved → d.lo.val < d.hi.val → ∀ k : ℤ, 0 ≤ k → k ≤ d.bins →
    d.lo.val ≤ (d.value k).val ∧ (d.value k).val ≤ d.hi.val

/-- The part that holds: no value is below the minimum, and values are above the maximum by a few rounding units at most. -/
theorem C134_value_bounds_partial {d : BinDimFl φ} (h : d.Resolved) (hlt : d.lo.val < d.hi.val) {k : ℤ} (h0 : 0 ≤ k)
    (h1 : k ≤ d.bins) :
    d.lo.val ≤ (d.value k).val ∧ (d.value k).val ≤ d.hi.val + φ.u * (5 * (d.hi.val - d.lo.val) + |d.lo.val|) := by
  have hu := φ.u_pos
  have hul := h.u_le
  have hS := h.scale_pos
  have hk0 : (0 : ℝ) ≤ k := by exact_mod_cast h0
  have hk1 : (k : ℝ) ≤ d.bins := by exact_mod_cast h1
  constructor
  · have hq : 0 ≤ ((Flt.round φ k).div d.scale).val := by
      apply Format.le_fl_of_rep Format.Rep.zero
      rw [h.round_int h0 h1]
      exact div_nonneg hk0 hS.le
    exact Format.le_fl_of_rep d.lo.property (by linarith)
  · -- the scale is the number of bins over the width, up to two roundings
    have hb : (Flt.round φ d.bins).val = d.bins := by
      have := h.round_int (k := d.bins) (by omega) le_rfl
      exact_mod_cast this
    have hb1 : (1 : ℝ) ≤ d.bins := by exact_mod_cast h.bins
    obtain ⟨R, hR⟩ : ∃ R, R = d.hi.val - d.lo.val := ⟨_, rfl⟩
    have hR0 : 0 < R := by rw [hR]; linarith
    obtain ⟨r, hr⟩ : ∃ r, r = (d.hi.sub d.lo).val := ⟨_, rfl⟩
    have er : |r - R| ≤ φ.u * R := by
      have := Format.fl_sub_rel d.hi.property d.lo.property
      rw [← hR, abs_of_pos hR0] at this
      rw [hr]
      show |φ.fl (d.hi.val - d.lo.val) - R| ≤ _
      rw [← hR]
      exact this
    rw [abs_le] at er
    have hr0 : 0 < r := by nlinarith [er.1]
    have eS : d.scale.val = φ.fl (d.bins / r) := by
      rw [hr, ← hb]
      rfl
    have hn : (2 : ℝ) ^ (φ.emin + φ.prec - 1) ≤ |(d.bins : ℝ) / r| := by
      rw [abs_of_pos (by positivity)]
      by_contra hc
      rw [not_le] at hc
      have hrep : φ.Rep (2 ^ (φ.emin + φ.prec - 1)) := by
        have := φ.two_le
        refine ⟨1, φ.emin + φ.prec - 1, ?_, by omega, by simp⟩
        rw [abs_one]
        exact_mod_cast Nat.one_lt_two_pow (by omega)
      have := Format.fl_le_of_rep hrep hc.le
      rw [← eS] at this
      exact absurd h.pos (not_lt.2 this)
    have es := Format.fl_rel hn
    rw [← eS, abs_of_pos (by positivity : 0 < (d.bins : ℝ) / r), abs_le] at es
    have hSr : (1 - φ.u) * d.bins ≤ d.scale.val * r := by
      have := es.1
      rw [show -(φ.u * (d.bins / r)) = -φ.u * d.bins / r by ring] at this
      have h2 : (1 - φ.u) * d.bins / r ≤ d.scale.val := by
        rw [show (1 - φ.u) * d.bins / r = d.bins / r - φ.u * d.bins / r by ring]
        rw [neg_mul, neg_div] at this
        linarith
      rwa [div_le_iff₀ hr0] at h2
    have hv := h.value_close h0 h1
    have hvk : ((d.value k).val - d.lo.val) * d.scale.val ≤ k + φ.u * (2 * k + φ.u * k + d.scale.val * |d.lo.val|) := by
      have := (mul_le_mul_of_nonneg_right (le_abs_self ((d.value k).val - d.lo.val - k / d.scale.val)) hS.le).trans hv
      rw [sub_mul, div_mul_cancel₀ _ hS.ne'] at this
      linarith
    obtain ⟨X, hX⟩ : ∃ X, X = (d.value k).val - d.lo.val := ⟨_, rfl⟩
    have hXle : X ≤ R + φ.u * (5 * R + |d.lo.val|) := by
      rw [← hX] at hvk
      -- multiply by r
      have hbS : (d.bins : ℝ) ≤ d.scale.val * (R * (1 + 5 / 2 * φ.u)) := by
        have hrR : r ≤ (1 + φ.u) * R := by linarith [er.2]
        have h1 : (1 - φ.u) * d.bins ≤ d.scale.val * ((1 + φ.u) * R) :=
          hSr.trans (mul_le_mul_of_nonneg_left hrR hS.le)
        have h2 : (1 + φ.u) ≤ (1 - φ.u) * (1 + 5 / 2 * φ.u) := by nlinarith
        have h3 : d.scale.val * ((1 + φ.u) * R) ≤ (1 - φ.u) * (d.scale.val * (R * (1 + 5 / 2 * φ.u))) := by
          have := mul_le_mul_of_nonneg_left h2 (mul_nonneg hS.le hR0.le)
          nlinarith
        have h4 : (0 : ℝ) < 1 - φ.u := by linarith
        exact le_of_mul_le_mul_left (h1.trans h3) h4
      have hk2 : (k : ℝ) + φ.u * (2 * k + φ.u * k + d.scale.val * |d.lo.val|) ≤
          d.scale.val * (R * (1 + 5 / 2 * φ.u) * (1 + φ.u * (2 + φ.u)) + φ.u * |d.lo.val|) := by
        have : (k : ℝ) * (1 + φ.u * (2 + φ.u)) ≤ d.scale.val * (R * (1 + 5 / 2 * φ.u)) * (1 + φ.u * (2 + φ.u)) :=
          mul_le_mul_of_nonneg_right (hk1.trans hbS) (by positivity)
        nlinarith
      have h5 : X ≤ R * (1 + 5 / 2 * φ.u) * (1 + φ.u * (2 + φ.u)) + φ.u * |d.lo.val| := by
        rw [mul_comm X] at hvk
        exact le_of_mul_le_mul_left (hvk.trans hk2) hS
      have h6 : (1 + 5 / 2 * φ.u) * (1 + φ.u * (2 + φ.u)) ≤ 1 + 5 * φ.u := by nlinarith [mul_pos hu hu, mul_pos (mul_pos hu hu) hu]
      have h7 := mul_le_mul_of_nonneg_left h6 hR0.le
      nlinarith
    rw [hX, hR] at hXle
    linarith

/-- What a user of a symmetric action space with an even number of bins expects: the middle bin is no action at all. -/
def MiddleIsZero (φ : Format) : Prop :=
  ∀ d : BinDimFl φ, d.Resolved → d.lo = d.hi.neg → ∀ m : ℕ, d.bins = 2 * m → (d.value m).val = 0

end

/-- The yaw dimension of a discretised `DeltaGlobal` in float32. -/
noncomputable def yawBins (b : ℕ) : BinDimFl float32 := { lo := (Flt.pi float32).neg, hi := Flt.pi float32, bins := b }

theorem yawBins_scale {b : ℕ} {s e : ℤ} (hb : b < 2 ^ 24) (he : -149 ≤ e)
    (h0 : (2 : ℝ) ^ (e + 23) ≤ b / (13176795 * 2 ^ (-21 : ℤ))) (h1 : (b : ℝ) / (13176795 * 2 ^ (-21 : ℤ)) < 2 ^ (e + 24))
    (h2 : |(b : ℝ) / (13176795 * 2 ^ (-21 : ℤ)) / 2 ^ e - s| < 1 / 2) : (yawBins b).scale.val = s * 2 ^ e := by
  show float32.fl (float32.fl (b : ℝ) / float32.fl ((Flt.pi float32).val - (-(Flt.pi float32).val))) = _
  have e1 : float32.fl (b : ℝ) = b := Format.fl_of_rep ⟨b, 0, by simpa [float32] using hb, by decide, by simp⟩
  have e2 : float32.fl ((Flt.pi float32).val - (-(Flt.pi float32).val)) = 13176795 * 2 ^ (-21 : ℤ) := by
    rw [sub_neg_eq_add, ← two_mul, Format.fl_of_rep (Flt.pi float32).property.double, float32_pi]
    norm_num
  have hnn : (0 : ℝ) ≤ b / (13176795 * 2 ^ (-21 : ℤ)) := by positivity
  rw [e1, e2, Format.fl_eq (e := e) (by
      rw [abs_of_nonneg hnn, show e + (float32.prec : ℤ) - 1 = e + 23 by simp [float32]; ring]
      exact h0) (by
      rw [abs_of_nonneg hnn, show e + (float32.prec : ℤ) = e + 24 by simp [float32]]
      exact h1) he, rint_eq_of_abs_lt h2]

theorem yawBins51_scale : (yawBins 51).scale.val = 8511188 * 2 ^ (-20 : ℤ) := by
  have := yawBins_scale (b := 51) (s := 8511188) (e := -20) (by norm_num) (by norm_num) (by norm_num) (by norm_num) (by
    rw [abs_lt]
    norm_num)
  rw [this]
  norm_num

theorem yawBins18_scale : (yawBins 18).scale.val = 12015796 * 2 ^ (-22 : ℤ) := by
  have := yawBins_scale (b := 18) (s := 12015796) (e := -22) (by norm_num) (by norm_num) (by norm_num) (by norm_num) (by
    rw [abs_lt]
    norm_num)
  rw [this]
  norm_num

theorem yawBins51_resolved : (yawBins 51).Resolved := by
  refine ⟨by norm_num [yawBins], ?_, ?_, ?_⟩
  · rw [yawBins51_scale]
    norm_num [float32]
  · rw [yawBins51_scale]
    norm_num [float32]
  · rw [yawBins51_scale]
    show 16 * (((51 : ℕ) : ℝ) + _ * |-(Flt.pi float32).val|) ≤ _
    rw [abs_neg, abs_of_pos pi_pos, float32_pi]
    norm_num [float32]

theorem yawBins18_resolved : (yawBins 18).Resolved := by
  refine ⟨by norm_num [yawBins], ?_, ?_, ?_⟩
  · rw [yawBins18_scale]
    norm_num [float32]
  · rw [yawBins18_scale]
    norm_num [float32]
  · rw [yawBins18_scale]
    show 16 * (((18 : ℕ) : ℝ) + _ * |-(Flt.pi float32).val|) ≤ _
    rw [abs_neg, abs_of_pos pi_pos, float32_pi]
    norm_num [float32]

/-- In float32 the last of 51 yaw bins of `DeltaGlobal` stands for a value above the maximum of the action space. -/
theorem C134_value_bounds_violated : ¬ ValuesInBounds float32 := by
  intro h
  have := (h (yawBins 51) yawBins51_resolved (by
    show -(Flt.pi float32).val < (Flt.pi float32).val
    linarith [pi_pos (φ := float32)]) 51 (by norm_num) (by norm_num [yawBins])).2
  have e1 : float32.fl ((51 : ℤ) : ℝ) = 51 := Format.fl_of_rep ⟨51, 0, by decide, by decide, by norm_num⟩
  have e2 : float32.fl (51 / (8511188 * 2 ^ (-20 : ℤ))) = 13176796 * 2 ^ (-21 : ℤ) := by
    rw [Format.fl_eq (e := -21) (by rw [abs_of_pos (by positivity)]; norm_num [float32])
      (by rw [abs_of_pos (by positivity)]; norm_num [float32]) (by decide)]
    rw [rint_eq_of_abs_lt (k := 13176796) (by rw [abs_lt]; norm_num)]
    norm_num
  have e3 : float32.fl (13176796 * 2 ^ (-21 : ℤ) + -(13176795 * 2 ^ (-22 : ℤ))) = 13176797 * 2 ^ (-22 : ℤ) := by
    rw [show (13176796 * 2 ^ (-21 : ℤ) + -(13176795 * 2 ^ (-22 : ℤ)) : ℝ) = 13176797 * 2 ^ (-22 : ℤ) by norm_num]
    exact Format.fl_of_rep ⟨13176797, -22, by decide, by decide, by norm_num⟩
  have hval : ((yawBins 51).value 51).val = 13176797 * 2 ^ (-22 : ℤ) := by
    show float32.fl (float32.fl (float32.fl ((51 : ℤ) : ℝ) / (yawBins 51).scale.val) + -(Flt.pi float32).val) = _
    rw [e1, yawBins51_scale, e2, float32_pi, e3]
  rw [hval] at this
  change _ ≤ (Flt.pi float32).val at this
  rw [float32_pi] at this
  norm_num at this

/-- In float32 the middle one of 18 yaw bins of `DeltaGlobal` turns the object, by 2 ^ -22 radians to the right. -/
theorem C134_middle_violated : ((yawBins 18).value 9).val = -2 ^ (-22 : ℤ) ∧ ¬ MiddleIsZero float32 := by
  have e1 : float32.fl ((9 : ℤ) : ℝ) = 9 := Format.fl_of_rep ⟨9, 0, by decide, by decide, by norm_num⟩
  have e2 : float32.fl (9 / (12015796 * 2 ^ (-22 : ℤ))) = 13176794 * 2 ^ (-22 : ℤ) := by
    rw [Format.fl_eq (e := -22) (by rw [abs_of_pos (by positivity)]; norm_num [float32])
      (by rw [abs_of_pos (by positivity)]; norm_num [float32]) (by decide)]
    rw [rint_eq_of_abs_lt (k := 13176794) (by rw [abs_lt]; norm_num)]
    norm_num
  have e3 : float32.fl (13176794 * 2 ^ (-22 : ℤ) + -(13176795 * 2 ^ (-22 : ℤ))) = -2 ^ (-22 : ℤ) := by
    rw [show (13176794 * 2 ^ (-22 : ℤ) + -(13176795 * 2 ^ (-22 : ℤ)) : ℝ) = -2 ^ (-22 : ℤ) by norm_num]
    exact Format.fl_of_rep ⟨-1, -22, by decide, by decide, by norm_num⟩
  have hval : ((yawBins 18).value 9).val = -2 ^ (-22 : ℤ) := by
    show float32.fl (float32.fl (float32.fl ((9 : ℤ) : ℝ) / (yawBins 18).scale.val) + -(Flt.pi float32).val) = _
    rw [e1, yawBins18_scale, e2, float32_pi, e3]
  refine ⟨hval, fun h => ?_⟩
  have := h (yawBins 18) yawBins18_resolved rfl 9 (by norm_num [yawBins])
  rw [show ((9 : ℕ) : ℤ) = 9 from rfl, hval] at this
  norm_num at this

/-- Non-vacuity of the round trip: all 52 * 19 pairs of bins of these two dimensions come back. -/
example (k : ℤ) (h0 : 0 ≤ k) (h1 : k < 988) :
    discretizeFl [yawBins 51, yawBins 18] (makeContinuousFl [yawBins 51, yawBins 18] k) = .ok k := by
  refine C134_round_trip ?_ h0 (by simpa [yawBins] using h1)
  intro d hd
  simp only [List.mem_cons, List.not_mem_nil, or_false] at hd
  rcases hd with rfl | rfl
  · exact yawBins51_resolved
  · exact yawBins18_resolved

end Waymax
