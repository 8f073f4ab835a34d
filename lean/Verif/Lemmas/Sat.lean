import Verif.Spec.Geometry
import Mathlib.Analysis.LocallyConvex.Separation
import Mathlib.Tactic.Linarith
import Mathlib.Tactic.Positivity
import Mathlib.Tactic.FieldSimp
import Mathlib.Tactic.LinearCombination
/-
The separating axis theorem for two oriented rectangles: if their interiors are disjoint then one of the four side directions
separates them.
-/

namespace Waymax.Sat

open Real Set

/-- Dot product. -/
def dot (n p : ℝ × ℝ) : ℝ := n.1 * p.1 + n.2 * p.2

theorem abs_comb_lt {A B u v L W : ℝ} (hAB : A ≠ 0 ∨ B ≠ 0) (hu : |u| < L) (hv : |v| < W) :
    |A * u + B * v| < |A| * L + |B| * W := by
  have h1 : |A * u + B * v| ≤ |A| * |u| + |B| * |v| := by
    rw [← abs_mul, ← abs_mul]; exact abs_add_le _ _
  rcases hAB with h | h
  · have : 0 < |A| := abs_pos.2 h
    have h2 : |A| * |u| < |A| * L := by nlinarith
    have h3 : |B| * |v| ≤ |B| * W := mul_le_mul_of_nonneg_left hv.le (abs_nonneg _)
    linarith
  · have : 0 < |B| := abs_pos.2 h
    have h2 : |B| * |v| < |B| * W := by nlinarith
    have h3 : |A| * |u| ≤ |A| * L := mul_le_mul_of_nonneg_left hu.le (abs_nonneg _)
    linarith

/-- Half extent of a rectangle with half sides `L`, `W` and heading `yaw` in direction `n`. -/
noncomputable def ext (yaw L W : ℝ) (n : ℝ × ℝ) : ℝ := |dot n (heading yaw)| * L + |dot n (leftOf yaw)| * W

theorem dot_pointAt (n : ℝ × ℝ) (x y yaw u v : ℝ) :
    dot n (pointAt x y yaw u v) = dot n (x, y) + (dot n (heading yaw) * u + dot n (leftOf yaw) * v) := by
  simp only [dot, pointAt]; ring

theorem dot_sq (n : ℝ × ℝ) (yaw : ℝ) : dot n (heading yaw) ^ 2 + dot n (leftOf yaw) ^ 2 = n.1 ^ 2 + n.2 ^ 2 := by
  simp only [dot, heading, leftOf]
  linear_combination (n.1 ^ 2 + n.2 ^ 2) * sin_sq_add_cos_sq yaw

/-- The open rectangle as an intersection of strips. -/
theorem mem_rectInterior {x y l w yaw : ℝ} {p : ℝ × ℝ} :
    p ∈ rectInterior x y l w yaw ↔
      |(p.1 - x) * cos yaw + (p.2 - y) * sin yaw| < |l| / 2 ∧ |-(p.1 - x) * sin yaw + (p.2 - y) * cos yaw| < |w| / 2 := by
  have h := sin_sq_add_cos_sq yaw
  constructor
  · rintro ⟨u, v, hu, hv, rfl⟩
    simp only [pointAt, heading, leftOf]
    have e1 : (x + u * cos yaw + v * -sin yaw - x) * cos yaw + (y + u * sin yaw + v * cos yaw - y) * sin yaw = u := by
      linear_combination u * h
    have e2 : -(x + u * cos yaw + v * -sin yaw - x) * sin yaw + (y + u * sin yaw + v * cos yaw - y) * cos yaw = v := by
      linear_combination v * h
    rw [e1, e2]; exact ⟨hu, hv⟩
  · rintro ⟨hu, hv⟩
    refine ⟨_, _, hu, hv, ?_⟩
    simp only [pointAt, heading, leftOf]
    ext
    · simp only; linear_combination (-(p.1 - x)) * h
    · simp only; linear_combination (-(p.2 - y)) * h

theorem isOpen_rect (x y l w yaw : ℝ) : IsOpen (rectInterior x y l w yaw) := by
  have : rectInterior x y l w yaw =
      {p | |(p.1 - x) * cos yaw + (p.2 - y) * sin yaw| < |l| / 2} ∩
        {p | |-(p.1 - x) * sin yaw + (p.2 - y) * cos yaw| < |w| / 2} := by
    ext p; exact mem_rectInterior
  rw [this]
  apply IsOpen.inter
  · exact isOpen_lt (by fun_prop) (by fun_prop)
  · exact isOpen_lt (by fun_prop) (by fun_prop)

theorem convex_rect (x y l w yaw : ℝ) : Convex ℝ (rectInterior x y l w yaw) := by
  rintro p ⟨u, v, hu, hv, rfl⟩ q ⟨u', v', hu', hv', rfl⟩ a b ha hb hab
  refine ⟨a * u + b * u', a * v + b * v', ?_, ?_, ?_⟩
  · rw [abs_lt] at *
    constructor <;> rcases eq_or_lt_of_le ha with h | h <;> nlinarith [h, ha, hb]
  · rw [abs_lt] at *
    constructor <;> rcases eq_or_lt_of_le ha with h | h <;> nlinarith [h, ha, hb]
  · simp only [pointAt, Prod.smul_mk, smul_eq_mul, Prod.mk_add_mk]
    ext
    · simp only; linear_combination x * hab
    · simp only; linear_combination y * hab

/-- Sup of a linear functional over the open rectangle. -/
theorem ext_le_of_bound {x y l w yaw u₀ : ℝ} {n : ℝ × ℝ} (hl : l ≠ 0) (hw : w ≠ 0)
    (h : ∀ p ∈ rectInterior x y l w yaw, dot n p < u₀) : dot n (x, y) + ext yaw (|l| / 2) (|w| / 2) n ≤ u₀ := by
  have hl' : 0 < |l| := abs_pos.2 hl
  have hw' : 0 < |w| := abs_pos.2 hw
  by_contra hc
  push Not at hc
  set E := ext yaw (|l| / 2) (|w| / 2) n with hE
  have hE0 : 0 ≤ E := by rw [hE]; unfold ext; positivity
  -- every shrunk extreme corner is inside
  have hin : ∀ t, 0 ≤ t → t < 1 → dot n (x, y) + t * E < u₀ := by
    intro t ht0 ht1
    have sgn : ∀ A : ℝ, ∃ σ : ℝ, |σ| = 1 ∧ A * σ = |A| := by
      intro A
      rcases le_total 0 A with hA | hA
      · exact ⟨1, by simp, by rw [abs_of_nonneg hA]; ring⟩
      · exact ⟨-1, by simp, by rw [abs_of_nonpos hA]; ring⟩
    obtain ⟨σ, hσ, hσ'⟩ := sgn (dot n (heading yaw))
    obtain ⟨τ, hτ, hτ'⟩ := sgn (dot n (leftOf yaw))
    have := h (pointAt x y yaw (t * σ * (|l| / 2)) (t * τ * (|w| / 2))) ⟨_, _, ?_, ?_, rfl⟩
    · rw [dot_pointAt] at this
      have e : dot n (heading yaw) * (t * σ * (|l| / 2)) + dot n (leftOf yaw) * (t * τ * (|w| / 2)) = t * E := by
        rw [hE]; unfold ext; rw [← hσ', ← hτ']; ring
      rw [e] at this; exact this
    · rw [abs_mul, abs_mul, hσ, abs_of_nonneg ht0, abs_of_nonneg (by positivity : (0:ℝ) ≤ |l| / 2)]; nlinarith
    · rw [abs_mul, abs_mul, hτ, abs_of_nonneg ht0, abs_of_nonneg (by positivity : (0:ℝ) ≤ |w| / 2)]; nlinarith
  have h0 := hin 0 le_rfl one_pos
  have hEpos : 0 < E := by linarith
  have := hin ((u₀ - dot n (x, y)) / E) (by apply div_nonneg <;> linarith) (by rw [div_lt_one hEpos]; linarith)
  rw [div_mul_cancel₀ _ hEpos.ne'] at this
  linarith

/-- Some direction separates disjoint open rectangles. -/
theorem exists_separating {x y l w yaw x' y' l' w' yaw' : ℝ} (hl : l ≠ 0) (hw : w ≠ 0) (hl' : l' ≠ 0) (hw' : w' ≠ 0)
    (hd : Disjoint (rectInterior x y l w yaw) (rectInterior x' y' l' w' yaw')) :
    ∃ n : ℝ × ℝ, n ≠ 0 ∧ ext yaw (|l| / 2) (|w| / 2) n + ext yaw' (|l'| / 2) (|w'| / 2) n ≤ dot n (x' - x, y' - y) := by
  obtain ⟨f, u, h1, h2⟩ := geometric_hahn_banach_open_open (convex_rect x y l w yaw) (isOpen_rect x y l w yaw)
    (convex_rect x' y' l' w' yaw') (isOpen_rect x' y' l' w' yaw') hd
  have hf : ∀ p : ℝ × ℝ, f p = dot (f (1, 0), f (0, 1)) p := by
    intro p
    have : p = p.1 • ((1, 0) : ℝ × ℝ) + p.2 • ((0, 1) : ℝ × ℝ) := by ext <;> simp
    conv_lhs => rw [this]
    rw [map_add, map_smul, map_smul]; simp only [dot, smul_eq_mul]; ring
  set n : ℝ × ℝ := (f (1, 0), f (0, 1)) with hn
  have hl0 : 0 < |l| := abs_pos.2 hl
  have hw0 : 0 < |w| := abs_pos.2 hw
  have hl0' : 0 < |l'| := abs_pos.2 hl'
  have hw0' : 0 < |w'| := abs_pos.2 hw'
  have b1 := ext_le_of_bound (n := n) (u₀ := u) hl hw (fun p hp => by rw [← hf]; exact h1 p hp)
  have b2 := ext_le_of_bound (n := -n) (u₀ := -u) hl' hw' (fun p hp => by
    have : dot (-n) p = -dot n p := by simp only [dot, Prod.fst_neg, Prod.snd_neg]; ring
    rw [this, ← hf]; exact neg_lt_neg (h2 p hp))
  have e1 : ext yaw' (|l'| / 2) (|w'| / 2) (-n) = ext yaw' (|l'| / 2) (|w'| / 2) n := by
    unfold ext
    have : ∀ q, dot (-n) q = -dot n q := by intro q; simp only [dot, Prod.fst_neg, Prod.snd_neg]; ring
    rw [this, this, abs_neg, abs_neg]
  have e2 : dot (-n) (x', y') = -dot n (x', y') := by simp only [dot, Prod.fst_neg, Prod.snd_neg]; ring
  have e3 : dot n (x' - x, y' - y) = dot n (x', y') - dot n (x, y) := by simp only [dot]; ring
  refine ⟨n, ?_, by rw [e1, e2] at b2; rw [e3]; linarith⟩
  intro h0
  have m1 := h1 (x, y) ⟨0, 0, by simpa using hl0, by simpa using hw0, by simp [pointAt]⟩
  have m2 := h2 (x', y') ⟨0, 0, by simpa using hl0', by simpa using hw0', by simp [pointAt]⟩
  rw [hf, h0] at m1 m2
  simp [dot] at m1 m2
  linarith

/-- Gap function: non-positive exactly when direction `n` separates two rectangles whose centres differ by `d`. -/
def gap (a1 a2 b1 b2 : ℝ × ℝ) (L W L' W' : ℝ) (d n : ℝ × ℝ) : ℝ :=
  |dot n a1| * L + |dot n a2| * W + (|dot n b1| * L' + |dot n b2| * W') - dot n d

theorem abs_comb_eq {a b s t : ℝ} (hs : 0 ≤ s) (ht : 0 ≤ t) (hab : 0 ≤ a * b) : |s * a + t * b| = s * |a| + t * |b| := by
  rcases le_total 0 a with ha | ha <;> rcases le_total 0 b with hb | hb
  · rw [abs_of_nonneg ha, abs_of_nonneg hb, abs_of_nonneg (by positivity)]
  · have : a = 0 ∨ b = 0 := by
      by_contra hc; push Not at hc
      have : a * b < 0 := mul_neg_of_pos_of_neg (lt_of_le_of_ne ha (Ne.symm hc.1)) (lt_of_le_of_ne hb hc.2)
      linarith
    rcases this with h | h <;> simp [h, abs_mul, abs_of_nonneg hs, abs_of_nonneg ht]
  · have : a = 0 ∨ b = 0 := by
      by_contra hc; push Not at hc
      have : a * b < 0 := mul_neg_of_neg_of_pos (lt_of_le_of_ne ha hc.1) (lt_of_le_of_ne hb (Ne.symm hc.2))
      linarith
    rcases this with h | h <;> simp [h, abs_mul, abs_of_nonneg hs, abs_of_nonneg ht]
  · rw [abs_of_nonpos ha, abs_of_nonpos hb, abs_of_nonpos (by nlinarith)]; ring

/-- On a cone that no side direction of either rectangle cuts, the gap is linear; so if a direction in the cone separates, one
of the two spanning directions does. -/
theorem cone_separates {a1 a2 b1 b2 d e r n : ℝ × ℝ} {L W L' W' s t : ℝ} (hs : 0 ≤ s) (ht : 0 ≤ t) (hpos : 0 < s + t)
    (hn : n = (s * e.1 + t * r.1, s * e.2 + t * r.2))
    (h1 : 0 ≤ dot e a1 * dot r a1) (h2 : 0 ≤ dot e a2 * dot r a2) (h3 : 0 ≤ dot e b1 * dot r b1)
    (h4 : 0 ≤ dot e b2 * dot r b2) (h : gap a1 a2 b1 b2 L W L' W' d n ≤ 0) :
    gap a1 a2 b1 b2 L W L' W' d e ≤ 0 ∨ gap a1 a2 b1 b2 L W L' W' d r ≤ 0 := by
  have hdot : ∀ q, dot n q = s * dot e q + t * dot r q := by intro q; rw [hn]; simp only [dot]; ring
  have hlin : gap a1 a2 b1 b2 L W L' W' d n = s * gap a1 a2 b1 b2 L W L' W' d e + t * gap a1 a2 b1 b2 L W L' W' d r := by
    unfold gap
    rw [hdot, hdot, hdot, hdot, hdot, abs_comb_eq hs ht h1, abs_comb_eq hs ht h2, abs_comb_eq hs ht h3,
      abs_comb_eq hs ht h4]
    ring
  by_contra hc
  push Not at hc
  rcases eq_or_lt_of_le hs with h1 | h1
  · have : 0 < t := by linarith
    nlinarith
  · nlinarith

/-- Inside a quadrant of the first rectangle's axes that contains the axis `r` of the second one. -/
theorem quadrant_separates {e1 e2 r r' d n : ℝ × ℝ} {L W L' W' α β ρ₁ ρ₂ : ℝ}
    (h11 : dot e1 e1 = 1) (h22 : dot e2 e2 = 1) (h12 : dot e1 e2 = 0)
    (hα : 0 ≤ α) (hβ : 0 ≤ β) (hn0 : 0 < α + β) (hρ₁ : 0 ≤ ρ₁) (hρ₂ : 0 ≤ ρ₂) (hρ : 0 < ρ₁ + ρ₂)
    (hn : n = (α * e1.1 + β * e2.1, α * e1.2 + β * e2.2)) (hr : r = (ρ₁ * e1.1 + ρ₂ * e2.1, ρ₁ * e1.2 + ρ₂ * e2.2))
    (hrr : dot r r' = 0) (h : gap e1 e2 r r' L W L' W' d n ≤ 0) :
    gap e1 e2 r r' L W L' W' d e1 ≤ 0 ∨ gap e1 e2 r r' L W L' W' d e2 ≤ 0 ∨ gap e1 e2 r r' L W L' W' d r ≤ 0 := by
  have h21 : dot e2 e1 = 0 := by rw [← h12]; simp only [dot]; ring
  have r1 : dot r e1 = ρ₁ := by
    have : dot r e1 = ρ₁ * dot e1 e1 + ρ₂ * dot e2 e1 := by rw [hr]; simp only [dot]; ring
    rw [this, h11, h21]; ring
  have r2 : dot r e2 = ρ₂ := by
    have : dot r e2 = ρ₁ * dot e1 e2 + ρ₂ * dot e2 e2 := by rw [hr]; simp only [dot]; ring
    rw [this, h12, h22]; ring
  have rr : 0 ≤ dot r r := by simp only [dot]; nlinarith [sq_nonneg r.1, sq_nonneg r.2]
  have er1 : dot e1 r = ρ₁ := by rw [← r1]; simp only [dot]; ring
  have er2 : dot e2 r = ρ₂ := by rw [← r2]; simp only [dot]; ring
  rcases le_total (β * ρ₁) (α * ρ₂) with hc | hc
  · -- between e1 and r
    rcases eq_or_lt_of_le hρ₂ with hz | hz
    · -- r is along e1, n too
      have hρ1 : 0 < ρ₁ := by linarith
      have hβ0 : β = 0 := by
        rw [← hz] at hc; nlinarith
      have := cone_separates (a1 := e1) (a2 := e2) (b1 := r) (b2 := r') (d := d) (e := e1) (r := r) (n := n) (L := L) (W := W)
        (L' := L') (W' := W') (s := α) (t := 0) hα le_rfl (by linarith) (by rw [hn, hβ0]; simp)
        (by rw [h11, r1]; linarith) (by rw [h12]; simp) (by rw [er1]; positivity) (by rw [hrr]; simp) h
      tauto
    · have := cone_separates (a1 := e1) (a2 := e2) (b1 := r) (b2 := r') (d := d) (e := e1) (r := r) (n := n) (L := L) (W := W)
        (L' := L') (W' := W') (s := α - β * ρ₁ / ρ₂) (t := β / ρ₂)
        (by rw [sub_nonneg, div_le_iff₀ hz]; linarith) (by positivity)
        (by
          have a1 : 0 ≤ α - β * ρ₁ / ρ₂ := by rw [sub_nonneg, div_le_iff₀ hz]; linarith
          rcases eq_or_lt_of_le hβ with hb | hb
          · rw [← hb]; simp; linarith
          · have : 0 < β / ρ₂ := by positivity
            linarith)
        (by rw [hn, hr]; ext <;> simp only <;> field_simp <;> ring)
        (by rw [h11, r1]; linarith) (by rw [h12]; simp) (by rw [er1]; positivity) (by rw [hrr]; simp) h
      tauto
  · rcases eq_or_lt_of_le hρ₁ with hz | hz
    · have hρ2 : 0 < ρ₂ := by linarith
      have hα0 : α = 0 := by rw [← hz] at hc; nlinarith
      have := cone_separates (a1 := e1) (a2 := e2) (b1 := r) (b2 := r') (d := d) (e := e2) (r := r) (n := n) (L := L) (W := W)
        (L' := L') (W' := W') (s := β) (t := 0) hβ le_rfl (by linarith) (by rw [hn, hα0]; ext <;> simp)
        (by rw [h21]; simp) (by rw [h22, r2]; linarith) (by rw [er2]; positivity) (by rw [hrr]; simp) h
      tauto
    · have := cone_separates (a1 := e1) (a2 := e2) (b1 := r) (b2 := r') (d := d) (e := e2) (r := r) (n := n) (L := L) (W := W)
        (L' := L') (W' := W') (s := β - α * ρ₂ / ρ₁) (t := α / ρ₁)
        (by rw [sub_nonneg, div_le_iff₀ hz]; linarith) (by positivity)
        (by
          have a1 : 0 ≤ β - α * ρ₂ / ρ₁ := by rw [sub_nonneg, div_le_iff₀ hz]; linarith
          rcases eq_or_lt_of_le hα with hb | hb
          · rw [← hb]; simp; linarith
          · have : 0 < α / ρ₁ := by positivity
            linarith)
        (by rw [hn, hr]; ext <;> simp only <;> field_simp <;> ring)
        (by rw [h21]; simp) (by rw [h22, r2]; linarith) (by rw [er2]; positivity) (by rw [hrr]; simp) h
      tauto

/-- `v` up to sign. -/
def UpToSign (v w : ℝ × ℝ) : Prop := w = v ∨ w = -v

theorem dot_neg_right (n v : ℝ × ℝ) : dot n (-v) = -dot n v := by simp only [dot, Prod.fst_neg, Prod.snd_neg]; ring
theorem dot_neg_left (n v : ℝ × ℝ) : dot (-n) v = -dot n v := by simp only [dot, Prod.fst_neg, Prod.snd_neg]; ring

theorem UpToSign.abs_right {v w : ℝ × ℝ} (h : UpToSign v w) (n : ℝ × ℝ) : |dot n w| = |dot n v| := by
  rcases h with rfl | rfl
  · rfl
  · rw [dot_neg_right, abs_neg]

theorem UpToSign.abs_left {v w : ℝ × ℝ} (h : UpToSign v w) (n : ℝ × ℝ) : |dot w n| = |dot v n| := by
  rcases h with rfl | rfl
  · rfl
  · rw [dot_neg_left, abs_neg]

theorem UpToSign.dot_self {v w : ℝ × ℝ} (h : UpToSign v w) : dot w w = dot v v := by
  rcases h with rfl | rfl
  · rfl
  · rw [dot_neg_left, dot_neg_right, neg_neg]

/-- The separating axis theorem in terms of extents. -/
theorem separating_axis {yaw yaw' L W L' W' : ℝ} {d n : ℝ × ℝ} (hn : n ≠ 0)
    (h : ext yaw L W n + ext yaw' L' W' n ≤ dot n d) :
    ∃ a, (a = heading yaw ∨ a = leftOf yaw ∨ a = heading yaw' ∨ a = leftOf yaw') ∧
      ext yaw L W a + ext yaw' L' W' a ≤ |dot a d| := by
  have sgn : ∀ v : ℝ × ℝ, ∃ e, UpToSign v e ∧ dot n e = |dot n v| := by
    intro v
    rcases le_total 0 (dot n v) with h | h
    · exact ⟨v, Or.inl rfl, by rw [abs_of_nonneg h]⟩
    · exact ⟨-v, Or.inr rfl, by rw [dot_neg_right, abs_of_nonpos h]⟩
  obtain ⟨e1, s1, p1⟩ := sgn (heading yaw)
  obtain ⟨e2, s2, p2⟩ := sgn (leftOf yaw)
  have hh : ∀ θ, dot (heading θ) (heading θ) = 1 := by
    intro θ; simp only [dot, heading]; linear_combination sin_sq_add_cos_sq θ
  have ll : ∀ θ, dot (leftOf θ) (leftOf θ) = 1 := by
    intro θ; simp only [dot, leftOf]; linear_combination sin_sq_add_cos_sq θ
  have hl : ∀ θ, dot (heading θ) (leftOf θ) = 0 := by intro θ; simp only [dot, heading, leftOf]; ring
  have h11 : dot e1 e1 = 1 := by rw [s1.dot_self, hh]
  have h22 : dot e2 e2 = 1 := by rw [s2.dot_self, ll]
  have h12 : dot e1 e2 = 0 := by
    rw [← abs_eq_zero, s1.abs_left, s2.abs_right, hl, abs_zero]
  -- every vector decomposes along e1, e2
  have basis : ∀ v : ℝ × ℝ, v = (dot v e1 * e1.1 + dot v e2 * e2.1, dot v e1 * e1.2 + dot v e2 * e2.2) := by
    intro v
    have hb : v = (dot v (heading yaw) * (heading yaw).1 + dot v (leftOf yaw) * (leftOf yaw).1,
        dot v (heading yaw) * (heading yaw).2 + dot v (leftOf yaw) * (leftOf yaw).2) := by
      have h := sin_sq_add_cos_sq yaw
      simp only [dot, heading, leftOf]
      ext
      · simp only; linear_combination (-v.1) * h
      · simp only; linear_combination (-v.2) * h
    rcases s1 with rfl | rfl <;> rcases s2 with rfl | rfl <;>
      (first | exact hb | (simp only [dot_neg_right, Prod.fst_neg, Prod.snd_neg, neg_mul_neg]; exact hb))
  -- one of the axes of the second rectangle, up to sign, is in the quadrant
  have hq : ∃ r r', ((UpToSign (heading yaw') r ∧ UpToSign (leftOf yaw') r') ∨
      (UpToSign (leftOf yaw') r ∧ UpToSign (heading yaw') r')) ∧ 0 ≤ dot r e1 ∧ 0 ≤ dot r e2 := by
    have key : ∀ u : ℝ × ℝ, 0 ≤ dot u e1 * dot u e2 → ∃ r, UpToSign u r ∧ 0 ≤ dot r e1 ∧ 0 ≤ dot r e2 := by
      intro u hu
      rcases le_total 0 (dot u e1) with a | a <;> rcases le_total 0 (dot u e2) with b | b
      · exact ⟨u, Or.inl rfl, a, b⟩
      · rcases eq_or_lt_of_le a with a0 | a0
        · exact ⟨-u, Or.inr rfl, by rw [dot_neg_left, ← a0]; simp, by rw [dot_neg_left]; linarith⟩
        · exact ⟨u, Or.inl rfl, a, by nlinarith⟩
      · rcases eq_or_lt_of_le b with b0 | b0
        · exact ⟨-u, Or.inr rfl, by rw [dot_neg_left]; linarith, by rw [dot_neg_left, ← b0]; simp⟩
        · exact ⟨u, Or.inl rfl, by nlinarith, b⟩
      · exact ⟨-u, Or.inr rfl, by rw [dot_neg_left]; linarith, by rw [dot_neg_left]; linarith⟩
    have opp : dot (leftOf yaw') e1 * dot (leftOf yaw') e2 = -(dot (heading yaw') e1 * dot (heading yaw') e2) := by
      have hb : e1.1 * e2.1 + e1.2 * e2.2 = 0 := h12
      have h := sin_sq_add_cos_sq yaw'
      simp only [dot, heading, leftOf]
      linear_combination (e1.1 * e2.1 + e1.2 * e2.2) * h + hb
    rcases le_total 0 (dot (heading yaw') e1 * dot (heading yaw') e2) with hp | hp
    · obtain ⟨r, a, b, c⟩ := key _ hp
      exact ⟨r, leftOf yaw', Or.inl ⟨a, Or.inl rfl⟩, b, c⟩
    · obtain ⟨r, a, b, c⟩ := key (leftOf yaw') (by rw [opp]; linarith)
      exact ⟨r, heading yaw', Or.inr ⟨a, Or.inl rfl⟩, b, c⟩
  obtain ⟨r, r', hrr', hr1, hr2⟩ := hq
  have hperp : dot r r' = 0 := by
    rw [← abs_eq_zero]
    rcases hrr' with ⟨a, b⟩ | ⟨a, b⟩
    · rw [a.abs_left, b.abs_right, hl, abs_zero]
    · rw [a.abs_left, b.abs_right]
      have : dot (leftOf yaw') (heading yaw') = 0 := by rw [← hl yaw']; simp only [dot]; ring
      rw [this, abs_zero]
  have hr0 : dot r r = 1 := by
    rcases hrr' with ⟨a, -⟩ | ⟨a, -⟩
    · rw [a.dot_self, hh]
    · rw [a.dot_self, ll]
  have hrpos : 0 < dot r e1 + dot r e2 := by
    by_contra hc
    have z1 : dot r e1 = 0 := by linarith
    have z2 : dot r e2 = 0 := by linarith
    have hb := basis r
    rw [z1, z2] at hb
    simp only [zero_mul, add_zero] at hb
    rw [hb] at hr0; simp [dot] at hr0
  have hnpos : 0 < dot n e1 + dot n e2 := by
    by_contra hc
    have a1 : 0 ≤ dot n e1 := by rw [p1]; positivity
    have a2 : 0 ≤ dot n e2 := by rw [p2]; positivity
    have z1 : dot n e1 = 0 := by linarith
    have z2 : dot n e2 = 0 := by linarith
    have hb := basis n
    rw [z1, z2] at hb
    simp only [zero_mul, add_zero] at hb
    exact hn hb
  -- choose which side of the second rectangle `r` is
  obtain ⟨Lr, Wr, hgap⟩ : ∃ Lr Wr, ∀ m, ext yaw L W m + ext yaw' L' W' m - dot m d = gap e1 e2 r r' L W Lr Wr d m := by
    rcases hrr' with ⟨a, b⟩ | ⟨a, b⟩
    · exact ⟨L', W', fun m => by unfold ext gap; rw [s1.abs_right, s2.abs_right, a.abs_right, b.abs_right]⟩
    · exact ⟨W', L', fun m => by unfold ext gap; rw [s1.abs_right, s2.abs_right, a.abs_right, b.abs_right]; ring⟩
  have hmain := quadrant_separates (d := d) (L := L) (W := W) (L' := Lr) (W' := Wr) h11 h22 h12
    (by rw [p1]; positivity) (by rw [p2]; positivity) hnpos hr1 hr2 hrpos (basis n) (basis r) hperp
    (by rw [← hgap]; linarith)
  simp only [← hgap] at hmain
  have fin : ∀ v w : ℝ × ℝ, UpToSign v w → ext yaw L W w + ext yaw' L' W' w - dot w d ≤ 0 →
      ext yaw L W v + ext yaw' L' W' v ≤ |dot v d| := by
    intro v w hvw hle
    have hext : ∀ θ a b, ext θ a b w = ext θ a b v := by
      intro θ a b; unfold ext; rw [hvw.abs_left, hvw.abs_left]
    rw [hext, hext] at hle
    have : dot w d ≤ |dot v d| := by rw [← hvw.abs_left]; exact le_abs_self _
    linarith
  rcases hmain with hm | hm | hm
  · exact ⟨_, Or.inl rfl, fin _ _ s1 hm⟩
  · exact ⟨_, Or.inr (Or.inl rfl), fin _ _ s2 hm⟩
  · rcases hrr' with ⟨a, -⟩ | ⟨a, -⟩
    · exact ⟨_, Or.inr (Or.inr (Or.inl rfl)), fin _ _ a hm⟩
    · exact ⟨_, Or.inr (Or.inr (Or.inr rfl)), fin _ _ a hm⟩

/-- Two open rectangles with non-zero sides meet iff no side direction separates them. -/
theorem rect_meet_iff {x y l w yaw x' y' l' w' yaw' : ℝ} (hl : l ≠ 0) (hw : w ≠ 0) (hl' : l' ≠ 0) (hw' : w' ≠ 0) :
    (rectInterior x y l w yaw ∩ rectInterior x' y' l' w' yaw').Nonempty ↔
      ∀ a, (a = heading yaw ∨ a = leftOf yaw ∨ a = heading yaw' ∨ a = leftOf yaw') →
        |dot a (x' - x, y' - y)| < ext yaw (|l| / 2) (|w| / 2) a + ext yaw' (|l'| / 2) (|w'| / 2) a := by
  constructor
  · rintro ⟨p, ⟨u, v, hu, hv, rfl⟩, ⟨u', v', hu', hv', hp⟩⟩ a ha
    have hne : a.1 ^ 2 + a.2 ^ 2 = 1 := by
      rcases ha with rfl | rfl | rfl | rfl <;> simp only [heading, leftOf]
      · linear_combination sin_sq_add_cos_sq yaw
      · linear_combination sin_sq_add_cos_sq yaw
      · linear_combination sin_sq_add_cos_sq yaw'
      · linear_combination sin_sq_add_cos_sq yaw'
    have nz : ∀ θ, dot a (heading θ) ≠ 0 ∨ dot a (leftOf θ) ≠ 0 := by
      intro θ
      by_contra hc
      push Not at hc
      have := dot_sq a θ
      rw [hc.1, hc.2, hne] at this
      norm_num at this
    have e := congrArg (dot a) hp
    rw [dot_pointAt, dot_pointAt] at e
    have b1 := abs_comb_lt (nz yaw) hu hv
    have b2 := abs_comb_lt (nz yaw') hu' hv'
    have : dot a (x' - x, y' - y) = (dot a (heading yaw) * u + dot a (leftOf yaw) * v) -
        (dot a (heading yaw') * u' + dot a (leftOf yaw') * v') := by
      have : dot a (x' - x, y' - y) = dot a (x', y') - dot a (x, y) := by simp only [dot]; ring
      linarith
    rw [this]
    refine lt_of_le_of_lt (abs_sub _ _) ?_
    unfold ext; linarith
  · intro h
    by_contra hc
    rw [Set.not_nonempty_iff_eq_empty, ← Set.disjoint_iff_inter_eq_empty] at hc
    obtain ⟨n, hn, hsep⟩ := exists_separating hl hw hl' hw' hc
    obtain ⟨a, ha, hle⟩ := separating_axis hn hsep
    exact absurd (h a ha) (not_lt.2 hle)

end Waymax.Sat
