import Verif.Spec.IdmMachine
import Verif.Props.BrokenSpeed
/-
C181: in machine arithmetic the speeds that IDM chooses are finite, not negative and bounded, whatever the other objects are.
-/

namespace Waymax

open Real

section
variable {F : IeeeFormat} {L : Libm F.fmt} {pw : Ieee F → Ieee F} {n T : Nat} [NeZero T]

/-- Not negative, or NaN. -/
def NnOrNan (a : Ieee F) : Prop := a = .nan ∨ NotNegative a

theorem ofFlt_nn {x : Flt F.fmt} (h : 0 ≤ x.val) : NotNegative (Ieee.ofFlt F x) := by
  unfold Ieee.ofFlt
  split
  · rename_i hs
    exact .inr ⟨x.val, ⟨x, hs, rfl, rfl⟩, h⟩
  · exact .inl (by simp [h])

theorem sqrt_nn (hL : SaneSqrt L) (a : Ieee F) : NnOrNan (a.sqrt L) := by
  cases a with
  | nan => exact .inl rfl
  | inf s =>
    cases s
    · exact .inr (.inl rfl)
    · exact .inl rfl
  | fin x hx =>
    change NnOrNan (if x.val < 0 then _ else Ieee.ofFlt F (L.sqrt x))
    split
    · exact .inl rfl
    · rename_i h
      exact .inr (ofFlt_nn (hL x (not_lt.1 h)).1)

theorem speed_nn (hL : SaneSqrt L) {p : Pt (Ieee F)} (hv : p.valid = true) : NnOrNan (p.speedIe L) := by
  unfold Pt.speedIe
  rw [if_pos hv]
  exact sqrt_nn hL _

theorem min_nn {a b : Ieee F} (ha : NnOrNan a) (hb : NnOrNan b) : NnOrNan (a.min b) := by
  unfold Ieee.min
  split
  · exact .inl rfl
  · split
    · exact hb
    · exact ha

theorem minList_nn {l : List (Ieee F)} (h : ∀ a ∈ l, NnOrNan a) : NnOrNan (Ieee.minList l) := by
  unfold Ieee.minList
  have : NnOrNan (.inf false : Ieee F) := .inr (.inl rfl)
  generalize (.inf false : Ieee F) = acc at this
  induction l generalizing acc with
  | nil => exact this
  | cons a l ih =>
    rw [List.foldl_cons]
    exact ih (fun b hb => h b (List.mem_cons_of_mem _ hb)) _ (min_nn this (h a List.mem_cons_self))

theorem NotNegative.add {a b : Ieee F} (ha : NotNegative a) (hb : NotNegative b) : NotNegative (a.add b) := by
  rcases ha with rfl | ⟨r, ⟨x, hx, rfl, rfl⟩, hr⟩
  · rcases hb with rfl | ⟨q, ⟨y, hy, rfl, rfl⟩, hq⟩
    · exact .inl rfl
    · exact .inl rfl
  · rcases hb with rfl | ⟨q, ⟨y, hy, rfl, rfl⟩, hq⟩
    · exact .inl rfl
    · exact ofFlt_nn (x := x.add y) (fl_nonneg (by positivity))

theorem zero_nn : NotNegative (Ieee.ofReal F 0) := by
  rw [Ieee.ofReal_zero]
  exact .inr ⟨0, ⟨_, _, rfl, rfl⟩, le_refl _⟩

theorem cumsum_nn {l : List (Ieee F)} (h : ∀ a ∈ l, NotNegative a) {acc : Ieee F} (ha : NotNegative acc) :
    ∀ a ∈ cumsumFromIe acc l, NotNegative a := by
  induction l generalizing acc with
  | nil => simp [cumsumFromIe]
  | cons x xs ih =>
    intro a hm
    have h1 := ha.add (h x List.mem_cons_self)
    rcases List.mem_cons.1 hm with rfl | hm
    · exact h1
    · exact ih (fun b hb => h b (List.mem_cons_of_mem _ hb)) h1 a hm

theorem finite_nn {a : Ieee F} (h : NnOrNan a) (hf : a.isFinite = true) : ∃ r, HasVal a r ∧ 0 ≤ r := by
  rcases h with rfl | rfl | h
  · exact absurd hf (by simp [Ieee.isFinite])
  · exact absurd hf (by simp [Ieee.isFinite])
  · exact h

/-- The speed of the leader is a finite number that is not negative, or there is no leader. -/
theorem leadVel_cases (hL : SaneSqrt L) (cur : Fin n → Pt (Ieee F)) (i : Fin n) (traj : List (Pt (Ieee F))) :
    let v := computeLeadVelocityIe (fun j => (cur j).speedIe L) (fun j => (cur j).valid) (traj.map fun w => idmCollisionIe L cur i w)
    v = Ieee.ofReal F (-1) ∨ ∃ r, HasVal v r ∧ 0 ≤ r := by
  intro v
  have hv : v = _ := leadVel_eq cur i traj
  simp only at hv
  rw [hv]
  split
  · rename_i hf
    refine .inr (finite_nn (minList_nn fun a ha => ?_) hf)
    obtain ⟨k, hk, rfl⟩ := List.mem_iff_getElem.1 ha
    rw [List.getElem_zipWith]
    split
    · refine .inr (cumsum_nn (fun b hb => ?_) zero_nn _ (List.getElem_mem _))
      obtain ⟨u, hu, rfl⟩ := List.mem_map.1 hb
      split
      · rename_i hfu
        refine .inr (finite_nn ?_ hfu)
        obtain ⟨w, -, rfl⟩ := List.mem_map.1 hu
        refine minList_nn fun c hc => ?_
        obtain ⟨j, rfl⟩ := List.mem_ofFn.1 hc
        unfold velAt
        split
        · rename_i hval
          split
          · exact speed_nn hL hval
          · exact .inr (.inl rfl)
        · exact .inr (.inl rfl)
      · exact zero_nn
    · exact .inr (.inl rfl)
  · exact .inl rfl

/-- The distance to the leader is a finite number that is not negative, or there is no leader. -/
theorem leadDist_cases (hL : SaneSqrt L) (traj : List (Pt (Ieee F))) (c : Pt (Ieee F) → Bool) (cur : Pt (Ieee F)) :
    let d := computeLeadDistanceIe L traj c cur
    d = Ieee.ofReal F (-1) ∨ ∃ r, HasVal d r ∧ 0 ≤ r := by
  unfold computeLeadDistanceIe
  simp only
  split
  · rename_i hf
    refine .inr (finite_nn (minList_nn fun a ha => ?_) hf)
    obtain ⟨w, -, rfl⟩ := List.mem_map.1 ha
    split
    · exact sqrt_nn hL _
    · exact .inr (.inl rfl)
  · exact .inl rfl

/-! ### Upper bounds -/

/-- Minus infinity, or a finite number up to this one. -/
def UpTo (a : Ieee F) (r : ℝ) : Prop := a = .inf true ∨ ∃ q, HasVal a q ∧ q ≤ r

theorem ofFlt_upTo {x : Flt F.fmt} {r : ℝ} (h : x.val ≤ r) (_ : 0 ≤ r) (hs : r < 2 ^ F.top) : UpTo (Ieee.ofFlt F x) r := by
  unfold Ieee.ofFlt
  split
  · rename_i hs
    exact .inr ⟨_, ⟨x, hs, rfl, rfl⟩, h⟩
  · rename_i hn
    have : x.val < 0 := by
      by_contra h0
      rw [not_lt] at h0
      rw [abs_of_nonneg h0] at hn
      exact hn (lt_of_le_of_lt h hs)
    exact .inl (by simp [this])

theorem UpTo.sub_nn {a b : Ieee F} {r : ℝ} (ha : UpTo a r) (hb : NotNegative b) (hrep : F.fmt.Rep r) (hr : 0 ≤ r) (hs : r < 2 ^ F.top) :
    UpTo (a.sub b) r := by
  rcases ha with rfl | ⟨q, ⟨x, hx, rfl, rfl⟩, hq⟩
  · rcases hb with rfl | ⟨p, ⟨y, hy, rfl, rfl⟩, hp⟩
    · exact .inl rfl
    · exact .inl rfl
  · rcases hb with rfl | ⟨p, ⟨y, hy, rfl, rfl⟩, hp⟩
    · exact .inl rfl
    · exact ofFlt_upTo (x := x.add y.neg) (Format.fl_le_of_rep hrep (by show x.val + -y.val ≤ r; linarith)) hr hs

theorem UpTo.pos_mul {a b : Ieee F} {r p : ℝ} (ha : HasVal a p) (hp : 0 < p) (hb : UpTo b r) (hr : 0 ≤ r) (hs : F.fmt.fl (p * r) < 2 ^ F.top) :
    UpTo (a.mul b) (F.fmt.fl (p * r)) := by
  obtain ⟨x, hx, rfl, rfl⟩ := ha
  rcases hb with rfl | ⟨q, ⟨y, hy, rfl, rfl⟩, hq⟩
  · left
    simp only [Ieee.mul, Ieee.isZero, Ieee.isNeg, Bool.or_false, hp.ne', not_lt.2 hp.le, decide_false]
    rfl
  · exact ofFlt_upTo (x := x.mul y) (Format.fl_mono (mul_le_mul_of_nonneg_left hq hp.le)) (fl_nonneg (by positivity)) hs

theorem UpTo.fin_add {a b : Ieee F} {r p : ℝ} (ha : HasVal a p) (hp : 0 ≤ p) (hb : UpTo b r) (hr : 0 ≤ r) (hs : F.fmt.fl (p + r) < 2 ^ F.top) :
    UpTo (a.add b) (F.fmt.fl (p + r)) := by
  obtain ⟨x, hx, rfl, rfl⟩ := ha
  rcases hb with rfl | ⟨q, ⟨y, hy, rfl, rfl⟩, hq⟩
  · exact .inl rfl
  · exact ofFlt_upTo (x := x.add y) (Format.fl_mono (by linarith)) (fl_nonneg (by positivity)) hs

/-! ### The formula -/

theorem NotNegative.div_pos {a b : Ieee F} {p : ℝ} (ha : NotNegative a) (hb : HasVal b p) (hp : 0 < p) : NotNegative (a.div b) := by
  obtain ⟨y, hy, rfl, rfl⟩ := hb
  rcases ha with rfl | ⟨q, ⟨x, hx, rfl, rfl⟩, hq⟩
  · left
    change Ieee.inf (false != decide (y.val < 0)) = _
    simp [not_lt.2 hp.le]
  · change NotNegative (if y.val = 0 then _ else Ieee.ofFlt F (x.div y))
    rw [if_neg hp.ne']
    exact ofFlt_nn (fl_nonneg (by positivity))

theorem NotNegative.square {a : Ieee F} (ha : NotNegative a) : NotNegative (a.mul a) := by
  rcases ha with rfl | ⟨q, ⟨x, hx, rfl, rfl⟩, hq⟩
  · left
    simp [Ieee.mul, Ieee.isZero, Ieee.isNeg]
  · exact ofFlt_nn (x := x.mul x) (fl_nonneg (by positivity))

/-- Zero, or the other number if it is larger: not negative unless NaN. -/
theorem max_zero_nn {a : Ieee F} (ha : a ≠ .nan) : NotNegative ((Ieee.ofReal F 0).max a) := by
  rw [Ieee.ofReal_zero]
  unfold Ieee.max
  cases a with
  | nan => exact absurd rfl ha
  | inf s =>
    cases s
    · exact .inl (by simp [Ieee.isNan, Ieee.lt, Ieee.zero])
    · exact .inr ⟨0, ⟨_, _, by simp [Ieee.isNan, Ieee.lt, Ieee.zero]; rfl, rfl⟩, le_refl _⟩
  | fin x hx =>
    by_cases h : 0 < x.val
    · exact .inr ⟨x.val, ⟨x, hx, by simp [Ieee.isNan, Ieee.lt, Ieee.zero, h], rfl⟩, h.le⟩
    · exact .inr ⟨0, ⟨_, _, by simp [Ieee.isNan, Ieee.lt, Ieee.zero, h]; rfl, rfl⟩, le_refl _⟩

theorem rep_small {φ : Format} {k : ℕ} (h : φ.emin ≤ -(k : ℤ)) : φ.Rep ((2 : ℝ) ^ (-(k : ℤ))) := by
  refine ⟨1, -k, ?_, h, by simp⟩
  rw [abs_one]
  exact one_lt_pow₀ (by norm_num) (by have := φ.two_le; omega)

theorem fl_between {φ : Format} {k m : ℕ} (hk : φ.emin ≤ -(k : ℤ)) {r : ℝ} (h1 : (2 : ℝ) ^ (-(k : ℤ)) ≤ r) (h2 : r ≤ 2 ^ m) :
    (2 : ℝ) ^ (-(k : ℤ)) ≤ φ.fl r ∧ φ.fl r ≤ 2 ^ m :=
  ⟨Format.le_fl_of_rep (rep_small hk) h1, Format.fl_le_of_rep (rep_two_pow φ m) h2⟩

theorem pow_lt_top (hF : WideFormat F) {m : ℕ} (h : m < 14) : (2 : ℝ) ^ m < 2 ^ F.top :=
  pow_lt_pow_right₀ (by norm_num) (lt_of_lt_of_le h hF.2)

/-- A positive parameter of a usual size is a positive machine number. -/
theorem hasVal_param (hF : WideFormat F) {r : ℝ} {k m : ℕ} (hk : k ≤ 12) (hm : m < 14) (h1 : (2 : ℝ) ^ (-(k : ℤ)) ≤ r) (h2 : r ≤ 2 ^ m) :
    HasVal (Ieee.ofReal F r) (F.fmt.fl r) ∧ (2 : ℝ) ^ (-(k : ℤ)) ≤ F.fmt.fl r ∧ F.fmt.fl r ≤ 2 ^ m := by
  have hb := fl_between (φ := F.fmt) (by have := hF.1; omega) h1 h2
  have h0 : (0 : ℝ) < 2 ^ (-(k : ℤ)) := by positivity
  refine ⟨hasVal_round ?_, hb⟩
  rw [abs_of_pos (lt_of_lt_of_le h0 hb.1)]
  exact lt_of_le_of_lt hb.2 (pow_lt_top hF hm)

theorem hasVal_tenth (hF : WideFormat F) : HasVal (Ieee.ofReal F (float64.fl 0.1)) (F.fmt.fl (float64.fl 0.1)) ∧
    0 < F.fmt.fl (float64.fl 0.1) ∧ F.fmt.fl (float64.fl 0.1) ≤ 1 := by
  have h := fl_between (φ := float64) (k := 4) (m := 0) (by decide) (r := 0.1) (by norm_num) (by norm_num)
  obtain ⟨h1, h2, h3⟩ := hasVal_param hF (k := 4) (m := 0) (by norm_num) (by norm_num) h.1 h.2
  exact ⟨h1, lt_of_lt_of_le (by positivity) h2, by simpa using h3⟩

theorem hasVal_comfort (hF : WideFormat F) (hL : PositiveSqrt L) {P : IdmParams} (hP : SaneIdm P) :
    ∃ c, HasVal ((Ieee.ofReal F 2).mul ((Ieee.ofReal F (float64.fl (P.maxAccel * P.maxDecel))).sqrt L)) c ∧ 0 < c := by
  have hA := hP.accel
  have hD := hP.decel
  have hp1 : (2 : ℝ) ^ (-((12 : ℕ) : ℤ)) ≤ P.maxAccel * P.maxDecel := by
    have : (1 / 64 : ℝ) * (1 / 64) ≤ P.maxAccel * P.maxDecel := mul_le_mul hA.1 hD.1 (by norm_num) (by linarith)
    refine le_trans ?_ this
    norm_num
  have hp2 : P.maxAccel * P.maxDecel ≤ 2 ^ 12 := by
    have : P.maxAccel * P.maxDecel ≤ 64 * 64 := mul_le_mul hA.2 hD.2 (by linarith) (by norm_num)
    refine le_trans this ?_
    norm_num
  have h64 := fl_between (φ := float64) (k := 12) (m := 12) (by decide) hp1 hp2
  obtain ⟨⟨x, hx, e, ex⟩, h1, h2⟩ := hasVal_param hF (k := 12) (m := 12) (by norm_num) (by norm_num) h64.1 h64.2
  rw [← ex] at h1 h2
  have hx0 : 0 < x.val := lt_of_lt_of_le (by positivity) h1
  have hs0 := hL.2 x hx0
  have hs1 : (L.sqrt x).val ≤ 2 ^ 12 := by
    refine (hL.1 x hx0.le).2.trans (max_le ?_ h2)
    norm_num
  have hs : HasVal ((Ieee.ofReal F (float64.fl (P.maxAccel * P.maxDecel))).sqrt L) (L.sqrt x).val := by
    rw [e]
    change HasVal (if x.val < 0 then _ else Ieee.ofFlt F (L.sqrt x)) _
    rw [if_neg (not_lt.2 hx0.le)]
    refine hasVal_ofFlt ?_
    rw [abs_of_pos hs0]
    exact lt_of_le_of_lt hs1 (pow_lt_top hF (by norm_num))
  obtain ⟨h2v, -, -⟩ := hasVal_param hF (r := 2) (k := 0) (m := 1) (by norm_num) (by norm_num) (by norm_num) (by norm_num)
  rw [fl_two] at h2v
  have hc1 : (L.sqrt x).val ≤ F.fmt.fl (2 * (L.sqrt x).val) := Format.le_fl_of_rep (L.sqrt x).property (by linarith)
  have hc2 : F.fmt.fl (2 * (L.sqrt x).val) ≤ 2 ^ 13 := Format.fl_le_of_rep (rep_two_pow _ 13) (by
    rw [show (2 : ℝ) ^ 13 = 2 * 2 ^ 12 by norm_num]
    linarith)
  refine ⟨_, h2v.mul hs ?_, lt_of_lt_of_le hs0 hc1⟩
  rw [abs_of_pos (lt_of_lt_of_le hs0 hc1)]
  exact lt_of_le_of_lt hc2 (pow_lt_top hF (by norm_num))

theorem div_ne_nan {a b : Ieee F} {p : ℝ} (ha : a ≠ .nan) (hb : HasVal b p) (hp : 0 < p) : a.div b ≠ .nan := by
  obtain ⟨y, hy, rfl, rfl⟩ := hb
  cases a with
  | nan => exact absurd rfl ha
  | inf s => nofun
  | fin x hx =>
    change (if y.val = 0 then _ else Ieee.ofFlt F (x.div y)) ≠ _
    rw [if_neg hp.ne']
    unfold Ieee.ofFlt
    split <;> nofun

theorem mul_ne_nan {a b : Ieee F} {p q : ℝ} (ha : HasVal a p) (hb : HasVal b q) : a.mul b ≠ .nan := by
  obtain ⟨x, hx, rfl, rfl⟩ := ha
  obtain ⟨y, hy, rfl, rfl⟩ := hb
  change Ieee.ofFlt F (x.mul y) ≠ _
  unfold Ieee.ofFlt
  split <;> nofun

theorem add_ne_nan {a b : Ieee F} {p : ℝ} (ha : HasVal a p) (hb : b ≠ .nan) : a.add b ≠ .nan := by
  obtain ⟨x, hx, rfl, rfl⟩ := ha
  cases b with
  | nan => exact absurd rfl hb
  | inf s => nofun
  | fin y hy =>
    change Ieee.ofFlt F (x.add y) ≠ _
    unfold Ieee.ofFlt
    split <;> nofun

theorem minus_one : HasVal (Ieee.ofReal F (-1)) (-1) :=
  ⟨_, _, Ieee.ofReal_rep (Ieee.rep_one' _).neg (by norm_num), rfl⟩

theorem HasVal.rep {a : Ieee F} {r : ℝ} (h : HasVal a r) : F.fmt.Rep r := by
  obtain ⟨x, -, -, rfl⟩ := h
  exact x.property

/-- The acceleration is a number up to the largest acceleration, or minus infinity. -/
theorem formula_upTo (hF : WideFormat F) (hL : PositiveSqrt L) (hpw : SanePower pw) {P : IdmParams} (hP : SaneIdm P) {v lead dist : Ieee F} {r : ℝ}
    (hv : HasVal v r) (hr : 0 ≤ r) (hr' : r ≤ 2 ^ (F.top - 8)) (hlead : lead = Ieee.ofReal F (-1) ∨ ∃ q, HasVal lead q ∧ 0 ≤ q)
    (hdist : dist = Ieee.ofReal F (-1) ∨ ∃ q, HasVal dist q ∧ 0 ≤ q) : UpTo (idmFormulaIe L pw P v lead dist) (F.fmt.fl P.maxAccel) := by
  obtain ⟨c, hc, hc0⟩ := hasVal_comfort hF hL hP
  have hm : Ieee.ofReal F (-1) ≠ .nan := by
    obtain ⟨x, hx, e, -⟩ := minus_one (F := F)
    rw [e]
    nofun
  have hhead : ∃ q, HasVal (Ieee.ofReal F P.safeTimeHeadway) q ∧ 0 ≤ q ∧ q ≤ 64 := by
    have h1 : 0 ≤ F.fmt.fl P.safeTimeHeadway := fl_nonneg hP.headway.1
    have h2 : F.fmt.fl P.safeTimeHeadway ≤ 2 ^ 6 := Format.fl_le_of_rep (rep_two_pow _ 6) (by
      refine hP.headway.2.trans ?_
      norm_num)
    refine ⟨_, hasVal_round ?_, h1, h2.trans (by norm_num)⟩
    rw [abs_of_nonneg h1]
    exact lt_of_le_of_lt h2 (pow_lt_top hF (by norm_num))
  obtain ⟨q, hq, hq0, hq1⟩ := hhead
  have htop : (2 : ℝ) ^ F.top = 2 ^ (F.top - 8) * 256 := by
    rw [show (256 : ℝ) = 2 ^ 8 by norm_num, ← pow_add]
    congr 1
    have := hF.2
    omega
  have h1 : HasVal (v.mul (Ieee.ofReal F P.safeTimeHeadway)) (F.fmt.fl (r * q)) := by
    refine hv.mul hq ?_
    have h0 : 0 ≤ F.fmt.fl (r * q) := fl_nonneg (by positivity)
    rw [abs_of_nonneg h0, htop]
    have : F.fmt.fl (r * q) ≤ 2 ^ (F.top - 8 + 6) := Format.fl_le_of_rep (rep_two_pow _ _) (by
      rw [pow_add]
      exact mul_le_mul hr' (by linarith) hq0 (by positivity))
    refine lt_of_le_of_lt this ?_
    rw [pow_add]
    exact mul_lt_mul_of_pos_left (by norm_num) (by positivity)
  have hs : NotNegative (if (dist.eq (Ieee.ofReal F (-1)) || lead.eq (Ieee.ofReal F (-1))) = true then Ieee.ofReal F 0
      else (Ieee.ofReal F P.minSpacing).add ((Ieee.ofReal F 0).max
        ((v.mul (Ieee.ofReal F P.safeTimeHeadway)).add ((v.mul (v.sub lead)).div
          ((Ieee.ofReal F 2).mul ((Ieee.ofReal F (float64.fl (P.maxAccel * P.maxDecel))).sqrt L)))))) := by
    split
    · exact zero_nn
    · rename_i hne
      rcases hlead with rfl | ⟨l, hl, hl0⟩
      · exact absurd (by rw [Ieee.eq_self hm, Bool.or_true]) hne
      refine NotNegative.add (ofFlt_nn (fl_nonneg hP.spacing)) (max_zero_nn (add_ne_nan h1 (div_ne_nan ?_ hc hc0)))
      refine mul_ne_nan hv (hv.sub hl ?_)
      have h2 : F.fmt.fl (r - l) ≤ r := Format.fl_le_of_rep hv.rep (by linarith)
      have h3 : -l ≤ F.fmt.fl (r - l) := Format.le_fl_of_rep hl.rep.neg (by linarith)
      have h4 := hv.small
      have h5 := hl.small
      rw [abs_of_nonneg hr] at h4
      rw [abs_of_nonneg hl0] at h5
      rw [abs_lt]
      constructor <;> linarith
  unfold idmFormulaIe
  simp only
  have hratio : NotNegative ((if (dist.eq (Ieee.ofReal F (-1)) || lead.eq (Ieee.ofReal F (-1))) = true then Ieee.ofReal F 0
      else (Ieee.ofReal F P.minSpacing).add ((Ieee.ofReal F 0).max
        ((v.mul (Ieee.ofReal F P.safeTimeHeadway)).add ((v.mul (v.sub lead)).div
          ((Ieee.ofReal F 2).mul ((Ieee.ofReal F (float64.fl (P.maxAccel * P.maxDecel))).sqrt L)))))).div
      (if dist.eq (Ieee.ofReal F 0) = true then Ieee.ofReal F (float64.fl 0.1) else dist)) := by
    obtain ⟨t1, t2, -⟩ := hasVal_tenth hF
    rcases hdist with rfl | ⟨d, hd, hd0⟩
    · rw [if_pos (by rw [Ieee.eq_self hm, Bool.true_or])]
      have : (Ieee.ofReal F (-1)).eq (Ieee.ofReal F 0) = false := by
        obtain ⟨x, hx, e, ex⟩ := minus_one (F := F)
        rw [e, Ieee.ofReal_zero]
        simp [Ieee.eq, Ieee.zero, ex]
      rw [this]
      obtain ⟨x, hx, e, ex⟩ := minus_one (F := F)
      simp only [Bool.false_eq_true, if_false]
      rw [e, Ieee.ofReal_zero, zero_div (by rw [ex]; norm_num)]
      rw [← Ieee.ofReal_zero]
      exact zero_nn
    · by_cases hne : dist.eq (Ieee.ofReal F 0) = true
      · rw [if_pos hne]
        exact hs.div_pos t1 t2
      · rw [if_neg hne]
        refine hs.div_pos hd (lt_of_le_of_ne hd0 fun h => hne ?_)
        obtain ⟨x, hx, rfl, rfl⟩ := hd
        rw [Ieee.ofReal_zero]
        simp [Ieee.eq, Ieee.zero, ← h]
  obtain ⟨hdes, hdes1, -⟩ := hasVal_param hF (r := P.desiredVel) (k := 6) (m := 6) (by norm_num) (by norm_num)
    (by refine le_trans ?_ hP.desired.1; norm_num) (by refine hP.desired.2.trans ?_; norm_num)
  have hpow : NotNegative (pw (v.div (Ieee.ofReal F P.desiredVel))) :=
    hpw _ (NotNegative.div_pos (.inr ⟨r, hv, hr⟩) hdes (lt_of_lt_of_le (by positivity) hdes1))
  have one_lt : (1 : ℝ) < 2 ^ F.top := by linarith [Ieee.two_pow_top F]
  have hone : UpTo (Ieee.ofReal F 1) 1 := .inr ⟨1, ⟨_, _, Ieee.ofReal_one, rfl⟩, le_refl _⟩
  have h2 := (hone.sub_nn hpow (Ieee.rep_one' _) zero_le_one one_lt).sub_nn hratio.square (Ieee.rep_one' _) zero_le_one one_lt
  obtain ⟨hacc, hacc1, hacc2⟩ := hasVal_param hF (r := P.maxAccel) (k := 6) (m := 6) (by norm_num) (by norm_num)
    (by refine le_trans ?_ hP.accel.1; norm_num) (by refine hP.accel.2.trans ?_; norm_num)
  have hfl : F.fmt.fl (F.fmt.fl P.maxAccel * 1) = F.fmt.fl P.maxAccel := by rw [mul_one, Format.fl_fl]
  have := UpTo.pos_mul hacc (lt_of_lt_of_le (by positivity) hacc1) h2 zero_le_one (by
    rw [hfl]
    exact lt_of_le_of_lt hacc2 (pow_lt_top hF (by norm_num)))
  rwa [hfl] at this

/-- Whatever the numbers of the other objects and of the log are, NaN and infinities included: an agent whose own speed is a finite
number (up to `2 ^ 120` in single precision) gets a new speed that is a finite number, not negative, and at most its speed plus what the
largest acceleration adds, computed in machine arithmetic. -/
theorem C181_bounded (hF : WideFormat F) (hL : PositiveSqrt L) (hpw : SanePower pw) {P : IdmParams} (hP : SaneIdm P) {s : SimState (Ieee F) n T}
    {i : Fin n} {r : ℝ} (hval : (currentPt s i).valid = true) (hv : HasVal ((currentPt s i).speedIe L) r) (hr : r ≤ 2 ^ (F.top - 8)) {v : Ieee F}
    (h : idmUpdateSpeedIe L pw P s i = .ok v) : ∃ q, HasVal v q ∧ 0 ≤ q ∧ q ≤ topSpeed F P r := by
  have hr0 : 0 ≤ r := by
    obtain ⟨q, hq, hq0⟩ := finite_nn (speed_nn hL.1 hval) hv.finite
    obtain ⟨x, hx, e, rfl⟩ := hv
    obtain ⟨y, hy, e', rfl⟩ := hq
    rw [e] at e'
    injection e' with e'
    rw [e']
    exact hq0
  rw [updateSpeed_eq] at h
  cases ha : idmAccelIe L pw P s.logTrajectory (currentPt s) i with
  | error e =>
    rw [ha] at h
    exact nomatch h
  | ok a =>
    rw [ha] at h
    have hA : UpTo a (F.fmt.fl P.maxAccel) := by
      unfold idmAccelIe at ha
      cases hl : idmLookaheadIe L P (s.logTrajectory i) (currentPt s i) with
      | error e =>
        rw [hl] at ha
        exact nomatch ha
      | ok traj =>
        rw [hl] at ha
        simp only [okThen] at ha
        split at ha
        · exact nomatch ha
        · injection ha with ha
          rw [← ha]
          exact formula_upTo hF hL hpw hP hv hr0 hr (leadVel_cases hL.1 _ _ _) (leadDist_cases hL.1 _ _ _)
    obtain ⟨hacc, hacc1, hacc2⟩ := hasVal_param hF (r := P.maxAccel) (k := 6) (m := 6) (by norm_num) (by norm_num)
      (by refine le_trans ?_ hP.accel.1; norm_num) (by refine hP.accel.2.trans ?_; norm_num)
    have hacc0 : 0 ≤ F.fmt.fl P.maxAccel := le_trans (by positivity) hacc1
    obtain ⟨t1, t2, t3⟩ := hasVal_tenth hF
    have hstep : F.fmt.fl (F.fmt.fl (float64.fl 0.1) * F.fmt.fl P.maxAccel) ≤ 2 ^ 6 := Format.fl_le_of_rep (rep_two_pow _ 6) (by
      refine le_trans (mul_le_mul t3 hacc2 hacc0 zero_le_one) ?_
      rw [one_mul])
    have hstep0 : 0 ≤ F.fmt.fl (F.fmt.fl (float64.fl 0.1) * F.fmt.fl P.maxAccel) := fl_nonneg (by positivity)
    have h1 := UpTo.pos_mul t1 t2 hA hacc0 (lt_of_le_of_lt hstep (pow_lt_top hF (by norm_num)))
    have htop : topSpeed F P r ≤ 2 ^ (F.top - 7) := Format.fl_le_of_rep (rep_two_pow _ _) (by
      have e1 : (2 : ℝ) ^ (F.top - 7) = 2 * 2 ^ (F.top - 8) := by
        rw [← pow_succ']
        congr 1
        have := hF.2
        omega
      have e2 : (2 : ℝ) ^ 6 ≤ 2 ^ (F.top - 8) := pow_le_pow_right₀ (by norm_num) (by have := hF.2; omega)
      rw [e1]
      linarith)
    have h2 := UpTo.fin_add hv hr0 h1 hstep0 (lt_of_le_of_lt htop (pow_lt_pow_right₀ (by norm_num) (by have := hF.2; omega)))
    have ht0 : 0 ≤ topSpeed F P r := fl_nonneg (by positivity)
    simp only [okThen] at h
    injection h with h
    rw [← h]
    split
    · rw [Ieee.ofReal_zero]
      exact ⟨0, ⟨_, _, rfl, rfl⟩, le_refl _, ht0⟩
    · rename_i hlt
      rcases h2 with h2 | ⟨q, hq, hq1⟩
      · rw [h2, Ieee.ofReal_zero] at hlt
        exact absurd rfl hlt
      · refine ⟨q, hq, ?_, hq1⟩
        obtain ⟨x, hx, e, rfl⟩ := hq
        rw [e, Ieee.ofReal_zero] at hlt
        simpa [Ieee.lt, Ieee.zero] using hlt

/-! ### The hypotheses can be met -/

/-- The default parameters are of a usual size. -/
theorem default_sane : SaneIdm {} := by constructor <;> norm_num

theorem near_sane : SaneIdm nearIdm := by constructor <;> norm_num [nearIdm]

example : WideFormat binary32 ∧ WideFormat binary64 := by constructor <;> constructor <;> decide

/-- The correctly rounded square root. -/
theorem exact_positiveSqrt (φ : Format) : PositiveSqrt (exactLibm φ) := by
  have hs : ∀ x : Flt φ, ((exactLibm φ).sqrt x).val = φ.fl √x.val := fun x => rfl
  refine ⟨(exactLibm_sane φ).1, fun x hx => ?_⟩
  · rw [hs]
    by_cases h1 : 1 ≤ x.val
    · refine lt_of_lt_of_le zero_lt_one (Format.le_fl_of_rep (Ieee.rep_one' φ) ?_)
      rwa [Real.one_le_sqrt]
    · refine lt_of_lt_of_le hx (Format.le_fl_of_rep x.property ?_)
      refine Real.le_sqrt_of_sq_le ?_
      nlinarith

/-- The fourth power, by squaring twice: the default exponent is 4. -/
theorem fourth_sane : SanePower (fun a : Ieee F => (a.mul a).mul (a.mul a)) := fun _ h => h.square.square

/-- The agent with a NaN among its neighbours gets a speed between 0 and 0.1 * max_accel. -/
example : ∃ v q, idmUpdateSpeedIe (exactLibm _) (fun a => (a.mul a).mul (a.mul a)) nearIdm (hiddenScen true true) 0 = .ok v ∧
    HasVal v q ∧ 0 ≤ q ∧ q ≤ topSpeed binary32 nearIdm 0 := by
  have h0 : currentPt (hiddenScen true true) 0 = carIe 0 (by norm_num) (Ieee.zero _) true := rfl
  have hz : HasVal ((currentPt (hiddenScen true true) 0).speedIe (exactLibm _)) 0 := by
    rw [h0, car_speed]
    exact ⟨_, _, rfl, rfl⟩
  obtain ⟨v, hv, -⟩ := hidden_starts (pw := fun a => (a.mul a).mul (a.mul a)) (by
    rw [zero_mul_bt bt_zero, zero_mul_bt bt_zero])
  obtain ⟨q, hq⟩ := C181_bounded (F := binary32) (by constructor <;> decide) (exact_positiveSqrt _) fourth_sane near_sane rfl hz
    (by positivity) hv
  exact ⟨v, q, hv, hq⟩

end

end Waymax
