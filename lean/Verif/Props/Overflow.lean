import Verif.Spec.Overflow
import Verif.Props.Ieee
/-
C160: as long as coordinates are not astronomically large, no operation overflows, and the arithmetic with infinities and NaN computes
what the arithmetic without them computes.
-/

namespace Waymax

open Real

section
variable {F : IeeeFormat}

theorem HasVal.finite {a : Ieee F} {r : ℝ} (h : HasVal a r) : a.isFinite = true := by
  obtain ⟨x, hx, rfl, -⟩ := h
  rfl

theorem HasVal.small {a : Ieee F} {r : ℝ} (h : HasVal a r) : |r| < 2 ^ F.top := by
  obtain ⟨x, hx, -, rfl⟩ := h
  exact hx

theorem hasVal_ofFlt {x : Flt F.fmt} (h : |x.val| < 2 ^ F.top) : HasVal (Ieee.ofFlt F x) x.val := ⟨x, h, Ieee.ofFlt_small h, rfl⟩

theorem HasVal.eq {a : Ieee F} {x : Flt F.fmt} (h : HasVal a x.val) : a = Ieee.ofFlt F x := by
  obtain ⟨y, hy, rfl, e⟩ := h
  obtain rfl : y = x := Subtype.ext e
  exact (Ieee.ofFlt_small hy).symm

theorem hasVal_round {r : ℝ} (h : |F.fmt.fl r| < 2 ^ F.top) : HasVal (Ieee.ofReal F r) (F.fmt.fl r) :=
  hasVal_ofFlt (x := Flt.round F.fmt r) h

theorem HasVal.add {a b : Ieee F} {r q : ℝ} (ha : HasVal a r) (hb : HasVal b q) (h : |F.fmt.fl (r + q)| < 2 ^ F.top) :
    HasVal (a.add b) (F.fmt.fl (r + q)) := by
  obtain ⟨x, hx, rfl, rfl⟩ := ha
  obtain ⟨y, hy, rfl, rfl⟩ := hb
  exact hasVal_ofFlt (x := x.add y) h

theorem HasVal.neg {a : Ieee F} {r : ℝ} (ha : HasVal a r) : HasVal a.neg (-r) := by
  obtain ⟨x, hx, rfl, rfl⟩ := ha
  exact ⟨x.neg, _, rfl, rfl⟩

theorem HasVal.sub {a b : Ieee F} {r q : ℝ} (ha : HasVal a r) (hb : HasVal b q) (h : |F.fmt.fl (r - q)| < 2 ^ F.top) :
    HasVal (a.sub b) (F.fmt.fl (r - q)) := by
  rw [sub_eq_add_neg] at h ⊢
  exact ha.add hb.neg h

theorem HasVal.mul {a b : Ieee F} {r q : ℝ} (ha : HasVal a r) (hb : HasVal b q) (h : |F.fmt.fl (r * q)| < 2 ^ F.top) :
    HasVal (a.mul b) (F.fmt.fl (r * q)) := by
  obtain ⟨x, hx, rfl, rfl⟩ := ha
  obtain ⟨y, hy, rfl, rfl⟩ := hb
  exact hasVal_ofFlt (x := x.mul y) h

theorem HasVal.div {a b : Ieee F} {r q : ℝ} (ha : HasVal a r) (hb : HasVal b q) (hq : q ≠ 0) (h : |F.fmt.fl (r / q)| < 2 ^ F.top) :
    HasVal (a.div b) (F.fmt.fl (r / q)) := by
  obtain ⟨x, hx, rfl, rfl⟩ := ha
  obtain ⟨y, hy, rfl, rfl⟩ := hb
  change HasVal (if y.val = 0 then _ else _) _
  rw [if_neg hq]
  exact hasVal_ofFlt (x := x.div y) h

theorem HasVal.lt {a b : Ieee F} {r q : ℝ} (ha : HasVal a r) (hb : HasVal b q) : a.lt b = decide (r < q) := by
  obtain ⟨x, hx, rfl, rfl⟩ := ha
  obtain ⟨y, hy, rfl, rfl⟩ := hb
  rfl

theorem HasVal.not_nan {a : Ieee F} {r : ℝ} (ha : HasVal a r) : a.isNan = false := by
  obtain ⟨x, hx, rfl, -⟩ := ha
  rfl

theorem HasVal.min {a b : Ieee F} {r q : ℝ} (ha : HasVal a r) (hb : HasVal b q) : HasVal (a.min b) (min r q) := by
  unfold Ieee.min
  rw [ha.not_nan, hb.not_nan, hb.lt ha]
  simp only [Bool.or_self, Bool.false_eq_true, if_false, decide_eq_true_eq]
  split
  · rename_i h
    rw [min_eq_right h.le]
    exact hb
  · rename_i h
    rw [min_eq_left (not_lt.1 h)]
    exact ha

theorem HasVal.max {a b : Ieee F} {r q : ℝ} (ha : HasVal a r) (hb : HasVal b q) : HasVal (a.max b) (max r q) := by
  unfold Ieee.max
  rw [ha.not_nan, hb.not_nan, ha.lt hb]
  simp only [Bool.or_self, Bool.false_eq_true, if_false, decide_eq_true_eq]
  split
  · rename_i h
    rw [max_eq_right h.le]
    exact hb
  · rename_i h
    rw [max_eq_left (not_lt.1 h)]
    exact ha

/-- Rounding does not cross a power of two. -/
theorem abs_fl_le {φ : Format} {x : ℝ} {k : ℕ} (h : |x| ≤ 2 ^ k) : |φ.fl x| ≤ 2 ^ k := by
  rw [abs_le] at h ⊢
  exact ⟨Format.le_fl_of_rep (rep_two_pow φ k).neg h.1, Format.fl_le_of_rep (rep_two_pow φ k) h.2⟩

theorem two_pow_lt (F : IeeeFormat) {k : ℕ} (h : k < F.top) : (2 : ℝ) ^ k < 2 ^ F.top := pow_lt_pow_right₀ (by norm_num) h

/-! ### Distances -/

theorem dist_bound {φ : Format} {a b : Flt φ × Flt φ} {B : ℕ} (ha : |a.1.val| ≤ 2 ^ B ∧ |a.2.val| ≤ 2 ^ B)
    (hb : |b.1.val| ≤ 2 ^ B ∧ |b.2.val| ≤ 2 ^ B) :
    |φ.fl (a.1.val - b.1.val)| ≤ 2 ^ (B + 1) ∧ |φ.fl (a.2.val - b.2.val)| ≤ 2 ^ (B + 1) := by
  constructor
  · apply abs_fl_le
    rw [pow_succ]
    linarith [abs_sub a.1.val b.1.val, ha.1, hb.1]
  · apply abs_fl_le
    rw [pow_succ]
    linarith [abs_sub a.2.val b.2.val, ha.2, hb.2]

theorem square_bound {φ : Format} {x : ℝ} {k : ℕ} (h : |x| ≤ 2 ^ k) : |φ.fl (x * x)| ≤ 2 ^ (2 * k) := by
  apply abs_fl_le
  rw [abs_mul, two_mul, pow_add]
  exact mul_le_mul h h (abs_nonneg _) (by positivity)

/-- Distances between points within `2 ^ B` do not overflow when `2 B + 3` is below the top exponent. -/
theorem dist_hasVal {L : Libm F.fmt} (hL : SaneSqrt L) {B : ℕ} (hB : 2 * B + 3 < F.top) {a b : Flt F.fmt × Flt F.fmt}
    (ha : |a.1.val| ≤ 2 ^ B ∧ |a.2.val| ≤ 2 ^ B) (hb : |b.1.val| ≤ 2 ^ B ∧ |b.2.val| ≤ 2 ^ B) :
    HasVal (distIe L (Ieee.ofFlt F a.1, Ieee.ofFlt F a.2) (Ieee.ofFlt F b.1, Ieee.ofFlt F b.2)) (distFl L a b).val := by
  have hsmall : ∀ {x : Flt F.fmt}, |x.val| ≤ 2 ^ B → HasVal (Ieee.ofFlt F x) x.val := fun h =>
    hasVal_ofFlt (lt_of_le_of_lt h (two_pow_lt F (by omega)))
  obtain ⟨d1, d2⟩ := dist_bound ha hb
  have t1 : (2 : ℝ) ^ (B + 1) < 2 ^ F.top := two_pow_lt F (by omega)
  have h1 := (hsmall ha.1).sub (hsmall hb.1) (lt_of_le_of_lt d1 t1)
  have h2 := (hsmall ha.2).sub (hsmall hb.2) (lt_of_le_of_lt d2 t1)
  have q1 := square_bound (φ := F.fmt) d1
  have q2 := square_bound (φ := F.fmt) d2
  have t2 : (2 : ℝ) ^ (2 * (B + 1)) < 2 ^ F.top := two_pow_lt F (by omega)
  have s1 := h1.mul h1 (lt_of_le_of_lt q1 t2)
  have s2 := h2.mul h2 (lt_of_le_of_lt q2 t2)
  have hsum : |F.fmt.fl (F.fmt.fl (F.fmt.fl (a.1.val - b.1.val) * F.fmt.fl (a.1.val - b.1.val)) +
      F.fmt.fl (F.fmt.fl (a.2.val - b.2.val) * F.fmt.fl (a.2.val - b.2.val)))| ≤ 2 ^ (2 * B + 3) := by
    apply abs_fl_le
    have e : (2 : ℝ) ^ (2 * B + 3) = 2 ^ (2 * (B + 1)) + 2 ^ (2 * (B + 1)) := by ring
    rw [e]
    exact (abs_add_le _ _).trans (add_le_add q1 q2)
  obtain ⟨x, hx, e, ev⟩ := s1.add s2 (lt_of_le_of_lt hsum (two_pow_lt F hB))
  have hx0 : 0 ≤ x.val := by
    rw [ev]
    exact fl_nonneg (add_nonneg (fl_nonneg (mul_self_nonneg _)) (fl_nonneg (mul_self_nonneg _)))
  unfold distIe
  simp only
  rw [e]
  change HasVal (if x.val < 0 then _ else _) _
  rw [if_neg (not_lt.2 hx0)]
  have ex : x = ((a.1.sub b.1).mul (a.1.sub b.1)).add ((a.2.sub b.2).mul (a.2.sub b.2)) := Subtype.ext ev
  unfold distFl speedFl
  rw [← ex]
  obtain ⟨l1, l2⟩ := hL x hx0
  apply hasVal_ofFlt
  rw [abs_of_nonneg l1]
  apply lt_of_le_of_lt l2
  rw [max_lt_iff]
  exact ⟨by linarith [Ieee.two_pow_top F], lt_of_le_of_lt (le_abs_self _) hx⟩

theorem dist_nonnegIe {φ : Format} {L : Libm φ} (hL : SaneSqrt L) (a b : Flt φ × Flt φ) : 0 ≤ (distFl L a b).val :=
  (hL _ (fl_nonneg (add_nonneg (fl_nonneg (mul_self_nonneg _)) (fl_nonneg (mul_self_nonneg _))))).1

/-! ### Minima -/

/-- A distance or the infinity that stands for no distance. -/
noncomputable def topIe (F : IeeeFormat) : WithTop (Flt F.fmt) → Ieee F
  | ⊤ => .inf false
  | (x : Flt F.fmt) => Ieee.ofFlt F x

theorem min_topIe (a b : WithTop (Flt F.fmt)) (ha : ∀ x : Flt F.fmt, a = x → |x.val| < 2 ^ F.top)
    (hb : ∀ x : Flt F.fmt, b = x → |x.val| < 2 ^ F.top) : (topIe F a).min (topIe F b) = topIe F (min a b) := by
  induction a using WithTop.recTopCoe with
  | top =>
    rw [min_eq_right le_top]
    induction b using WithTop.recTopCoe with
    | top => rfl
    | coe y =>
      change (Ieee.inf false).min (Ieee.ofFlt F y) = Ieee.ofFlt F y
      rw [Ieee.ofFlt_small (hb y rfl)]
      rfl
  | coe x =>
    induction b using WithTop.recTopCoe with
    | top =>
      rw [min_eq_left le_top]
      change (Ieee.ofFlt F x).min (Ieee.inf false) = Ieee.ofFlt F x
      rw [Ieee.ofFlt_small (ha x rfl)]
      rfl
    | coe y =>
      rw [← WithTop.coe_min]
      have h := (hasVal_ofFlt (ha x rfl)).min (hasVal_ofFlt (hb y rfl))
      have e : Min.min x.val y.val = (Min.min x y).val := by
        rcases le_total x y with hxy | hxy
        · rw [min_eq_left hxy, min_eq_left (show x.val ≤ y.val from hxy)]
        · rw [min_eq_right hxy, min_eq_right (show y.val ≤ x.val from hxy)]
      rw [e] at h
      exact h.eq

theorem minList_topIe (l : List (WithTop (Flt F.fmt))) (h : ∀ x : Flt F.fmt, (x : WithTop (Flt F.fmt)) ∈ l → |x.val| < 2 ^ F.top) :
    Ieee.minList (l.map (topIe F)) = topIe F (listMin l) := by
  have key : ∀ (l : List (WithTop (Flt F.fmt))) (acc : WithTop (Flt F.fmt)), (∀ x : Flt F.fmt, acc = x → |x.val| < 2 ^ F.top) →
      (∀ x : Flt F.fmt, (x : WithTop (Flt F.fmt)) ∈ l → |x.val| < 2 ^ F.top) →
      (l.map (topIe F)).foldl Ieee.min (topIe F acc) = topIe F (min acc (listMin l)) := by
    intro l
    induction l with
    | nil =>
      intro acc _ _
      change topIe F acc = topIe F (min acc ⊤)
      rw [min_eq_left le_top]
    | cons a l ih =>
      intro acc hacc hl
      rw [List.map_cons, List.foldl_cons, min_topIe _ _ hacc (fun x hx => hl x (hx ▸ List.mem_cons_self))]
      rw [ih _ (fun x hx => ?_) (fun x hx => hl x (List.mem_cons_of_mem _ hx)), min_assoc]
      · rfl
      · rcases min_choice acc a with h | h
        · exact hacc x (h.symm.trans hx)
        · exact hl x ((h.symm.trans hx) ▸ List.mem_cons_self)
  have := key l ⊤ (fun x hx => absurd hx (by simp)) h
  rw [min_eq_right le_top] at this
  exact this

/-- The minimum distance to path points does not overflow. -/
theorem minDist_lift {L : Libm F.fmt} (hL : SaneSqrt L) {B : ℕ} (hB : 2 * B + 3 < F.top) {xy : Flt F.fmt × Flt F.fmt}
    (hxy : |xy.1.val| ≤ 2 ^ B ∧ |xy.2.val| ≤ 2 ^ B) {paths : List (SdcPath (Flt F.fmt))}
    (hp : ∀ path ∈ paths, ∀ p ∈ path.points, |p.x.val| ≤ 2 ^ B ∧ |p.y.val| ≤ 2 ^ B) (on : Bool → Bool) (v : Bool) :
    minDistIe L (paths.map (SdcPath.ieee F)) (fun path p => on path.onRoute && (v && p.valid)) (Ieee.ofFlt F xy.1, Ieee.ofFlt F xy.2) =
      topIe F (minOverPathsFl paths fun path p => orInfFl (on path.onRoute && (v && p.valid)) (distFl L xy (p.x, p.y))) ∧
    ∀ x : Flt F.fmt, (minOverPathsFl paths fun path p => orInfFl (on path.onRoute && (v && p.valid)) (distFl L xy (p.x, p.y))) = x →
      |x.val| < 2 ^ F.top ∧ 0 ≤ x.val := by
  have hmem : ∀ x : Flt F.fmt, (x : WithTop (Flt F.fmt)) ∈ (paths.flatMap fun path => path.points.map fun p =>
      orInfFl (on path.onRoute && (v && p.valid)) (distFl L xy (p.x, p.y))) → |x.val| < 2 ^ F.top ∧ 0 ≤ x.val := by
    intro x hx
    obtain ⟨path, hpath, hx⟩ := List.mem_flatMap.1 hx
    obtain ⟨p, hpt, hx⟩ := List.mem_map.1 hx
    unfold orInfFl at hx
    split at hx
    · rw [← WithTop.coe_inj.1 hx]
      exact ⟨(dist_hasVal hL hB hxy (hp path hpath p hpt)).small, dist_nonnegIe hL _ _⟩
    · exact absurd hx (by simp)
  constructor
  · unfold minDistIe minOverPathsFl
    rw [← minList_topIe _ fun x hx => (hmem x hx).1, List.map_flatMap, List.flatMap_map]
    congr 1
    apply List.flatMap_congr
    intro path hpath
    rw [List.map_map]
    unfold SdcPath.ieee
    simp only [List.map_map]
    apply List.map_congr_left
    intro p hpt
    simp only [Function.comp_apply]
    unfold orInfFl
    split
    · exact (dist_hasVal hL hB (b := (p.x, p.y)) hxy (hp path hpath p hpt)).eq
    · rfl
  · intro x hx
    rcases listMin_mem (paths.flatMap fun path => path.points.map fun p =>
      orInfFl (on path.onRoute && (v && p.valid)) (distFl L xy (p.x, p.y))) with h | h
    · exact absurd (h.symm.trans hx) (by simp)
    · exact hmem x (hx ▸ h)

/-! ### Metrics -/

section
variable {n T : Nat} [NeZero T]

theorem dynIndex_ieee (f : Fin T → Pt (Flt F.fmt)) (t : Int) : dynIndex (fun k => (f k).ieee F) t = (dynIndex f t).ieee F := rfl

theorem dynIndex_within {f : Fin T → Pt (Flt F.fmt)} {B : ℕ} (h : ∀ t, |(f t).x.val| ≤ 2 ^ B ∧ |(f t).y.val| ≤ 2 ^ B) (t : Int) :
    |(dynIndex f t).x.val| ≤ 2 ^ B ∧ |(dynIndex f t).y.val| ≤ 2 ^ B := h _

/-- Log divergence does not overflow. -/
theorem C160_log_divergence {L : Libm F.fmt} (hL : SaneSqrt L) {B : ℕ} (hB : 2 * B + 3 < F.top) {s : SimState (Flt F.fmt) n T}
    (h : CoordinatesWithin B s) (i : Fin n) :
    logDivergenceMetricIe L (s.ieee F) i = (logDivergenceMetricFl L s i).ieee F ∧ (logDivergenceMetricIe L (s.ieee F) i).value.isFinite = true := by
  have hv : HasVal (logDivergenceMetricIe L (s.ieee F) i).value (logDivergenceMetricFl L s i).value.val :=
    dist_hasVal hL hB (a := ((dynIndex (s.simTrajectory i) s.timestep).x, (dynIndex (s.simTrajectory i) s.timestep).y))
      (b := ((dynIndex (s.logTrajectory i) s.timestep).x, (dynIndex (s.logTrajectory i) s.timestep).y))
      (dynIndex_within (h.sim i) s.timestep) (dynIndex_within (h.log i) s.timestep)
  refine ⟨?_, hv.finite⟩
  have e : logDivergenceMetricIe L (s.ieee F) i =
    ⟨(logDivergenceMetricIe L (s.ieee F) i).value, (logDivergenceMetricFl L s i).valid⟩ := rfl
  rw [e, hv.eq]
  rfl

theorem selectFl_exact {φ : Format} (x : Fin n → Flt φ) (sel : Fin n → Bool) (k : Fin n) (hk : ∀ i, sel i = true ↔ i = k) :
    selectByOnehotFl x sel = x k := by
  unfold selectByOnehotFl
  rw [foldl_add_single _ k (by simp) fun j hj hne => ?_]
  · rw [List.getElem_ofFn]
    have : sel k = true := (hk k).2 rfl
    simp only [Fin.eta, this, if_true]
    exact Flt.mul_one _ (Format.fl_of_rep (Ieee.rep_one' φ))
  · rw [List.getElem_ofFn]
    have : sel ⟨j, by simpa using hj⟩ = false := by
      rw [Bool.eq_false_iff]
      intro hc
      exact hne (congrArg Fin.val ((hk _).1 hc))
    rw [this]
    exact Flt.mul_zero _ Flt.round_zero

theorem sdcXy_lift {B : ℕ} (hB : B < F.top) {s : SimState (Flt F.fmt) n T} (h : CoordinatesWithin B s) {k : Fin n}
    (hk : ∀ i, (s.objectMetadata i).isSdc = true ↔ i = k) :
    sdcXyCurrentIe (s.ieee F) = (Ieee.ofFlt F (sdcXyCurrentFl s).1, Ieee.ofFlt F (sdcXyCurrentFl s).2) ∧
    |(sdcXyCurrentFl s).1.val| ≤ 2 ^ B ∧ |(sdcXyCurrentFl s).2.val| ≤ 2 ^ B := by
  have e : sdcXyCurrentFl s = ((dynIndex (s.simTrajectory k) s.timestep).x, (dynIndex (s.simTrajectory k) s.timestep).y) :=
    Prod.ext (selectFl_exact _ _ k hk) (selectFl_exact _ _ k hk)
  have hfin : ∀ {x : Flt F.fmt}, |x.val| ≤ 2 ^ B → (Ieee.ofFlt F x).isFinite = true := fun h =>
    (hasVal_ofFlt (lt_of_le_of_lt h (two_pow_lt F hB))).finite
  rw [e]
  refine ⟨Prod.ext ?_ ?_, dynIndex_within (h.sim k) s.timestep⟩
  · exact select_finite (k := k) hk fun i => hfin (dynIndex_within (h.sim i) s.timestep).1
  · exact select_finite (k := k) hk fun i => hfin (dynIndex_within (h.sim i) s.timestep).2

theorem noPoints_lift (paths : List (SdcPath (Flt F.fmt))) :
    ((paths.map (SdcPath.ieee F)).all fun path => path.points.isEmpty) = noPathPointsFl paths := by
  unfold noPathPointsFl
  rw [List.all_map]
  congr 1
  funext path
  simp [SdcPath.ieee]

theorem const_small (F : IeeeFormat) {r : ℝ} (h0 : 0 ≤ r) (h : r ≤ 8) : |F.fmt.fl r| < 2 ^ F.top := by
  have r8 : F.fmt.Rep 8 := by have := rep_two_pow F.fmt 3; norm_num at this; exact this
  have := Format.fl_le_of_rep r8 h
  rw [abs_of_nonneg (fl_nonneg h0)]
  linarith [Ieee.two_pow_top F]

/-- The wrong-way metric does not overflow. -/
theorem C160_wrong_way {L : Libm F.fmt} (hL : SaneSqrt L) {B : ℕ} (hB : 2 * B + 3 < F.top) {s : SimState (Flt F.fmt) n T}
    (h : CoordinatesWithin B s) {k : Fin n} (hk : ∀ i, (s.objectMetadata i).isSdc = true ↔ i = k) :
    wrongWayMetricIe L (s.ieee F) = (wrongWayMetricFl L s).map (MetricResultFl.ieee F) := by
  obtain ⟨hxy, hb⟩ := sdcXy_lift (by omega) h hk
  unfold wrongWayMetricIe wrongWayMetricFl
  cases hp : s.sdcPaths with
  | none =>
    have : (s.ieee F).sdcPaths = none := by simp [SimState.ieee, hp]
    rw [this]
    rfl
  | some paths =>
    have : (s.ieee F).sdcPaths = some (paths.map (SdcPath.ieee F)) := by simp [SimState.ieee, hp]
    rw [this]
    simp only
    rw [noPoints_lift]
    split
    · rfl
    · obtain ⟨e, hsm⟩ := minDist_lift hL hB hb (h.paths paths hp) (fun _ => true) true
      simp only [Bool.true_and] at e hsm
      rw [hxy, e]
      generalize minOverPathsFl paths (fun _ p => orInfFl p.valid (distFl L (sdcXyCurrentFl s) (p.x, p.y))) = m at hsm
      induction m using WithTop.recTopCoe with
      | top =>
        change Except.ok _ = Except.ok (MetricResultFl.ieee F ⟨Flt.zero F.fmt, false⟩)
        simp only [topIe, Ieee.isFinite, Bool.not_false, Bool.or_true, if_true]
        rw [Ieee.ofReal_zero]
        unfold MetricResultFl.ieee
        rw [Ieee.ofFlt_small (by simp [Flt.zero])]
        rfl
      | coe d =>
        have hd := hasVal_ofFlt (hsm d rfl).1
        change Except.ok _ = Except.ok (MetricResultFl.ieee F ⟨if d.val < (Flt.round F.fmt 3.5).val then Flt.zero F.fmt else d, true⟩)
        have e35 : (Ieee.ofFlt F d).lt (Ieee.ofReal F 3.5) = decide (d.val < (Flt.round F.fmt 3.5).val) :=
          hd.lt (hasVal_round (const_small F (by norm_num) (by norm_num)))
        simp only [topIe, hd.finite, e35, Bool.not_true, Bool.or_false, decide_eq_true_eq]
        unfold MetricResultFl.ieee
        split
        · rw [Ieee.ofReal_zero, Ieee.ofFlt_small (by simp [Flt.zero])]
          rfl
        · rfl

/-- The off-route metric does not overflow. Where it is invalid the code leaves infinity in the value. -/
theorem C160_off_route {L : Libm F.fmt} (hL : SaneSqrt L) {B : ℕ} (hB : 2 * B + 3 < F.top) {s : SimState (Flt F.fmt) n T}
    (h : CoordinatesWithin B s) {k : Fin n} (hk : ∀ i, (s.objectMetadata i).isSdc = true ↔ i = k) :
    Both AgreeIfValid (offRouteMetricIe L (s.ieee F)) (offRouteMetricFl L s) := by
  obtain ⟨hxy, hb⟩ := sdcXy_lift (by omega) h hk
  unfold offRouteMetricIe offRouteMetricFl
  cases hp : s.sdcPaths with
  | none =>
    have : (s.ieee F).sdcPaths = none := by simp [SimState.ieee, hp]
    rw [this]
    exact .error
  | some paths =>
    have : (s.ieee F).sdcPaths = some (paths.map (SdcPath.ieee F)) := by simp [SimState.ieee, hp]
    rw [this]
    simp only
    rw [noPoints_lift]
    split
    · exact .error
    · have hv : sdcValidCurrentIe (s.ieee F) = sdcValidCurrentFl s := rfl
      obtain ⟨e1, hs1⟩ := minDist_lift hL hB hb (h.paths paths hp) id (sdcValidCurrentFl s)
      obtain ⟨e2, hs2⟩ := minDist_lift hL hB hb (h.paths paths hp) (fun b => !b) (sdcValidCurrentFl s)
      simp only [id] at e1 hs1
      rw [hxy, hv, e1, e2]
      generalize minOverPathsFl paths (fun path p => orInfFl (path.onRoute && (sdcValidCurrentFl s && p.valid)) (distFl L (sdcXyCurrentFl s) (p.x, p.y))) = on at hs1
      generalize minOverPathsFl paths (fun path p => orInfFl (!path.onRoute && (sdcValidCurrentFl s && p.valid)) (distFl L (sdcXyCurrentFl s) (p.x, p.y))) = off at hs2
      have t5 := hasVal_round (F := F) (r := 5) (const_small F (by norm_num) (by norm_num))
      have t2 := hasVal_round (F := F) (r := 2) (const_small F (by norm_num) (by norm_num))
      induction on using WithTop.recTopCoe with
      | top =>
        have l5 : (Ieee.ofReal F 5).lt (.inf false) = true := by
          obtain ⟨x, hx, e, -⟩ := t5
          rw [e]
          rfl
        change Both AgreeIfValid (.ok _) (.ok ⟨Flt.zero F.fmt, false⟩)
        simp only [topIe, l5, Bool.true_or, if_true]
        exact .ok ⟨rfl, fun hc => absurd hc (by simp [Ieee.isFinite])⟩
      | coe d =>
        have hd := hasVal_ofFlt (hs1 d rfl).1
        change Both AgreeIfValid (.ok _) (.ok ⟨if d.val > (Flt.round F.fmt 5).val ∨ exceedsByTwoFl d off = true then d else Flt.zero F.fmt, true⟩)
        have e5 : (Ieee.ofReal F 5).lt (Ieee.ofFlt F d) = decide ((Flt.round F.fmt 5).val < d.val) := t5.lt hd
        have e2 : (Ieee.ofReal F 2).lt ((Ieee.ofFlt F d).sub (topIe F off)) = exceedsByTwoFl d off := by
          induction off using WithTop.recTopCoe with
          | top =>
            obtain ⟨x, hx, e, -⟩ := t2
            obtain ⟨y, hy, e', -⟩ := hd
            rw [e, e']
            rfl
          | coe c =>
            have hc := hasVal_ofFlt (hs2 c rfl).1
            have hsub : |F.fmt.fl (d.val - c.val)| < 2 ^ F.top := by
              have c0 := (hs2 c rfl).2
              have d0 := (hs1 d rfl).2
              have l1 := Format.fl_le_of_rep (φ := F.fmt) (x := d.val - c.val) d.property (by linarith)
              have l2 := Format.le_fl_of_rep (φ := F.fmt) (x := d.val - c.val) c.property.neg (by linarith)
              rw [abs_lt]
              constructor
              · linarith [le_abs_self c.val, (hs2 c rfl).1]
              · linarith [le_abs_self d.val, (hs1 d rfl).1]
            exact t2.lt (hd.sub hc hsub)
        have etop : topIe F (d : WithTop (Flt F.fmt)) = Ieee.ofFlt F d := rfl
        rw [etop, e5, e2]
        have hz : Ieee.ofReal F 0 = Ieee.ofFlt F (Flt.zero F.fmt) := by
          rw [Ieee.ofReal_zero, Ieee.ofFlt_small (by simp [Flt.zero])]
          rfl
        have hzf : (Ieee.ofReal F 0).isFinite = true := by rw [Ieee.ofReal_zero]; rfl
        apply Both.ok
        generalize hbool : (decide ((Flt.round F.fmt 5).val < d.val) || exceedsByTwoFl d off) = b
        cases b with
        | true =>
          rw [Bool.or_eq_true, decide_eq_true_iff] at hbool
          rw [if_pos rfl, if_pos hbool]
          exact ⟨hd.finite, fun _ => rfl⟩
        | false =>
          have hn : ¬ (d.val > (Flt.round F.fmt 5).val ∨ exceedsByTwoFl d off = true) := fun hc => by
            have := (Bool.or_eq_true_iff).2 (hc.imp_left decide_eq_true)
            rw [this] at hbool
            exact absurd hbool (by simp)
          rw [if_neg (by simp), if_neg hn]
          exact ⟨hzf, fun _ => hz⟩

end

/-! ### Overlap -/

/-- Finite, of this value, and at most `2 ^ k`. -/
def Small (k : ℕ) (a : Ieee F) (x : ℝ) : Prop := HasVal a x ∧ |x| ≤ 2 ^ k

theorem Small.add {k : ℕ} {a b : Ieee F} {x y : ℝ} (ha : Small k a x) (hb : Small k b y) (hk : k + 1 < F.top) :
    Small (k + 1) (a.add b) (F.fmt.fl (x + y)) := by
  have h : |F.fmt.fl (x + y)| ≤ 2 ^ (k + 1) := by
    apply abs_fl_le
    rw [pow_succ]
    linarith [abs_add_le x y, ha.2, hb.2]
  exact ⟨ha.1.add hb.1 (lt_of_le_of_lt h (two_pow_lt F hk)), h⟩

theorem Small.neg {k : ℕ} {a : Ieee F} {x : ℝ} (ha : Small k a x) : Small k a.neg (-x) := ⟨ha.1.neg, by rw [abs_neg]; exact ha.2⟩

theorem Small.sub {k : ℕ} {a b : Ieee F} {x y : ℝ} (ha : Small k a x) (hb : Small k b y) (hk : k + 1 < F.top) :
    Small (k + 1) (a.sub b) (F.fmt.fl (x - y)) := by
  rw [sub_eq_add_neg]
  exact ha.add hb.neg hk

theorem Small.mul {k : ℕ} {a b : Ieee F} {x y : ℝ} (ha : Small k a x) (hb : Small 0 b y) (hk : k < F.top) :
    Small k (a.mul b) (F.fmt.fl (x * y)) := by
  have h : |F.fmt.fl (x * y)| ≤ 2 ^ k := by
    apply abs_fl_le
    rw [abs_mul]
    have h1 := hb.2
    rw [pow_zero] at h1
    exact (mul_le_of_le_one_right (abs_nonneg _) h1).trans ha.2
  exact ⟨ha.1.mul hb.1 (lt_of_le_of_lt h (two_pow_lt F hk)), h⟩

theorem Small.mono {k l : ℕ} {a : Ieee F} {x : ℝ} (ha : Small k a x) (h : k ≤ l) : Small l a x :=
  ⟨ha.1, ha.2.trans (pow_le_pow_right₀ (by norm_num) h)⟩

theorem Small.min {k : ℕ} {a b : Ieee F} {x y : ℝ} (ha : Small k a x) (hb : Small k b y) : Small k (a.min b) (min x y) :=
  ⟨ha.1.min hb.1, by rcases min_choice x y with h | h <;> rw [h]; exacts [ha.2, hb.2]⟩

theorem Small.max {k : ℕ} {a b : Ieee F} {x y : ℝ} (ha : Small k a x) (hb : Small k b y) : Small k (a.max b) (max x y) :=
  ⟨ha.1.max hb.1, by rcases max_choice x y with h | h <;> rw [h]; exacts [ha.2, hb.2]⟩

theorem small_ofFlt {k : ℕ} {x : Flt F.fmt} (h : |x.val| ≤ 2 ^ k) (hk : k < F.top) : Small k (Ieee.ofFlt F x) x.val :=
  ⟨hasVal_ofFlt (lt_of_le_of_lt h (two_pow_lt F hk)), h⟩

theorem Small.half {k : ℕ} {a : Ieee F} {x : ℝ} (ha : Small k a x) (hk : k < F.top) :
    Small k (a.div (Ieee.ofReal F 2)) (F.fmt.fl (x / F.fmt.fl 2)) := by
  have e2 : F.fmt.fl 2 = 2 := by
    have := rep_two_pow F.fmt 1
    rw [pow_one] at this
    exact Format.fl_of_rep this
  have h : |F.fmt.fl (x / F.fmt.fl 2)| ≤ 2 ^ k := by
    apply abs_fl_le
    rw [e2, abs_div, abs_two]
    linarith [ha.2, abs_nonneg x]
  have h2 : HasVal (Ieee.ofReal F 2) (F.fmt.fl 2) := hasVal_round (const_small F (by norm_num) (by norm_num))
  exact ⟨ha.1.div h2 (by rw [e2]; norm_num) (lt_of_le_of_lt h (two_pow_lt F hk)), h⟩

theorem trig_small {f : Flt F.fmt → Flt F.fmt} {x : Flt F.fmt} (hx : |x.val| < 2 ^ F.top) (h : |(f x).val| ≤ 1) :
    Small 0 ((Ieee.ofFlt F x).trig f) (f x).val := by
  rw [Ieee.ofFlt_small hx]
  exact small_ofFlt (by simpa using h) (by have := F.room; omega)

theorem corners_small {L : Libm F.fmt} (hL : SaneTrig L) {B : ℕ} (hB : B + 4 < F.top) {p : Pt (Flt F.fmt)} (hp : BoxWithin B p) (k : Fin 4) :
    Small (B + 2) (cornersIe L (p.ieee F).boxIe k).1 (cornersFl L.kernel p.boxFl k).1.val ∧
    Small (B + 2) (cornersIe L (p.ieee F).boxIe k).2 (cornersFl L.kernel p.boxFl k).2.val := by
  have hyaw : |p.yaw.val| < 2 ^ F.top := lt_of_le_of_lt hp.yaw (two_pow_lt F (by omega))
  have hc := trig_small hyaw (hL p.yaw).2
  have hs := trig_small hyaw (hL p.yaw).1
  have hx := (small_ofFlt hp.x (by omega)).mono (Nat.le_succ B)
  have hy := (small_ofFlt hp.y (by omega)).mono (Nat.le_succ B)
  have hl := (small_ofFlt hp.length (by omega)).half (by omega)
  have hw := (small_ofFlt hp.width (by omega)).half (by omega)
  have lc := hl.mul hc (by omega)
  have ls := hl.mul hs (by omega)
  have wc := hw.mul hc (by omega)
  have ws := hw.mul hs (by omega)
  fin_cases k
  · exact ⟨(lc.add ws (by omega)).add hx (by omega), (ls.sub wc (by omega)).add hy (by omega)⟩
  · exact ⟨(lc.sub ws (by omega)).add hx (by omega), (ls.add wc (by omega)).add hy (by omega)⟩
  · exact ⟨(lc.neg.sub ws (by omega)).add hx (by omega), (ls.neg.add wc (by omega)).add hy (by omega)⟩
  · exact ⟨(lc.neg.add ws (by omega)).add hx (by omega), (ls.neg.sub wc (by omega)).add hy (by omega)⟩

theorem proj_small {L : Libm F.fmt} (hL : SaneTrig L) {B : ℕ} (hB : B + 4 < F.top) {a b : Pt (Flt F.fmt)} (ha : BoxWithin B a)
    (hb : BoxWithin B b) (axis : Fin 2) (k : Fin 4) :
    Small (B + 3) (projIe L (a.ieee F).boxIe (b.ieee F).boxIe axis k)
      (L.kernel.dot (cornersFl L.kernel b.boxFl k) (axisFl L.kernel a.boxFl axis)).val := by
  have hyaw : |a.yaw.val| < 2 ^ F.top := lt_of_le_of_lt ha.yaw (two_pow_lt F (by omega))
  have hc := trig_small hyaw (hL a.yaw).2
  have hs := trig_small hyaw (hL a.yaw).1
  obtain ⟨h1, h2⟩ := corners_small hL hB hb k
  fin_cases axis
  · exact (h1.mul hc (by omega)).add (h2.mul hs (by omega)) (by omega)
  · exact (h1.mul hs.neg (by omega)).add (h2.mul hc (by omega)) (by omega)

theorem max4_small {k : ℕ} {f : Fin 4 → Ieee F} {g : Fin 4 → ℝ} (h : ∀ i, Small k (f i) (g i)) : Small k (max4Ie f) (max4 g) := by
  unfold max4
  rw [← max_assoc]
  exact (((h 0).max (h 1)).max (h 2)).max (h 3)

theorem min4_small {k : ℕ} {f : Fin 4 → Ieee F} {g : Fin 4 → ℝ} (h : ∀ i, Small k (f i) (g i)) : Small k (min4Ie f) (min4 g) := by
  unfold min4
  rw [← min_assoc]
  exact (((h 0).min (h 1)).min (h 2)).min (h 3)

theorem overlapAOverB_lift {L : Libm F.fmt} (hL : SaneTrig L) {B : ℕ} (hB : B + 4 < F.top) {a b : Pt (Flt F.fmt)} (ha : BoxWithin B a)
    (hb : BoxWithin B b) : overlapAOverBIe L (a.ieee F).boxIe (b.ieee F).boxIe = true ↔ overlapAOverBFl L.kernel a.boxFl b.boxFl := by
  unfold overlapAOverBIe overlapAOverBFl
  rw [List.all_eq_true]
  simp only [List.mem_finRange, true_implies]
  apply forall_congr'
  intro axis
  have haa := fun k => proj_small hL hB ha ha axis k
  have hab := fun k => proj_small hL hB ha hb axis k
  have h := ((max4_small haa).min (max4_small hab)).sub ((min4_small haa).max (min4_small hab)) (by omega)
  have h0 : HasVal (Ieee.ofReal F 0) 0 := by
    rw [Ieee.ofReal_zero]
    exact ⟨_, _, rfl, rfl⟩
  rw [h0.lt h.1, decide_eq_true_iff]

/-- The overlap test does not overflow. -/
theorem C160_overlap {L : Libm F.fmt} (hL : SaneTrig L) {B : ℕ} (hB : B + 4 < F.top) {a b : Pt (Flt F.fmt)} (ha : BoxWithin B a)
    (hb : BoxWithin B b) : hasOverlapIe L (a.ieee F).boxIe (b.ieee F).boxIe = true ↔ hasOverlapFl L.kernel a.boxFl b.boxFl := by
  unfold hasOverlapIe hasOverlapFl
  rw [Bool.and_eq_true, overlapAOverB_lift hL hB ha hb, overlapAOverB_lift hL hB hb ha]

/-! ### Displacement dynamics and rewards -/

/-- An update of moderate numbers does not overflow: the values are those of the arithmetic without overflow. -/
theorem C160_displacement {B : ℕ} (hB : B + 4 < F.top) {P : DeltaParamsFl F.fmt} (hdt : 2 ^ (-4 : ℤ) ≤ |P.dt.val|) (hdt' : |P.dt.val| ≤ 1)
    {a : Act (Delta3Fl F.fmt)} (ha : |a.data.dx.val| ≤ 2 ^ B ∧ |a.data.dy.val| ≤ 2 ^ B ∧ |a.data.dyaw.val| ≤ 2 ^ B)
    {p : Pt (Flt F.fmt)} (hp : |p.x.val| ≤ 2 ^ B ∧ |p.y.val| ≤ 2 ^ B ∧ |p.yaw.val| ≤ 2 ^ B) :
    let u := deltaUpdateIe (Ieee.ofFlt F P.dt)
      { data := { dx := Ieee.ofFlt F a.data.dx, dy := Ieee.ofFlt F a.data.dy, dyaw := Ieee.ofFlt F a.data.dyaw }, valid := a.valid } (p.ieee F)
    let v := deltaUpdateFl P a p
    HasVal u.x v.x.val ∧ HasVal u.y v.y.val ∧ HasVal u.yaw v.yaw.val ∧ HasVal u.velX v.velX.val ∧ HasVal u.velY v.velY.val ∧ u.valid = v.valid := by
  intro u v
  have hdtv : HasVal (Ieee.ofFlt F P.dt) P.dt.val := hasVal_ofFlt (by linarith [Ieee.two_pow_top F])
  have hz : (0 : ℝ) < 2 ^ (-4 : ℤ) := by norm_num
  have hne : P.dt.val ≠ 0 := fun h => by rw [h, abs_zero] at hdt; linarith
  have hdiv : ∀ {x : ℝ}, |x| ≤ 2 ^ B → |F.fmt.fl (x / P.dt.val)| < 2 ^ F.top := fun {x} hx => by
    refine lt_of_le_of_lt (abs_fl_le (k := B + 4) ?_) (two_pow_lt F hB)
    rw [abs_div, div_le_iff₀ (by linarith)]
    have e : (2 : ℝ) ^ (B + 4) * 2 ^ (-4 : ℤ) = 2 ^ B := by
      rw [pow_add]
      norm_num
      ring
    have : (2 : ℝ) ^ (B + 4) * 2 ^ (-4 : ℤ) ≤ 2 ^ (B + 4) * |P.dt.val| := mul_le_mul_of_nonneg_left hdt (by positivity)
    linarith
  exact ⟨((small_ofFlt hp.1 (by omega)).add (small_ofFlt ha.1 (by omega)) (by omega)).1,
    ((small_ofFlt hp.2.1 (by omega)).add (small_ofFlt ha.2.1 (by omega)) (by omega)).1,
    ((small_ofFlt hp.2.2 (by omega)).add (small_ofFlt ha.2.2 (by omega)) (by omega)).1,
    (small_ofFlt ha.1 (by omega)).1.div hdtv hne (hdiv ha.1), (small_ofFlt ha.2.1 (by omega)).1.div hdtv hne (hdiv ha.2.1), rfl⟩

/-- A linear reward of moderate metrics and weights is finite. -/
theorem C160_reward {n : Nat} {B : ℕ} {terms : List (MetricArrIe F n × Ieee F)} (hB : 2 * B + terms.length < F.top) {mask : Fin n → Bool} {i : Fin n}
    (h : ∀ e ∈ terms, ∃ m w, HasVal (e.1.masked i) m ∧ |m| ≤ 2 ^ B ∧ HasVal e.2 w ∧ |w| ≤ 2 ^ B) :
    (linearRewardIe terms mask i).isFinite = true := by
  have hmask : Small 0 (Ieee.ofReal F (if mask i then 1 else 0)) (if mask i then 1 else 0) := by
    split
    · rw [Ieee.ofReal_one]
      exact ⟨⟨_, _, rfl, rfl⟩, by simp⟩
    · rw [Ieee.ofReal_zero]
      exact ⟨⟨_, _, rfl, rfl⟩, by simp⟩
  have key : ∀ (l : List (MetricArrIe F n × Ieee F)) (k : ℕ) (acc : Ieee F) (r : ℝ), (∀ e ∈ l, e ∈ terms) → Small (2 * B + k) acc r →
      2 * B + k + l.length < F.top →
      ∃ q, HasVal (l.foldl (fun reward e => reward.add (((e.1.masked i).mul (Ieee.ofReal F (if mask i then 1 else 0))).mul e.2)) acc) q := by
    intro l
    induction l with
    | nil => exact fun k acc r _ hacc _ => ⟨r, hacc.1⟩
    | cons e l ih =>
      intro k acc r hl hacc hk
      rw [List.length_cons] at hk
      rw [List.foldl_cons]
      obtain ⟨m, w, h1, h2, h3, h4⟩ := h e (hl e List.mem_cons_self)
      have hm := Small.mul ⟨h1, h2⟩ hmask (by omega)
      have hprod : |F.fmt.fl (F.fmt.fl (m * if mask i then 1 else 0) * w)| ≤ 2 ^ (2 * B) := by
        apply abs_fl_le
        rw [abs_mul, two_mul, pow_add]
        exact mul_le_mul hm.2 h4 (abs_nonneg _) (by positivity)
      have hterm : Small (2 * B) (((e.1.masked i).mul (Ieee.ofReal F (if mask i then 1 else 0))).mul e.2)
          (F.fmt.fl (F.fmt.fl (m * if mask i then 1 else 0) * w)) :=
        ⟨hm.1.mul h3 (lt_of_le_of_lt hprod (two_pow_lt F (by omega))), hprod⟩
      exact ih (k + 1) _ _ (fun e he => hl e (List.mem_cons_of_mem _ he)) (hacc.add (hterm.mono (by omega)) (by omega)) (by omega)
  obtain ⟨q, hq⟩ := key terms 0 (Ieee.ofReal F 0) 0 (fun _ h => h) (by
    rw [Ieee.ofReal_zero]
    exact ⟨⟨_, _, rfl, rfl⟩, by rw [abs_zero]; positivity⟩) (by omega)
  exact hq.finite

/-- The overlap metric does not overflow. -/
theorem C160_overlap_metric {n T : Nat} [NeZero T] {L : Libm F.fmt} (hL : SaneTrig L) {B : ℕ} (hB : B + 4 < F.top)
    {s : SimState (Flt F.fmt) n T} (h : ∀ i, BoxWithin B (dynIndex (s.simTrajectory i) s.timestep)) (j : Fin n) :
    (overlapMetricIe L (s.ieee F) j).value = Ieee.ofReal F (overlapMetricFl L.kernel s j).value ∧
    (overlapMetricIe L (s.ieee F) j).valid = (overlapMetricFl L.kernel s j).valid := by
  refine ⟨?_, rfl⟩
  unfold overlapMetricIe overlapMetricFl computeOverlapFl
  simp only
  have hiff : ((List.finRange n).any fun i => (decide (i ≠ j) && hasOverlapIe L (dynIndex ((s.ieee F).simTrajectory i) (s.ieee F).timestep).boxIe
      (dynIndex ((s.ieee F).simTrajectory j) (s.ieee F).timestep).boxIe) && (dynIndex ((s.ieee F).simTrajectory i) (s.ieee F).timestep).valid) = true ↔
      ∃ i, computePairwiseOverlapsFl L.kernel (fun k => (dynIndex (s.simTrajectory k) s.timestep).boxFl) i j ∧
        (dynIndex (s.simTrajectory i) s.timestep).valid = true := by
    rw [List.any_eq_true]
    simp only [List.mem_finRange, true_and, Bool.and_eq_true, decide_eq_true_eq]
    apply exists_congr
    intro i
    have e : hasOverlapIe L (dynIndex ((s.ieee F).simTrajectory i) (s.ieee F).timestep).boxIe
        (dynIndex ((s.ieee F).simTrajectory j) (s.ieee F).timestep).boxIe = true ↔
        hasOverlapFl L.kernel (dynIndex (s.simTrajectory i) s.timestep).boxFl (dynIndex (s.simTrajectory j) s.timestep).boxFl := C160_overlap hL hB (h i) (h j)
    rw [e]
    unfold computePairwiseOverlapsFl
    have ev : (dynIndex ((s.ieee F).simTrajectory i) (s.ieee F).timestep).valid = (dynIndex (s.simTrajectory i) s.timestep).valid := rfl
    rw [ev]
    by_cases hij : i = j
    · simp [hij]
    · simp [hij]
  by_cases hx : ∃ i, computePairwiseOverlapsFl L.kernel (fun k => (dynIndex (s.simTrajectory k) s.timestep).boxFl) i j ∧
        (dynIndex (s.simTrajectory i) s.timestep).valid = true
  · rw [if_pos (hiff.2 hx), if_pos]
    obtain ⟨i, hi⟩ := hx
    apply Finset.sum_pos'
    · intro k _
      split <;> simp
    · exact ⟨i, Finset.mem_univ _, by rw [if_pos hi]; norm_num⟩
  · rw [if_neg (fun hc => hx (hiff.1 hc)), if_neg]
    rw [gt_iff_lt, not_lt, Nat.le_zero, Finset.sum_eq_zero_iff]
    intro i _
    rw [if_neg fun hc => hx ⟨i, hc⟩]

/-! ### What this gives -/

/-- The accuracy of C153 carries over to the arithmetic with overflow: the log divergence is finite and close to the exact distance. -/
theorem C160_log_divergence_accurate {n T : Nat} [NeZero T] {L : Libm F.fmt} {ε : ℝ} (hA : L.Accurate ε) (hL : SaneSqrt L) {B : ℕ}
    (hB : 2 * B + 3 < F.top) {s : SimState (Flt F.fmt) n T} (h : CoordinatesWithin B s) {t : Fin T} (ht : (t : Int) = s.timestep) (i : Fin n) :
    ∃ v, HasVal (logDivergenceMetricIe L (s.ieee F) i).value v ∧
      |v - dist2 (s.simTrajectory i t).exactXy (s.logTrajectory i t).exactXy| ≤
        distanceTolerance ε (dist2 (s.simTrajectory i t).exactXy (s.logTrajectory i t).exactXy) := by
  refine ⟨(logDivergenceMetricFl L s i).value.val, ?_, (C153_log_divergence hA s ht i).1⟩
  obtain ⟨e, hf⟩ := C160_log_divergence hL hB h i
  obtain ⟨x, hx, hv⟩ := Ieee.finite_iff.1 hf
  have e' : (logDivergenceMetricIe L (s.ieee F) i).value = Ieee.ofFlt F (logDivergenceMetricFl L s i).value := by rw [e]; rfl
  rw [e'] at hv ⊢
  apply hasVal_ofFlt
  by_contra hc
  unfold Ieee.ofFlt at hv
  rw [dif_neg hc] at hv
  exact absurd hv (by simp)

/-- The bound on the coordinates cannot be raised much: at `2 ^ k` with `2 k` at least the top exponent the distance to the log, which
is a machine number, overflows. -/
theorem C160_limit (L : Libm F.fmt) {k : ℕ} (hk : k < F.top) (h2 : F.top ≤ 2 * k) :
    (logDivergenceMetricIe L (exBroken F (Ieee.ofReal F (2 ^ k)) (Ieee.zero F) true) 0).value = .inf false ∧
    HasVal (Ieee.ofReal F (2 ^ k)) (2 ^ k) := by
  have hrep := rep_two_pow F.fmt k
  have hval : HasVal (Ieee.ofReal F (2 ^ k)) (2 ^ k) := by
    have h := hasVal_round (F := F) (r := 2 ^ k) (by
      rw [Format.fl_of_rep hrep, abs_of_pos (by positivity)]
      exact two_pow_lt F hk)
    rwa [Format.fl_of_rep hrep] at h
  refine ⟨?_, hval⟩
  change distIe L (Ieee.ofReal F (2 ^ k), Ieee.zero F) (Ieee.zero F, Ieee.zero F) = _
  have h0 : HasVal (Ieee.zero F) 0 := ⟨_, _, rfl, rfl⟩
  have hd1 : HasVal ((Ieee.ofReal F (2 ^ k)).sub (Ieee.zero F)) (2 ^ k) := by
    have e : F.fmt.fl (2 ^ k - 0) = 2 ^ k := by rw [sub_zero, Format.fl_of_rep hrep]
    have h := hval.sub h0 (by rw [e]; exact hval.small)
    rwa [e] at h
  have hd2 : HasVal ((Ieee.zero F).sub (Ieee.zero F)) 0 := by
    have e : F.fmt.fl (0 - 0) = 0 := by rw [sub_zero, Format.fl_of_rep Format.Rep.zero]
    have h := h0.sub h0 (by rw [e]; exact h0.small)
    rwa [e] at h
  have hs2 : HasVal (((Ieee.zero F).sub (Ieee.zero F)).mul ((Ieee.zero F).sub (Ieee.zero F))) 0 := by
    have e : F.fmt.fl (0 * 0) = 0 := by rw [MulZeroClass.mul_zero, Format.fl_of_rep Format.Rep.zero]
    have h := hd2.mul hd2 (by rw [e]; exact h0.small)
    rwa [e] at h
  have hs1 : ((Ieee.ofReal F (2 ^ k)).sub (Ieee.zero F)).mul ((Ieee.ofReal F (2 ^ k)).sub (Ieee.zero F)) = .inf false := by
    obtain ⟨x, hx, e, ev⟩ := hd1
    rw [e]
    change Ieee.ofFlt F (x.mul x) = _
    have hm : (x.mul x).val = 2 ^ (2 * k) := by
      change F.fmt.fl (x.val * x.val) = _
      rw [ev, ← pow_add, ← two_mul, Format.fl_of_rep (rep_two_pow F.fmt (2 * k))]
    have hpos : (0 : ℝ) < 2 ^ (2 * k) := by positivity
    unfold Ieee.ofFlt
    rw [dif_neg]
    · rw [hm]
      simp [not_lt.2 hpos.le]
    · rw [hm, abs_of_pos hpos, not_lt]
      exact pow_le_pow_right₀ (by norm_num) h2
  unfold distIe
  simp only
  rw [hs1]
  obtain ⟨x, hx, e, -⟩ := hs2
  rw [e]
  rfl

/-! ### The hypotheses can be met -/

/-- The correctly rounding library is sane in every format. -/
theorem exactLibm_sane (φ : Format) : SaneSqrt (exactLibm φ) ∧ SaneTrig (exactLibm φ) := by
  have r1 := Ieee.rep_one' φ
  refine ⟨fun x hx => ⟨fl_nonneg (Real.sqrt_nonneg _), ?_⟩, fun x => ⟨?_, ?_⟩⟩
  · change φ.fl √x.val ≤ _
    rcases le_total x.val 1 with h | h
    · exact le_max_of_le_left (Format.fl_le_of_rep r1 (Real.sqrt_le_one.2 h))
    · refine le_max_of_le_right (Format.fl_le_of_rep x.property ?_)
      rw [Real.sqrt_le_left (by linarith)]
      nlinarith
  · change |φ.fl (Real.sin x.val)| ≤ 1
    have := abs_fl_le (φ := φ) (k := 0) (x := Real.sin x.val) (by simpa using Real.abs_sin_le_one x.val)
    simpa using this
  · change |φ.fl (Real.cos x.val)| ≤ 1
    have := abs_fl_le (φ := φ) (k := 0) (x := Real.cos x.val) (by simpa using Real.abs_cos_le_one x.val)
    simpa using this

/-- Single precision: coordinates up to 2⁶² metres are fine for distances, up to 2¹²³ for boxes; at 2⁶⁴ metres distances overflow. -/
example : 2 * 62 + 3 < binary32.top ∧ 123 + 4 < binary32.top ∧ (64 < binary32.top ∧ binary32.top ≤ 2 * 64) := by
  unfold binary32
  decide

/-- Two objects of single precision far apart, one of them off its log by 2⁶² metres. -/
example : ∃ s : SimState (Flt binary32.fmt) 2 1, CoordinatesWithin 62 s ∧ (∀ i, (s.objectMetadata i).isSdc = true ↔ i = 0) ∧
    (logDivergenceMetricIe (exactLibm _) (s.ieee binary32) 0).value.isFinite = true ∧ (s.simTrajectory 0 0).x.val = 2 ^ 62 := by
  let z : Flt binary32.fmt := ⟨0, Format.Rep.zero⟩
  let pt : Flt binary32.fmt → Pt (Flt binary32.fmt) := fun x =>
    { x := x, y := z, z := z, velX := z, velY := z, yaw := z, valid := true, timestampMicros := 0, length := z, width := z, height := z }
  let s : SimState (Flt binary32.fmt) 2 1 :=
    { simTrajectory := fun i _ => if i = 0 then pt ⟨2 ^ 62, rep_two_pow _ 62⟩ else pt z, logTrajectory := fun _ _ => pt z, logTrafficLight := [],
      objectMetadata := fun i => { id := i.val, objectType := 1, isSdc := decide (i = 0), isModeled := true, isValid := true, objectsOfInterest := false, isControlled := true },
      timestep := 0, sdcPaths := none, roadgraphPoints := none }
  have hz : |z.val| ≤ 2 ^ 62 := by change |(0 : ℝ)| ≤ _; rw [abs_zero]; positivity
  have h : CoordinatesWithin 62 s := by
    refine ⟨fun i t => ⟨?_, ?_⟩, fun i t => ⟨hz, hz⟩, fun paths hp => absurd hp (by simp [s])⟩
    · by_cases hi : i = 0
      · simp only [s, hi, if_true, pt]
        rw [abs_of_pos (by positivity)]
      · simp only [s, hi, if_false, pt]
        exact hz
    · by_cases hi : i = 0
      · simp only [s, hi, if_true, pt]
        exact hz
      · simp only [s, hi, if_false, pt]
        exact hz
  exact ⟨s, h, fun i => by simp [s], (C160_log_divergence (exactLibm_sane _).1 (by unfold binary32; decide) h 0).2, rfl⟩

/-- A car of single precision, 4.5 by 2 metres, at 2¹²³ metres from the origin meets the bound of the overlap test. -/
example (yaw l w : Flt binary32.fmt) (h1 : |yaw.val| ≤ 4) (h2 : |l.val| ≤ 8) (h3 : |w.val| ≤ 8) (p : Pt (Flt binary32.fmt)) :
    BoxWithin 123 { p with x := ⟨2 ^ 123, rep_two_pow _ 123⟩, y := ⟨0, Format.Rep.zero⟩, yaw := yaw, length := l, width := w } := by
  have h8 : (8 : ℝ) ≤ 2 ^ 123 := by norm_num
  exact ⟨by simp, by simp, h2.trans h8, h3.trans h8, (h1.trans (by norm_num)).trans h8⟩

/-- The step length of 0.1 s meets the bounds of the displacement model. -/
example : (2 : ℝ) ^ (-4 : ℤ) ≤ |(Flt.round binary32.fmt 0.1).val| ∧ |(Flt.round binary32.fmt 0.1).val| ≤ 1 := by
  have r1 : binary32.fmt.Rep (2 ^ (-4 : ℤ)) := ⟨1, -4, by decide, by decide, by norm_num⟩
  have h1 : (2 : ℝ) ^ (-4 : ℤ) ≤ (Flt.round binary32.fmt 0.1).val := Format.le_fl_of_rep r1 (by norm_num)
  have h2 : (Flt.round binary32.fmt 0.1).val ≤ 1 := Format.fl_le_of_rep (Ieee.rep_one' _) (by norm_num)
  have h0 : (0 : ℝ) < 2 ^ (-4 : ℤ) := by norm_num
  rw [abs_of_nonneg (by linarith)]
  exact ⟨h1, h2⟩

end

end Waymax
