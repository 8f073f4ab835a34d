import Verif.Spec.OffroadIeee
import Verif.Props.OffroadMachine
import Verif.Props.BrokenAction
/-
C166: the off-road metric with NaN, infinities and overflow.
-/

namespace Waymax

section
variable {F : IeeeFormat} {L : Libm F.fmt}

/-! ### NaN -/

theorem nan_div (a : Ieee F) : (Ieee.nan : Ieee F).div a = .nan := by cases a <;> rfl

theorem corner_nan (L : Libm F.fmt) {p : Pt (Ieee F)} (h : p.BoxNan) (k : Fin 4) :
    (cornersIe L p.boxIe k).1 = .nan ∨ (cornersIe L p.boxIe k).2 = .nan := by
  rcases h with h | h | h | h | h <;> fin_cases k <;> simp [cornersIe, Pt.boxIe, h, nan_div]

theorem signedDistanceAt_nan (L : Libm F.fmt) (pn pp : RgPoint (Ieee F)) {qx qy : Ieee F}
    (h : qx.sub pn.x = .nan ∨ qy.sub pn.y = .nan) : signedDistanceAtIe L pn pp qx qy = .nan := by
  have hc : ∀ d : Ieee F × Ieee F, crossIe (qx.sub pn.x, qy.sub pn.y) d = .nan := fun d => by
    rcases h with h | h <;> simp [crossIe, h]
  unfold signedDistanceAtIe
  simp only [hc]
  have hs : signIe (.nan : Ieee F) = .nan := by simp [signIe, Ieee.isNan]
  split <;> rw [hs, Ieee.mul_nan]

theorem isOffroad_false (L : Libm F.fmt) (rg : List (RgPoint (Ieee F))) (p : Pt (Ieee F))
    (h : ∀ (k : Fin 4) (pn pp : RgPoint (Ieee F)),
      rg[argminIe (rg.map (squareDistanceIe (cornersIe L p.boxIe k).1 (cornersIe L p.boxIe k).2 p.z))]? = some pn →
      (cornersIe L p.boxIe k).1.sub pn.x = .nan ∨ (cornersIe L p.boxIe k).2.sub pn.y = .nan) : isOffroadIe L rg p = false := by
  unfold isOffroadIe
  rw [List.any_eq_false]
  intro k _
  unfold signedDistanceIe
  simp only
  split
  · rename_i d hd
    split at hd
    · rename_i pn pp hn hp
      rw [← Option.some.inj hd, signedDistanceAt_nan L pn pp (h k pn pp hn), Ieee.lt_nan]
      exact Bool.false_ne_true
    · cases hd
  · exact Bool.false_ne_true

variable {n T : Nat} [NeZero T]

theorem offroadIe_cases (L : Libm F.fmt) (s : SimState (Ieee F) n T) {rg : List (RgPoint (Ieee F))} {t : Fin T} (ht : (t : Int) = s.timestep)
    (hrg : s.roadgraphPoints = some rg) (hne : rg ≠ []) : ∃ r, offroadMetricIe L s = .ok r ∧ ∀ i,
      r i = { value := if isOffroadIe L rg (s.simTrajectory i t) then Ieee.ofReal F 1 else Ieee.ofReal F 0, valid := true } := by
  unfold offroadMetricIe
  rw [hrg]
  obtain ⟨p, ps, rfl⟩ : ∃ p ps, rg = p :: ps := by
    cases rg with
    | nil => exact absurd rfl hne
    | cons p ps => exact ⟨p, ps, rfl⟩
  refine ⟨_, rfl, fun i => ?_⟩
  rw [dynIndex_of_eq _ ht]

/-- The expectation: an object whose box is NaN is not reported to be on the road, with a valid mark. -/
def C166_full (L : Libm F.fmt) (n T : Nat) [NeZero T] : Prop :=
  ∀ (s : SimState (Ieee F) n T) (t : Fin T) (r : Fin n → MetricResultIe F) (i : Fin n), (t : Int) = s.timestep → offroadMetricIe L s = .ok r →
    (s.simTrajectory i t).BoxNan → ¬ ((r i).value = Ieee.ofReal F 0 ∧ (r i).valid = true)

/-- Exact behaviour: an object with NaN in its position, size or heading is always reported to be on the road, and marked valid. -/
theorem C166_nan_object (L : Libm F.fmt) (s : SimState (Ieee F) n T) {rg : List (RgPoint (Ieee F))} {t : Fin T} (ht : (t : Int) = s.timestep)
    (hrg : s.roadgraphPoints = some rg) (hne : rg ≠ []) {i : Fin n} (hi : (s.simTrajectory i t).BoxNan) :
    ∃ r, offroadMetricIe L s = .ok r ∧ (r i).value = Ieee.ofReal F 0 ∧ (r i).valid = true := by
  obtain ⟨r, hr, hc⟩ := offroadIe_cases L s ht hrg hne
  refine ⟨r, hr, ?_, by rw [hc i]⟩
  rw [hc i, isOffroad_false L rg _ fun k pn pp _ => ?_]
  · rfl
  · rcases corner_nan L hi k with h | h
    · left; rw [h, Ieee.nan_sub]
    · right; rw [h, Ieee.nan_sub]

/-- The metric of an object depends on nothing but its own current state and the map, so a broken object does no harm to others. -/
theorem C166_others (L : Libm F.fmt) (s s' : SimState (Ieee F) n T) {t t' : Fin T} (ht : (t : Int) = s.timestep) (ht' : (t' : Int) = s'.timestep)
    (hrg : s.roadgraphPoints = s'.roadgraphPoints) {r r' : Fin n → MetricResultIe F} (hr : offroadMetricIe L s = .ok r)
    (hr' : offroadMetricIe L s' = .ok r') {i : Fin n} (hi : s.simTrajectory i t = s'.simTrajectory i t') : r i = r' i := by
  cases h : s.roadgraphPoints with
  | none => simp [offroadMetricIe, h] at hr
  | some rg =>
    by_cases hne : rg = []
    · simp [offroadMetricIe, h, hne] at hr
    · obtain ⟨q, hq, hc⟩ := offroadIe_cases L s ht h hne
      obtain ⟨q', hq', hc'⟩ := offroadIe_cases L s' ht' (hrg ▸ h) hne
      rw [hr] at hq
      rw [hr'] at hq'
      obtain rfl := Except.ok.inj hq
      obtain rfl := Except.ok.inj hq'
      rw [hc, hc', hi]

/-! ### Broken maps -/

theorem argminAux_get (l : List (Ieee F)) {j : Nat} {v : Ieee F} (h : argminIeAux l = some (j, v)) : l[j]? = some v := by
  induction l generalizing j v with
  | nil => simp [argminIeAux] at h
  | cons x xs ih =>
    rw [argminIeAux] at h
    split at h
    · simp only [Option.some.injEq, Prod.mk.injEq] at h
      rw [← h.1, ← h.2]
      rfl
    · split at h
      · simp only [Option.some.injEq, Prod.mk.injEq] at h
        rw [← h.1, ← h.2]
        rfl
      · rename_i j' v' hj
        split at h
        · simp only [Option.some.injEq, Prod.mk.injEq] at h
          rw [← h.1, ← h.2, List.getElem?_cons_succ]
          exact ih hj
        · simp only [Option.some.injEq, Prod.mk.injEq] at h
          rw [← h.1, ← h.2]
          rfl

theorem isNan_iff (a : Ieee F) : a.isNan = true ↔ a = .nan := by cases a <;> simp [Ieee.isNan]

theorem argminAux_nan {l : List (Ieee F)} (h : Ieee.nan ∈ l) : ∃ j, argminIeAux l = some (j, .nan) := by
  induction l with
  | nil => simp at h
  | cons x xs ih =>
    rw [argminIeAux]
    by_cases hx : x.isNan = true
    · rw [if_pos hx]
      exact ⟨0, by rw [(isNan_iff x).1 hx]⟩
    · rw [if_neg hx]
      rcases List.mem_cons.1 h with h | h
      · rw [← h] at hx
        exact absurd rfl hx
      · obtain ⟨j, hj⟩ := ih h
        rw [hj]
        exact ⟨j + 1, by simp [Ieee.isNan]⟩

theorem argmin_nan {l : List (Ieee F)} (h : Ieee.nan ∈ l) : l[argminIe l]? = some .nan := by
  obtain ⟨j, hj⟩ := argminAux_nan h
  unfold argminIe
  rw [hj]
  exact argminAux_get l hj

/-- Not negative, possibly infinite. -/
def NonNeg (a : Ieee F) : Prop := a = .inf false ∨ ∃ x h, a = .fin x h ∧ 0 ≤ x.val

theorem nonNeg_ofFlt {x : Flt F.fmt} (h : 0 ≤ x.val) : NonNeg (Ieee.ofFlt F x) := by
  unfold Ieee.ofFlt
  split
  · rename_i hs
    exact .inr ⟨x, hs, rfl, h⟩
  · left
    rw [decide_eq_false (not_lt.2 h)]

theorem NonNeg.add {a b : Ieee F} (ha : NonNeg a) (hb : NonNeg b) : NonNeg (a.add b) := by
  rcases ha with rfl | ⟨x, hx, rfl, h1⟩
  · rcases hb with rfl | ⟨y, hy, rfl, h2⟩
    · exact .inl (by simp [Ieee.add])
    · exact .inl rfl
  · rcases hb with rfl | ⟨y, hy, rfl, h2⟩
    · exact .inl rfl
    · exact nonNeg_ofFlt (x := x.add y) (fl_nonneg (add_nonneg h1 h2))

theorem NonNeg.not_nan {a : Ieee F} (h : NonNeg a) : a ≠ .nan := by
  rcases h with rfl | ⟨x, hx, rfl, -⟩ <;> exact nofun

theorem nonNeg_square {a : Ieee F} (h : a ≠ .nan) : NonNeg (a.mul a) := by
  cases a with
  | nan => exact absurd rfl h
  | inf s => exact .inl (by simp [Ieee.mul, Ieee.isZero, Ieee.isNeg])
  | fin x hx => exact nonNeg_ofFlt (x := x.mul x) (fl_nonneg (mul_self_nonneg _))

theorem ofFlt_not_nan (x : Flt F.fmt) : Ieee.ofFlt F x ≠ .nan := by
  unfold Ieee.ofFlt
  split <;> exact nofun

theorem finite_sub {a b : Ieee F} (ha : a.isFinite = true) (hb : b ≠ .nan) : a.sub b ≠ .nan := by
  obtain ⟨x, hx, rfl⟩ := Ieee.finite_iff.1 ha
  cases b with
  | nan => exact absurd rfl hb
  | inf s => exact fun h => by cases s <;> cases h
  | fin y hy => exact ofFlt_not_nan _

theorem mul_two_not_nan {a : Ieee F} (h : a ≠ .nan) : a.mul (Ieee.ofReal F 2) ≠ .nan := by
  have e2 : F.fmt.fl 2 = 2 := by
    have := rep_two_pow F.fmt 1
    rw [pow_one] at this
    exact Format.fl_of_rep this
  obtain ⟨x, hx, h2, hv⟩ := hasVal_round (F := F) (r := 2) (const_small F (by norm_num) (by norm_num))
  rw [h2]
  cases a with
  | nan => exact absurd rfl h
  | inf s =>
    have : x.val ≠ 0 := by rw [hv, e2]; norm_num
    simp [Ieee.mul, Ieee.isZero, this]
  | fin y hy => exact ofFlt_not_nan _

/-- The squared distance of a finite road edge is not NaN, wherever the query point is. -/
theorem squareDistance_not_nan {qx qy qz : Ieee F} (hx : qx ≠ .nan) (hy : qy ≠ .nan) (hz : qz ≠ .nan) {p : RgPoint (Ieee F)} (hp : p.Finite) :
    squareDistanceIe qx qy qz p ≠ .nan := by
  unfold squareDistanceIe
  simp only
  split
  · exact (((nonNeg_square (finite_sub hp.1 hx)).add (nonNeg_square (finite_sub hp.2.1 hy))).add
      (nonNeg_square (mul_two_not_nan (finite_sub hp.2.2 hz)))).not_nan
  · exact nofun

/-- One road-edge point at NaN silences the metric: every object whose height is a number is reported to be on the road, wherever it is. -/
theorem C166_nan_road (L : Libm F.fmt) (s : SimState (Ieee F) n T) {rg : List (RgPoint (Ieee F))} {t : Fin T} (ht : (t : Int) = s.timestep)
    (hrg : s.roadgraphPoints = some rg) (hbad : ∃ p ∈ rg, IsEdgeIe p ∧ p.x = .nan)
    (hgood : ∀ p ∈ rg, IsEdgeIe p → p.x = .nan ∨ p.Finite) :
    ∃ r, offroadMetricIe L s = .ok r ∧ ∀ i, (s.simTrajectory i t).z ≠ .nan → (r i).value = Ieee.ofReal F 0 ∧ (r i).valid = true := by
  obtain ⟨b, hb, hbe, hbx⟩ := hbad
  obtain ⟨r, hr, hc⟩ := offroadIe_cases L s ht hrg (List.ne_nil_of_mem hb)
  refine ⟨r, hr, fun i hz => ⟨?_, by rw [hc i]⟩⟩
  have edge (p : RgPoint (Ieee F)) : (p.valid && isRoadEdge p.type) = true ↔ IsEdgeIe p := by simp [isRoadEdge, IsEdgeIe]
  rw [hc i, isOffroad_false L rg _ fun k pn pp hpn => ?_]
  · rfl
  · generalize (cornersIe L (s.simTrajectory i t).boxIe k).1 = qx at *
    generalize (cornersIe L (s.simTrajectory i t).boxIe k).2 = qy at *
    by_cases hx : qx = .nan
    · left; rw [hx, Ieee.nan_sub]
    by_cases hy : qy = .nan
    · right; rw [hy, Ieee.nan_sub]
    have hmem : Ieee.nan ∈ rg.map (squareDistanceIe qx qy (s.simTrajectory i t).z) := by
      refine List.mem_map.2 ⟨b, hb, ?_⟩
      unfold squareDistanceIe
      simp only [(edge b).2 hbe, if_true, hbx]
      simp
    have hnan := argmin_nan hmem
    rw [List.getElem?_map, hpn] at hnan
    have hd := Option.some.inj hnan
    have hpe : IsEdgeIe pn := by
      rw [← edge]
      by_contra hne
      simp only [squareDistanceIe, hne] at hd
      rw [if_neg not_false] at hd
      cases hd
    rcases hgood pn (List.mem_of_getElem? hpn) hpe with h | h
    · left; rw [h, Ieee.sub_nan]
    · exact absurd hd (squareDistance_not_nan hx hy hz h)

/-! ### Infinite positions -/

theorem argmin_all {l : List (Ieee F)} (h : ∀ a ∈ l, a = .inf false) : argminIe l = 0 := by
  have key : ∀ l : List (Ieee F), (∀ a ∈ l, a = .inf false) → argminIeAux l = none ∨ argminIeAux l = some (0, .inf false) := by
    intro l
    induction l with
    | nil => exact fun _ => .inl rfl
    | cons x xs ih =>
      intro h
      right
      have hx := h x List.mem_cons_self
      rcases ih fun a ha => h a (List.mem_cons_of_mem _ ha) with h' | h' <;>
        rw [argminIeAux, h', hx] <;> simp [Ieee.isNan, Ieee.lt]
  unfold argminIe
  rcases key l h with h | h <;> rw [h] <;> rfl

end

section overflow
variable {F : IeeeFormat} {L : Libm F.fmt}

/-! ### Numbers of moderate size -/

theorem topIe_not_nan (a : WithTop (Flt F.fmt)) : (topIe F a).isNan = false := by
  induction a using WithTop.recTopCoe with
  | top => rfl
  | coe x =>
    change (Ieee.ofFlt F x).isNan = false
    unfold Ieee.ofFlt
    split <;> rfl

theorem topIe_lt {a b : WithTop (Flt F.fmt)} (ha : ∀ x : Flt F.fmt, a = x → |x.val| < 2 ^ F.top)
    (hb : ∀ x : Flt F.fmt, b = x → |x.val| < 2 ^ F.top) : (topIe F a).lt (topIe F b) = true ↔ a < b := by
  induction a using WithTop.recTopCoe with
  | top =>
    induction b using WithTop.recTopCoe with
    | top => simp [topIe, Ieee.lt]
    | coe y =>
      change (Ieee.inf false).lt (Ieee.ofFlt F y) = true ↔ _
      rw [Ieee.ofFlt_small (hb y rfl)]
      simp [Ieee.lt]
  | coe x =>
    induction b using WithTop.recTopCoe with
    | top =>
      change (Ieee.ofFlt F x).lt (Ieee.inf false) = true ↔ _
      rw [Ieee.ofFlt_small (ha x rfl)]
      simp [Ieee.lt]
    | coe y =>
      change (Ieee.ofFlt F x).lt (Ieee.ofFlt F y) = true ↔ _
      rw [(hasVal_ofFlt (ha x rfl)).lt (hasVal_ofFlt (hb y rfl)), decide_eq_true_iff, WithTop.coe_lt_coe]
      rfl

theorem argminAux_mem {β : Type} [LinearOrder β] {l : List β} {j : Nat} {v : β} (h : argminAux l = some (j, v)) : v ∈ l := by
  induction l generalizing j v with
  | nil => simp [argminAux] at h
  | cons x xs ih =>
    rw [argminAux] at h
    split at h
    · simp only [Option.some.injEq, Prod.mk.injEq] at h
      rw [← h.2]
      exact List.mem_cons_self
    · rename_i j' v' hj
      split at h <;> simp only [Option.some.injEq, Prod.mk.injEq] at h <;> rw [← h.2]
      · exact List.mem_cons_of_mem _ (ih hj)
      · exact List.mem_cons_self

theorem argminAux_lift (l : List (WithTop (Flt F.fmt))) (hl : ∀ a ∈ l, ∀ x : Flt F.fmt, a = x → |x.val| < 2 ^ F.top) :
    argminIeAux (l.map (topIe F)) = (argminAux l).map fun jv => (jv.1, topIe F jv.2) := by
  induction l with
  | nil => rfl
  | cons a l ih =>
    rw [List.map_cons, argminIeAux, argminAux, ih fun b hb => hl b (List.mem_cons_of_mem _ hb), topIe_not_nan]
    cases h : argminAux l with
    | none => simp
    | some jv =>
      obtain ⟨j, v⟩ := jv
      have hlt := topIe_lt (hl v (List.mem_cons_of_mem _ (argminAux_mem h))) (hl a List.mem_cons_self)
      simp only [Option.map_some, topIe_not_nan, Bool.false_or, Bool.false_eq_true, if_false]
      by_cases hv : v < a
      · rw [if_pos hv, if_pos (hlt.2 hv)]
        rfl
      · rw [if_neg hv, if_neg fun h => hv (hlt.1 h)]
        rfl

theorem argmin_lift (l : List (WithTop (Flt F.fmt))) (hl : ∀ a ∈ l, ∀ x : Flt F.fmt, a = x → |x.val| < 2 ^ F.top) :
    argminIe (l.map (topIe F)) = argmin l := by
  unfold argminIe argmin
  rw [argminAux_lift l hl]
  cases argminAux l <;> rfl

/-- Moderate query points. -/
structure QueryWithin (B : ℕ) (x y z : Flt F.fmt) (x' y' z' : Ieee F) : Prop where
  x : Small (B + 2) x' x.val
  y : Small (B + 2) y' y.val
  z : Small B z' z.val

theorem fl_two (φ : Format) : φ.fl 2 = 2 := by
  have := rep_two_pow φ 1
  rw [pow_one] at this
  exact Format.fl_of_rep this

theorem squareDistance_lift {B : ℕ} (hB : 2 * B + 9 < F.top) {x y z : Flt F.fmt} {x' y' z' : Ieee F} (hq : QueryWithin B x y z x' y' z')
    {p : RgPoint (Flt F.fmt)} (hp : RoadWithin B p) :
    squareDistanceIe x' y' z' (p.ieee F) = topIe F (squareDistanceFl L.roadKernel x y z p) ∧
    ∀ v : Flt F.fmt, squareDistanceFl L.roadKernel x y z p = v → |v.val| < 2 ^ F.top := by
  unfold squareDistanceIe squareDistanceFl orInfFl
  simp only
  change (if (p.valid && isRoadEdge p.type) = true then _ else _) = _ ∧ _
  split
  · have dx := ((small_ofFlt hp.x (by omega)).mono (by omega)).sub hq.x (by omega)
    have dy := ((small_ofFlt hp.y (by omega)).mono (by omega)).sub hq.y (by omega)
    have dz := (small_ofFlt hp.z (by omega)).sub hq.z (by omega)
    have two : Small 1 (Ieee.ofReal F 2) (F.fmt.fl 2) := ⟨hasVal_round (const_small F (by norm_num) (by norm_num)), by rw [fl_two]; norm_num⟩
    have dz2 := (dz.mul' two (by omega)).mono (l := B + 3) (by omega)
    have h := (((dx.mul' dx (by omega)).add (dy.mul' dy (by omega)) (by omega)).add
      ((dz2.mul' dz2 (by omega)).mono (by omega)) (by omega)).1
    have hsmall := h.small
    refine ⟨?_, fun v hv => ?_⟩
    · exact HasVal.eq (x := L.roadKernel.square3 (p.x.sub x) (p.y.sub y) ((p.z.sub z).mul (Flt.round F.fmt 2))) h
    · rw [← WithTop.coe_inj.1 hv]
      exact hsmall
  · exact ⟨rfl, fun v hv => absurd hv (by simp)⟩

theorem sign_lift {a : Ieee F} {x : Flt F.fmt} (h : HasVal a x.val) : signIe a = Ieee.ofFlt F (signFl x) := by
  have h0 : HasVal (Ieee.ofReal F 0) 0 := by
    rw [Ieee.ofReal_zero]
    exact ⟨_, _, rfl, rfl⟩
  unfold signIe signFl
  rw [h.not_nan, h0.lt h, h.lt h0]
  simp only [Bool.false_eq_true, if_false, decide_eq_true_eq, gt_iff_lt]
  split
  · rfl
  · split
    · rfl
    · rw [Ieee.ofReal_zero]
      exact (Ieee.ofFlt_small _).symm

theorem signFl_small (x : Flt F.fmt) : |(signFl x).val| ≤ 1 := by
  have h1 := abs_fl_le (φ := F.fmt) (x := 1) (k := 0) (by norm_num)
  have h2 := abs_fl_le (φ := F.fmt) (x := -1) (k := 0) (by norm_num)
  rw [pow_zero] at h1 h2
  unfold signFl
  split
  · exact h1
  · split
    · exact h2
    · change |(0 : ℝ)| ≤ 1
      simp

theorem cross_lift {B : ℕ} (hB : 2 * B + 9 < F.top) {x y : Flt F.fmt} {x' y' : Ieee F} (hx : Small (B + 3) x' x.val)
    (hy : Small (B + 3) y' y.val) {p : RgPoint (Flt F.fmt)} (hp : RoadWithin B p) :
    HasVal (crossIe (x', y') ((p.ieee F).dirX, (p.ieee F).dirY)) (L.roadKernel.cross (x, y) (p.dirX, p.dirY)).val := by
  have d1 := small_ofFlt (F := F) (k := 0) (x := p.dirX) (by rw [pow_zero]; exact hp.dirX) (by omega)
  have d2 := small_ofFlt (F := F) (k := 0) (x := p.dirY) (by rw [pow_zero]; exact hp.dirY) (by omega)
  exact ((hx.mul d2 (by omega)).sub (hy.mul d1 (by omega)) (by omega)).1

theorem signedDistanceAt_lift (hL : SaneSqrt L) {B : ℕ} (hB : 2 * B + 9 < F.top) {x y z : Flt F.fmt} {x' y' z' : Ieee F}
    (hq : QueryWithin B x y z x' y' z') {pn pp : RgPoint (Flt F.fmt)} (hn : RoadWithin B pn) (hp : RoadWithin B pp) :
    HasVal (signedDistanceAtIe L (pn.ieee F) (pp.ieee F) x' y')
      ((L.roadKernel.norm (pn.x.sub x, pn.y.sub y)).mul (signFl
        (if pn.id = pp.id ∧ (L.roadKernel.cross (x.sub pn.x, y.sub pn.y) (pp.dirX, pp.dirY)).val <
            (L.roadKernel.cross (x.sub pn.x, y.sub pn.y) (pn.dirX, pn.dirY)).val
          then L.roadKernel.cross (x.sub pn.x, y.sub pn.y) (pp.dirX, pp.dirY)
          else L.roadKernel.cross (x.sub pn.x, y.sub pn.y) (pn.dirX, pn.dirY)))).val := by
  have dx := hq.x.sub ((small_ofFlt hn.x (by omega)).mono (Nat.le_add_right B 2)) (by omega)
  have dy := hq.y.sub ((small_ofFlt hn.y (by omega)).mono (Nat.le_add_right B 2)) (by omega)
  have c1 := cross_lift (L := L) (x := x.sub pn.x) (y := y.sub pn.y) hB dx dy hn
  have c2 := cross_lift (L := L) (x := x.sub pn.x) (y := y.sub pn.y) hB dx dy hp
  have b2 : (2 : ℝ) ^ B ≤ 2 ^ (B + 2) := pow_le_pow_right₀ (by norm_num) (by omega)
  have hd := dist_hasVal (F := F) hL (B := B + 2) (by omega) (a := (pn.x, pn.y)) (b := (x, y)) ⟨hn.x.trans b2, hn.y.trans b2⟩ ⟨hq.x.2, hq.y.2⟩
  rw [← hq.x.1.eq, ← hq.y.1.eq] at hd
  unfold signedDistanceAtIe
  simp only
  generalize L.roadKernel.cross (x.sub pn.x, y.sub pn.y) (pn.dirX, pn.dirY) = u at *
  generalize L.roadKernel.cross (x.sub pn.x, y.sub pn.y) (pp.dirX, pp.dirY) = v at *
  have hc : HasVal (if (decide ((pn.ieee F).id = (pp.ieee F).id) && (crossIe (x'.sub (pn.ieee F).x, y'.sub (pn.ieee F).y)
        ((pp.ieee F).dirX, (pp.ieee F).dirY)).lt (crossIe (x'.sub (pn.ieee F).x, y'.sub (pn.ieee F).y) ((pn.ieee F).dirX, (pn.ieee F).dirY)))
        = true
      then crossIe (x'.sub (pn.ieee F).x, y'.sub (pn.ieee F).y) ((pp.ieee F).dirX, (pp.ieee F).dirY)
      else crossIe (x'.sub (pn.ieee F).x, y'.sub (pn.ieee F).y) ((pn.ieee F).dirX, (pn.ieee F).dirY))
      (if pn.id = pp.id ∧ v.val < u.val then v else u).val := by
    have e : (decide ((pn.ieee F).id = (pp.ieee F).id) && (crossIe (x'.sub (pn.ieee F).x, y'.sub (pn.ieee F).y)
        ((pp.ieee F).dirX, (pp.ieee F).dirY)).lt (crossIe (x'.sub (pn.ieee F).x, y'.sub (pn.ieee F).y) ((pn.ieee F).dirX, (pn.ieee F).dirY)))
        = true ↔ pn.id = pp.id ∧ v.val < u.val := by
      rw [show (crossIe (x'.sub (pn.ieee F).x, y'.sub (pn.ieee F).y) ((pp.ieee F).dirX, (pp.ieee F).dirY)).lt
        (crossIe (x'.sub (pn.ieee F).x, y'.sub (pn.ieee F).y) ((pn.ieee F).dirX, (pn.ieee F).dirY)) = decide (v.val < u.val) from HasVal.lt c2 c1,
        Bool.and_eq_true, decide_eq_true_iff, decide_eq_true_iff]
      rfl
    by_cases hcond : pn.id = pp.id ∧ v.val < u.val
    · rw [if_pos hcond, if_pos (e.2 hcond)]
      exact c2
    · rw [if_neg hcond, if_neg fun h => hcond (e.1 h)]
      exact c1
  rw [sign_lift hc]
  generalize (if pn.id = pp.id ∧ v.val < u.val then v else u) = w at *
  have hs := hasVal_ofFlt (F := F) (x := signFl w) (lt_of_le_of_lt (signFl_small w) (by linarith [Ieee.two_pow_top F]))
  refine hd.mul hs ?_
  have hd' := hd.small
  have key : |F.fmt.fl ((distFl L (pn.x, pn.y) (x, y)).val * (signFl w).val)| ≤ |(distFl L (pn.x, pn.y) (x, y)).val| := by
    have hr : F.fmt.Rep |(distFl L (pn.x, pn.y) (x, y)).val| := by
      rcases abs_choice (distFl L (pn.x, pn.y) (x, y)).val with h | h <;> rw [h]
      · exact (distFl L (pn.x, pn.y) (x, y)).property
      · exact (distFl L (pn.x, pn.y) (x, y)).property.neg
    have hb : |(distFl L (pn.x, pn.y) (x, y)).val * (signFl w).val| ≤ |(distFl L (pn.x, pn.y) (x, y)).val| := by
      rw [abs_mul]
      exact mul_le_of_le_one_right (abs_nonneg _) (signFl_small w)
    rw [abs_le] at hb ⊢
    exact ⟨Format.le_fl_of_rep hr.neg hb.1, Format.fl_le_of_rep hr hb.2⟩
  exact lt_of_le_of_lt key hd'

theorem signedDistance_lift (hL : SaneSqrt L) {B : ℕ} (hB : 2 * B + 9 < F.top) {x y z : Flt F.fmt} {x' y' z' : Ieee F}
    (hq : QueryWithin B x y z x' y' z') {rg : List (RgPoint (Flt F.fmt))} (hrg : ∀ p ∈ rg, RoadWithin B p) :
    (match signedDistanceIe L (rg.map (RgPoint.ieee F)) x' y' z' with
      | some d => (Ieee.ofReal F 0).lt d
      | none => false) = true ↔ ∃ d, signedDistanceFl L.roadKernel rg x y z = some d ∧ d.val > 0 := by
  have hmap : (rg.map (RgPoint.ieee F)).map (squareDistanceIe x' y' z') = (rg.map (squareDistanceFl L.roadKernel x y z)).map (topIe F) := by
    rw [List.map_map, List.map_map]
    exact List.map_congr_left fun p hp => (squareDistance_lift hB hq (hrg p hp)).1
  have harg : argminIe ((rg.map (RgPoint.ieee F)).map (squareDistanceIe x' y' z')) = argmin (rg.map (squareDistanceFl L.roadKernel x y z)) := by
    rw [hmap]
    apply argmin_lift
    intro a ha v hv
    obtain ⟨p, hp, rfl⟩ := List.mem_map.1 ha
    exact (squareDistance_lift hB hq (hrg p hp)).2 v hv
  unfold signedDistanceIe signedDistanceFl
  simp only
  rw [harg, List.getElem?_map, List.getElem?_map]
  generalize argmin (rg.map (squareDistanceFl L.roadKernel x y z)) = j
  cases h1 : rg[j]? with
  | none => simp
  | some pn =>
    cases h2 : rg[j - 1]? with
    | none => simp
    | some pp =>
      have h := signedDistanceAt_lift hL hB hq (hrg pn (List.mem_of_getElem? h1)) (hrg pp (List.mem_of_getElem? h2))
      have h0 : HasVal (Ieee.ofReal F 0) 0 := by
        rw [Ieee.ofReal_zero]
        exact ⟨_, _, rfl, rfl⟩
      simp only [Option.map_some, Option.some.injEq, exists_eq_left']
      rw [h0.lt h, decide_eq_true_iff]

variable {n T : Nat} [NeZero T]

/-- As long as coordinates are moderate, nothing overflows, and the metric is that of the arithmetic without special values (C165). -/
theorem C166_no_overflow (hL : SaneSqrt L ∧ SaneTrig L) {B : ℕ} (hB : 2 * B + 9 < F.top) (s : SimState (Flt F.fmt) n T)
    {rg : List (RgPoint (Flt F.fmt))} {t : Fin T} (ht : (t : Int) = s.timestep) (hrg : s.roadgraphPoints = some rg) (hne : rg ≠ [])
    (hroad : ∀ p ∈ rg, RoadWithin B p) {i : Fin n} (hi : BoxWithin B (s.simTrajectory i t)) (hz : |(s.simTrajectory i t).z.val| ≤ 2 ^ B) :
    ∃ r q, offroadMetricIe L (s.ieeeRoad F) = .ok r ∧ offroadMetricFl L.roadKernel s = .ok q ∧
      (r i).value = Ieee.ofReal F (q i).value ∧ (r i).valid = (q i).valid := by
  have hrg' : (s.ieeeRoad F).roadgraphPoints = some (rg.map (RgPoint.ieee F)) := by
    change s.roadgraphPoints.map _ = _
    rw [hrg]
    rfl
  obtain ⟨r, hr, hc⟩ := offroadIe_cases L (s.ieeeRoad F) (t := t) ht hrg' (by simpa using hne)
  obtain ⟨q, hq, hc'⟩ := offroadFl_cases L.roadKernel s ht hrg hne
  refine ⟨r, q, hr, hq, ?_, by rw [hc i, (hc' i).1]⟩
  have hiff : isOffroadIe L (rg.map (RgPoint.ieee F)) ((s.ieeeRoad F).simTrajectory i t) = true ↔
      isOffroadFl L.roadKernel rg (s.simTrajectory i t) := by
    unfold isOffroadIe isOffroadFl
    rw [List.any_eq_true]
    simp only [List.mem_finRange, true_and]
    refine exists_congr fun k => ?_
    obtain ⟨c1, c2⟩ := corners_small hL.2 (by omega) hi k
    exact signedDistance_lift hL.1 hB (x := (cornersFl L.kernel (s.simTrajectory i t).boxFl k).1)
      (y := (cornersFl L.kernel (s.simTrajectory i t).boxFl k).2) ⟨c1, c2, small_ofFlt hz (by omega)⟩ hroad
  rw [hc i]
  by_cases h : isOffroadFl L.roadKernel rg (s.simTrajectory i t)
  · rw [if_pos (hiff.2 h), (hc' i).2.1.2 h]
  · rw [if_neg fun h' => h (hiff.1 h'), (hc' i).2.2.2 h]

theorem exactLibm_roadKernel (φ : Format) : (exactLibm φ).roadKernel = RoadKernel.rounded φ := rfl

/-! ### Infinite positions -/

theorem corner_infinite (hL : SaneTrig L) {B : ℕ} (hB : B + 4 < F.top) {o : Pt (Flt F.fmt)} (ho : BoxWithin B o) (b : Bool) (k : Fin 4) :
    (cornersIe L ({ o.ieee F with x := .inf b } : Pt (Ieee F)).boxIe k).1 = .inf b ∧
    ∃ y, Small (B + 2) (cornersIe L ({ o.ieee F with x := .inf b } : Pt (Ieee F)).boxIe k).2 y := by
  have hyaw : |o.yaw.val| < 2 ^ F.top := lt_of_le_of_lt ho.yaw (two_pow_lt F (by omega))
  have hc := trig_small hyaw (hL o.yaw).2
  have hs := trig_small hyaw (hL o.yaw).1
  have hl := (small_ofFlt ho.length (by omega)).half (by omega)
  have hw := (small_ofFlt ho.width (by omega)).half (by omega)
  have lc := hl.mul hc (by omega)
  have ls := hl.mul hs (by omega)
  have wc := hw.mul hc (by omega)
  have ws := hw.mul hs (by omega)
  have hy := (small_ofFlt ho.y (by omega)).mono (Nat.le_succ B)
  have key : ∀ {a : Ieee F} {v : ℝ}, HasVal a v → a.add (.inf b) = .inf b := by
    rintro _ _ ⟨x, hx, rfl, -⟩
    rfl
  fin_cases k
  · exact ⟨key (lc.add ws (by omega)).1, _, (ls.sub wc (by omega)).add hy (by omega)⟩
  · exact ⟨key (lc.sub ws (by omega)).1, _, (ls.add wc (by omega)).add hy (by omega)⟩
  · exact ⟨key (lc.neg.sub ws (by omega)).1, _, (ls.neg.add wc (by omega)).add hy (by omega)⟩
  · exact ⟨key (lc.neg.add ws (by omega)).1, _, (ls.neg.sub wc (by omega)).add hy (by omega)⟩

theorem inf_square (b : Bool) : (Ieee.inf b : Ieee F).mul (.inf b) = .inf false := by simp [Ieee.mul, Ieee.isZero, Ieee.isNeg]

theorem inf_add_nonNeg {a : Ieee F} (h : NonNeg a) : (Ieee.inf false).add a = .inf false := by
  rcases h with rfl | ⟨x, hx, rfl, -⟩ <;> simp [Ieee.add]

/-- Every road edge is infinitely far away from a corner at infinity. -/
theorem squareDistance_infinite {b : Bool} {qy qz : Ieee F} (hy : qy ≠ .nan) (hz : qz ≠ .nan) {p : RgPoint (Ieee F)}
    (hp : IsEdgeIe p → p.Finite) : squareDistanceIe (.inf b) qy qz p = .inf false := by
  unfold squareDistanceIe
  simp only
  split
  · rename_i h
    have hf := hp (by simpa [isRoadEdge, IsEdgeIe] using h)
    obtain ⟨x, hx, e⟩ := Ieee.finite_iff.1 hf.1
    have e1 : p.x.sub (.inf b) = .inf !b := by rw [e]; rfl
    rw [e1, inf_square, inf_add_nonNeg (nonNeg_square (finite_sub hf.2.1 hy)),
      inf_add_nonNeg (nonNeg_square (mul_two_not_nan (finite_sub hf.2.2 hz)))]
  · rfl

theorem signedDistanceAt_infinite {B : ℕ} (hB : 2 * B + 9 < F.top) {b : Bool} {qy : Ieee F} {y : ℝ} (hy : Small (B + 2) qy y)
    {p : RgPoint (Flt F.fmt)} (hp : RoadWithin B p) :
    (Ieee.ofReal F 0).lt (signedDistanceAtIe L (p.ieee F) (p.ieee F) (.inf b) qy) = true ↔
      (if b then p.dirY.val < 0 else 0 < p.dirY.val) := by
  obtain ⟨x, hx, ex, -⟩ := (small_ofFlt hp.x (by omega : B < F.top)).1
  have dx : (Ieee.inf b).sub (p.ieee F).x = .inf b := by
    change (Ieee.inf b).sub (Ieee.ofFlt F p.x) = _
    rw [ex]
    rfl
  have dx' : (p.ieee F).x.sub (.inf b) = .inf !b := by
    change (Ieee.ofFlt F p.x).sub (Ieee.inf b) = _
    rw [ex]
    rfl
  have dy := hy.sub ((small_ofFlt hp.y (by omega)).mono (Nat.le_add_right B 2)) (by omega)
  have dy' := ((small_ofFlt hp.y (by omega)).mono (Nat.le_add_right B 2)).sub hy (by omega)
  have d1 := small_ofFlt (F := F) (k := 0) (x := p.dirX) (by rw [pow_zero]; exact hp.dirX) (by omega)
  have ed := Ieee.ofFlt_small (F := F) (x := p.dirY) (lt_of_le_of_lt hp.dirY (by linarith [Ieee.two_pow_top F]))
  have hm := (dy.mul d1 (by omega)).1
  have hdist : distIe L ((p.ieee F).x, (p.ieee F).y) (.inf b, qy) = .inf false := by
    unfold distIe
    simp only
    rw [dx', inf_square, inf_add_nonNeg (nonNeg_square ?_)]
    · rfl
    · obtain ⟨w, hw, e, -⟩ := dy'.1
      change (Ieee.ofFlt F p.y).sub qy ≠ _
      rw [e]
      exact nofun
  have hz0 : Ieee.ofReal F 0 = .fin (Flt.zero F.fmt) (by simp [Flt.zero]) := Ieee.ofReal_zero
  have hone : HasVal (Ieee.ofReal F 1) 1 := by rw [Ieee.ofReal_one]; exact ⟨_, _, rfl, rfl⟩
  have hmone : HasVal (Ieee.ofReal F (-1)) (-1) := by
    have h1 : F.fmt.fl (-1) = -1 := by rw [Format.fl_neg, Format.fl_of_rep (Ieee.rep_one' F.fmt)]
    have := hasVal_round (F := F) (r := -1) (by rw [h1]; simpa using by linarith [Ieee.two_pow_top F])
    rwa [h1] at this
  obtain ⟨mv, hmv, em, -⟩ := hm
  have em' : ((qy.sub (p.ieee F).y).mul (p.ieee F).dirX) = .fin mv hmv := em
  have hcross : crossIe ((Ieee.inf b).sub (p.ieee F).x, qy.sub (p.ieee F).y) ((p.ieee F).dirX, (p.ieee F).dirY) =
      if p.dirY.val = 0 then .nan else .inf (b != decide (p.dirY.val < 0)) := by
    unfold crossIe
    simp only
    rw [dx, em']
    change ((Ieee.inf b).mul (Ieee.ofFlt F p.dirY)).sub _ = _
    rw [ed]
    by_cases h : p.dirY.val = 0
    · rw [if_pos h]
      simp [Ieee.mul, Ieee.isZero, h]
    · rw [if_neg h]
      simp [Ieee.mul, Ieee.isZero, Ieee.isNeg, h, Ieee.sub, Ieee.neg, Ieee.add]
  unfold signedDistanceAtIe
  simp only
  rw [hdist, hcross]
  rw [ite_self]
  have mul_sign : ∀ {a : Ieee F} {v : ℝ}, HasVal a v → v ≠ 0 → (Ieee.inf false).mul a = .inf (decide (v < 0)) := by
    rintro _ _ ⟨w, hw, rfl, rfl⟩ hne
    simp [Ieee.mul, Ieee.isZero, Ieee.isNeg, hne]
  rcases lt_trichotomy p.dirY.val 0 with h | h | h
  · rw [if_neg h.ne]
    have hs : signIe (Ieee.inf (b != decide (p.dirY.val < 0)) : Ieee F) = if b then Ieee.ofReal F 1 else Ieee.ofReal F (-1) := by
      cases b <;> simp [signIe, Ieee.isNan, h, hz0, Ieee.lt]
    rw [hs]
    cases b
    · simp only [Bool.false_eq_true, if_false]
      rw [mul_sign hmone (by norm_num), hz0]
      simp [Ieee.lt, h.le]
    · simp only [if_true]
      rw [mul_sign hone (by norm_num), hz0]
      simp [Ieee.lt, h]
  · rw [if_pos h]
    have hs : signIe (Ieee.nan : Ieee F) = .nan := by simp [signIe, Ieee.isNan]
    rw [hs, Ieee.mul_nan, Ieee.lt_nan]
    cases b <;> simp [h]
  · rw [if_neg h.ne']
    have hs : signIe (Ieee.inf (b != decide (p.dirY.val < 0)) : Ieee F) = if b then Ieee.ofReal F (-1) else Ieee.ofReal F 1 := by
      cases b <;> simp [signIe, Ieee.isNan, not_lt.2 h.le, hz0, Ieee.lt]
    rw [hs]
    cases b
    · simp only [Bool.false_eq_true, if_false]
      rw [mul_sign hone (by norm_num), hz0]
      simp [Ieee.lt, h]
    · simp only [if_true]
      rw [mul_sign hmone (by norm_num), hz0]
      simp [Ieee.lt, h.le]

/-- Exact behaviour: an object infinitely far to the east or west is judged by the direction of the first point of the map, whatever kind
of point that is and whether or not it is valid: off the road if the point heads north and the object is east, or south and west. -/
theorem C166_infinite (hL : SaneTrig L) {B : ℕ} (hB : 2 * B + 9 < F.top) (s : SimState (Ieee F) n T) {first : RgPoint (Flt F.fmt)}
    {rest : List (RgPoint (Ieee F))} {t : Fin T} (ht : (t : Int) = s.timestep) (hrg : s.roadgraphPoints = some (first.ieee F :: rest))
    (hfirst : RoadWithin B first) (hrest : ∀ p ∈ rest, IsEdgeIe p → p.Finite) {i : Fin n} {b : Bool} {o : Pt (Flt F.fmt)} (ho : BoxWithin B o)
    (hz : |o.z.val| ≤ 2 ^ B) (hi : s.simTrajectory i t = { o.ieee F with x := .inf b }) :
    ∃ r, offroadMetricIe L s = .ok r ∧ (r i).valid = true ∧
      (r i).value = if (if b then first.dirY.val < 0 else 0 < first.dirY.val) then Ieee.ofReal F 1 else Ieee.ofReal F 0 := by
  obtain ⟨r, hr, hc⟩ := offroadIe_cases L s ht hrg (by simp)
  refine ⟨r, hr, by rw [hc i], ?_⟩
  have hk : ∀ k : Fin 4, (match signedDistanceIe L (first.ieee F :: rest) (cornersIe L (s.simTrajectory i t).boxIe k).1
        (cornersIe L (s.simTrajectory i t).boxIe k).2 (s.simTrajectory i t).z with
      | some d => (Ieee.ofReal F 0).lt d
      | none => false) = true ↔ (if b then first.dirY.val < 0 else 0 < first.dirY.val) := by
    intro k
    rw [hi]
    obtain ⟨h1, y, h2⟩ := corner_infinite hL (by omega : B + 4 < F.top) ho b k
    rw [h1]
    have hzz := (small_ofFlt hz (by omega : B < F.top)).1
    change HasVal (o.ieee F).z _ at hzz
    have nn : ∀ {a : Ieee F} {v : ℝ}, HasVal a v → a ≠ .nan := by
      rintro _ _ ⟨x, hx, rfl, -⟩
      exact nofun
    have harg : argminIe ((first.ieee F :: rest).map (squareDistanceIe (.inf b)
        (cornersIe L ({ o.ieee F with x := .inf b } : Pt (Ieee F)).boxIe k).2 (o.ieee F).z)) = 0 := by
      apply argmin_all
      intro a ha
      obtain ⟨p, hp, rfl⟩ := List.mem_map.1 ha
      apply squareDistance_infinite (nn h2.1) (nn hzz)
      intro he
      rcases List.mem_cons.1 hp with rfl | hp
      · exact ⟨(small_ofFlt hfirst.x (by omega : B < F.top)).1.finite, (small_ofFlt hfirst.y (by omega : B < F.top)).1.finite,
          (small_ofFlt hfirst.z (by omega : B < F.top)).1.finite⟩
      · exact hrest p hp he
    unfold signedDistanceIe
    simp only
    rw [harg]
    simp only [Nat.zero_sub, List.getElem?_cons_zero]
    exact signedDistanceAt_infinite hB h2 hfirst
  have hoff : isOffroadIe L (first.ieee F :: rest) (s.simTrajectory i t) = true ↔ (if b then first.dirY.val < 0 else 0 < first.dirY.val) := by
    unfold isOffroadIe
    rw [List.any_eq_true]
    constructor
    · rintro ⟨k, -, h⟩
      exact (hk k).1 h
    · exact fun h => ⟨0, List.mem_finRange _, (hk 0).2 h⟩
  rw [hc i]
  by_cases h : (if b then first.dirY.val < 0 else 0 < first.dirY.val)
  · rw [if_pos h, if_pos (hoff.2 h)]
  · rw [if_neg h, if_neg fun h' => h (hoff.1 h')]

end overflow

/-! ### Witnesses -/

/-- The scenario of C165 in single precision with special values. -/
noncomputable def exOffroadIe (x e : Flt float32) : SimState (Ieee binary32) 1 1 := (exOffroadFl x e).ieeeRoad binary32

theorem exOffroad_within (e : ℤ) (he : |e| ≤ 2 ^ 4) : RoadWithin (φ := float32) 4 (edgeFl (int32 e (he.trans (by norm_num)))) := by
  have h : |(e : ℝ)| ≤ 2 ^ 4 := by exact_mod_cast he
  constructor <;> simp only [edgeFl, int32] <;> first | exact h | norm_num

theorem objFl_within (x : ℤ) (hx : |x| ≤ 2 ^ 4) : BoxWithin (φ := float32) 4 (objFl (int32 x (hx.trans (by norm_num)))) := by
  have h : |(x : ℝ)| ≤ 2 ^ 4 := by exact_mod_cast hx
  constructor <;> simp only [objFl, int32] <;> first | exact h | norm_num

/-- Two metres west and two metres east of the edge, no operation overflows and the verdicts are those of C165. -/
example : (∃ r, offroadMetricIe (exactLibm float32) (exOffroadIe (int32 (-2)) (int32 0)) = .ok r ∧ (r 0).value = Ieee.ofReal binary32 0) ∧
    ∃ r, offroadMetricIe (exactLibm float32) (exOffroadIe (int32 2) (int32 0)) = .ok r ∧ (r 0).value = Ieee.ofReal binary32 1 := by
  have hz : ∀ x : Flt float32, |(objFl x).z.val| ≤ 2 ^ 4 := fun x => by simp [objFl, int32]
  have hroad : ∀ p ∈ [edgeFl (int32 0)], RoadWithin (φ := float32) 4 p := fun p hp => by
    rw [List.mem_singleton.1 hp]
    exact exOffroad_within 0 (by decide)
  obtain ⟨⟨q, hq, hv, -⟩, q', hq', hv', -⟩ := exOffroad_verdicts
  constructor
  · obtain ⟨r, q₂, hr, hq₂, h, -⟩ := C166_no_overflow (F := binary32) (L := exactLibm float32) (exactLibm_sane _) (B := 4) (by decide)
      (exOffroadFl (int32 (-2)) (int32 0)) (t := 0) rfl rfl (List.cons_ne_nil _ _) hroad (i := 0) (objFl_within (-2) (by decide)) (hz _)
    change offroadMetricFl (RoadKernel.rounded float32) _ = _ at hq₂
    obtain rfl := Except.ok.inj (hq.symm.trans hq₂)
    exact ⟨r, hr, by rw [h, hv]⟩
  · obtain ⟨r, q₂, hr, hq₂, h, -⟩ := C166_no_overflow (F := binary32) (L := exactLibm float32) (exactLibm_sane _) (B := 4) (by decide)
      (exOffroadFl (int32 2) (int32 0)) (t := 0) rfl rfl (List.cons_ne_nil _ _) hroad (i := 0) (objFl_within 2 (by decide)) (hz _)
    change offroadMetricFl (RoadKernel.rounded float32) _ = _ at hq₂
    obtain rfl := Except.ok.inj (hq'.symm.trans hq₂)
    exact ⟨r, hr, by rw [h, hv']⟩

/-- The object two metres off the road, its position broken. -/
noncomputable def exBrokenRoad (x : Ieee binary32) : SimState (Ieee binary32) 1 1 :=
  { exOffroadIe (int32 2) (int32 0) with simTrajectory := fun _ _ => { (objFl (int32 2)).ieee binary32 with x := x } }

/-- With NaN for its x it is reported to be on the road. -/
theorem C166_full_violated : ¬ C166_full (F := binary32) (exactLibm float32) 1 1 := by
  intro hfull
  obtain ⟨r, hr, h⟩ := C166_nan_object (exactLibm float32) (exBrokenRoad .nan) (t := 0) rfl rfl (List.cons_ne_nil _ _) (i := 0) (.inl rfl)
  exact hfull (exBrokenRoad .nan) 0 r 0 rfl hr (.inl rfl) h

/-- With an infinite x the order of the points of the map decides: a point heading south put first, that is not even valid, turns the
verdict for an object infinitely far to the east. -/
theorem C166_infinite_order : ∃ (s s' : SimState (Ieee binary32) 1 1) (p : RgPoint (Ieee binary32)) (r r' : Fin 1 → MetricResultIe binary32),
    ¬ IsEdgeIe p ∧ s' = { s with roadgraphPoints := s.roadgraphPoints.map fun rg => p :: rg } ∧
    offroadMetricIe (exactLibm float32) s = .ok r ∧ offroadMetricIe (exactLibm float32) s' = .ok r' ∧
    (r 0).value = Ieee.ofReal binary32 1 ∧ (r' 0).value = Ieee.ofReal binary32 0 := by
  have hz : |(objFl (int32 2)).z.val| ≤ 2 ^ 4 := by simp [objFl, int32]
  let p : RgPoint (Flt float32) := { edgeFl (int32 0) with dirY := int32 (-1), valid := false }
  have hp : RoadWithin (φ := float32) 4 p := by
    constructor <;> simp only [p, edgeFl, int32] <;> norm_num
  obtain ⟨r, hr, -, h⟩ := C166_infinite (F := binary32) (L := exactLibm float32) (exactLibm_sane _).2 (B := 4) (by decide)
    (exBrokenRoad (.inf false)) (first := edgeFl (int32 0)) (rest := []) (t := 0) rfl rfl (exOffroad_within 0 (by decide)) (by simp)
    (i := 0) (b := false) (objFl_within 2 (by decide)) hz rfl
  obtain ⟨r', hr', -, h'⟩ := C166_infinite (F := binary32) (L := exactLibm float32) (exactLibm_sane _).2 (B := 4) (by decide)
    { exBrokenRoad (.inf false) with roadgraphPoints := some [p.ieee binary32, (edgeFl (int32 0)).ieee binary32] }
    (first := p) (rest := [(edgeFl (int32 0)).ieee binary32]) (t := 0) rfl rfl hp
    (fun q hq _ => by
      rw [List.mem_singleton.1 hq]
      have hw := exOffroad_within 0 (by decide)
      exact ⟨(small_ofFlt (F := binary32) hw.x (by decide)).1.finite, (small_ofFlt (F := binary32) hw.y (by decide)).1.finite,
        (small_ofFlt (F := binary32) hw.z (by decide)).1.finite⟩)
    (i := 0) (b := false) (objFl_within 2 (by decide)) hz rfl
  refine ⟨_, _, p.ieee binary32, r, r', ?_, rfl, hr, hr', ?_, ?_⟩
  · rintro ⟨h, -⟩
    exact Bool.false_ne_true h
  · rw [h]
    simp [edgeFl, int32]
  · rw [h']
    simp [p, int32]

/-- A NaN road edge next to a sound one: the object two metres off the road is reported to be on it. -/
example : ∃ r, offroadMetricIe (exactLibm float32) { exOffroadIe (int32 2) (int32 0) with
    roadgraphPoints := some [(edgeFl (int32 0)).ieee binary32, { (edgeFl (int32 0)).ieee binary32 with x := .nan }] } = .ok r ∧
    (r 0).value = Ieee.ofReal binary32 0 := by
  obtain ⟨r, hr, h⟩ := C166_nan_road (F := binary32) (exactLibm float32) { exOffroadIe (int32 2) (int32 0) with
    roadgraphPoints := some [(edgeFl (int32 0)).ieee binary32, { (edgeFl (int32 0)).ieee binary32 with x := .nan }] } (t := 0) rfl rfl
    ⟨_, List.mem_cons_of_mem _ List.mem_cons_self, ⟨rfl, .inl rfl⟩, rfl⟩ (fun p hp _ => by
      simp only [List.mem_cons, List.not_mem_nil, or_false] at hp
      rcases hp with rfl | rfl
      · right
        have hw := exOffroad_within 0 (by decide)
        exact ⟨(small_ofFlt (F := binary32) hw.x (by decide)).1.finite, (small_ofFlt (F := binary32) hw.y (by decide)).1.finite,
          (small_ofFlt (F := binary32) hw.z (by decide)).1.finite⟩
      · left
        rfl)
  refine ⟨r, hr, (h 0 (ofFlt_not_nan _)).1⟩

end Waymax
