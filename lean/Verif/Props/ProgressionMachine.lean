import Verif.Spec.ProgressionMachine
import Verif.Props.MetricsMachine
/-
C167: route progression in machine arithmetic.
-/

namespace Waymax

open Real

section
variable {φ : Format} {L : Libm φ} {ε : ℝ}

theorem distFl_comm (a b : Flt φ × Flt φ) : distFl L a b = distFl L b a := by
  have key : ∀ x y : Flt φ, (x.sub y).mul (x.sub y) = (y.sub x).mul (y.sub x) := fun x y => by
    apply Subtype.ext
    show φ.fl (φ.fl (x.val - y.val) * φ.fl (x.val - y.val)) = φ.fl (φ.fl (y.val - x.val) * φ.fl (y.val - x.val))
    rw [← neg_sub y.val x.val, Format.fl_neg, neg_mul_neg]
  unfold distFl speedFl
  rw [key a.1 b.1, key a.2 b.2]

/-- If a computed distance is not above another one, the exact one is not clearly larger. -/
theorem notClearlyLarger (h : L.Accurate ε) {a b c : Flt φ × Flt φ} (hle : (distFl L a b).val ≤ (distFl L a c).val) :
    NotClearlyLarger ε (dist2 (a.1.val, a.2.val) (b.1.val, b.2.val)) (dist2 (a.1.val, a.2.val) (c.1.val, c.2.val)) := by
  have h1 := abs_le.1 (distFl_close h a b)
  have h2 := abs_le.1 (distFl_close h a c)
  unfold NotClearlyLarger
  linarith [h1.1, h2.2]

/-- A point of machine numbers, seen as a point of real numbers. -/
def PathPoint.exact (p : PathPoint (Flt φ)) : PathPoint ℝ :=
  { x := p.x.val, y := p.y.val, z := p.z.val, id := p.id, valid := p.valid, arcLength := p.arcLength.val }

theorem SdcPath.exact_points (path : SdcPath (Flt φ)) : path.exact.points = path.points.map PathPoint.exact := rfl

/-- The computed arc length is that of a valid point that is nearest up to the tolerance. -/
theorem arclengthFl_nearest (h : L.Accurate ε) (path : SdcPath (Flt φ)) (xy : Flt φ × Flt φ) (hv : ∃ p ∈ path.points, p.valid = true) :
    ∃ p, NearlyNearestOn ε path.exact (xy.1.val, xy.2.val) p ∧ (arclengthForPtsFl L xy path).val = p.arcLength := by
  obtain ⟨q, hq, hqv⟩ := hv
  have hne : (path.points.map fun p => orInfFl p.valid (distFl L xy (p.x, p.y))) ≠ [] := by
    intro h; rw [List.map_eq_nil_iff] at h; rw [h] at hq; simp at hq
  obtain ⟨v, h1, h2, -⟩ := argmin_spec hne
  unfold arclengthForPtsFl
  set k := argmin (path.points.map fun p => orInfFl p.valid (distFl L xy (p.x, p.y))) with hk
  rw [List.getElem?_map, Option.map_eq_some_iff] at h1
  obtain ⟨p, hp, hpv⟩ := h1
  have hfin : v ≤ orInfFl q.valid (distFl L xy (q.x, q.y)) := h2 _ (List.mem_map.2 ⟨q, hq, rfl⟩)
  have hpval : p.valid = true := by
    by_contra hc
    rw [← hpv, hqv] at hfin
    simp [orInfFl, hc] at hfin
  have hvd : v = ((distFl L xy (p.x, p.y) : Flt φ) : WithTop (Flt φ)) := by rw [← hpv, hpval]; rfl
  refine ⟨p.exact, ⟨List.mem_map_of_mem (List.mem_of_getElem? hp), hpval, ?_⟩, by rw [hp]; rfl⟩
  intro q' hq' hqv'
  obtain ⟨q0, hq0, rfl⟩ := List.mem_map.1 hq'
  have := h2 _ (List.mem_map.2 ⟨q0, hq0, rfl⟩)
  have hv0 : q0.valid = true := hqv'
  rw [hvd, hv0, orInfFl, if_pos rfl] at this
  have hle : distFl L xy (p.x, p.y) ≤ distFl L xy (q0.x, q0.y) := WithTop.coe_le_coe.1 this
  exact notClearlyLarger h (b := (p.x, p.y)) (c := (q0.x, q0.y)) hle

theorem Libm.Accurate.u_lt (h : L.Accurate ε) : φ.u ≤ 1 / 4194304 := by
  have := h.unit.trans h.small
  rwa [show (2 : ℝ) ^ (-22 : ℤ) = 1 / 4194304 by norm_num] at this

/-- Different numbers have a nonzero difference in machine arithmetic: there is gradual underflow. -/
theorem fl_sub_ne_zero (h : L.Accurate ε) {a b : Flt φ} (hne : a.val ≠ b.val) : (a.sub b).val ≠ 0 := by
  intro h0
  have h1 : |φ.fl (a.val - b.val) - (a.val - b.val)| ≤ φ.u * |a.val - b.val| := Format.fl_sub_rel a.property b.property
  have h0' : φ.fl (a.val - b.val) = 0 := h0
  rw [h0', zero_sub, abs_neg] at h1
  have := h.u_lt
  have hp : 0 < |a.val - b.val| := abs_pos.2 (sub_ne_zero.2 hne)
  nlinarith

theorem fltOne_val (h : L.Accurate ε) : (Flt.one φ).val = 1 := h.round_one

/-- The computed fraction is close to the exact one. -/
theorem progressFl_close (h : L.Accurate ε) (c s e : Flt φ) :
    |(progressFl c s e).val - fractionCovered c.val s.val e.val| ≤ fractionTolerance φ ε (fractionCovered c.val s.val e.val) := by
  have h0 := h.pos
  have hemin := Format.two_zpow_pos φ.emin
  unfold progressFl fractionCovered fractionTolerance
  by_cases hes : e.val = s.val
  · rw [if_pos hes, if_pos hes, fltOne_val h]
    simp only [sub_self, abs_zero, abs_one]
    linarith
  rw [if_neg hes, if_neg hes]
  have hN : |φ.fl (c.val - s.val) - (c.val - s.val)| ≤ φ.u * |c.val - s.val| := Format.fl_sub_rel c.property s.property
  have hD : |φ.fl (e.val - s.val) - (e.val - s.val)| ≤ φ.u * |e.val - s.val| := Format.fl_sub_rel e.property s.property
  have hQ := φ.fl_err_tiny (φ.fl (c.val - s.val) / φ.fl (e.val - s.val))
  show |φ.fl (φ.fl (c.val - s.val) / φ.fl (e.val - s.val)) - _| ≤ _
  have hd0 : e.val - s.val ≠ 0 := sub_ne_zero.2 hes
  have hu := h.u_lt
  have hu0 := φ.u_pos
  have hue := h.unit
  generalize e.val - s.val = d at *
  generalize c.val - s.val = m at *
  generalize φ.fl m = m' at *
  generalize hd' : φ.fl d = d' at *
  have dpos : 0 < |d| := abs_pos.2 hd0
  have hd1 : (1 - φ.u) * |d| ≤ |d'| := by
    have := abs_sub_abs_le_abs_sub d d'
    rw [abs_sub_comm] at this
    linarith
  have d'pos : 0 < |d'| := lt_of_lt_of_le (mul_pos (by linarith) dpos) hd1
  have hd'0 : d' ≠ 0 := abs_pos.1 d'pos
  -- the quotient of the rounded differences
  have e1 : |m' / d' - m / d| ≤ (2 * φ.u) / (1 - φ.u) * |m / d| := by
    have : m' / d' - m / d = ((m' - m) * d - m * (d' - d)) / (d' * d) := by field_simp; ring
    rw [this, abs_div, abs_mul, div_le_iff₀ (mul_pos d'pos dpos)]
    have t1 : |(m' - m) * d - m * (d' - d)| ≤ 2 * φ.u * |m| * |d| := by
      refine (abs_sub _ _).trans ?_
      rw [abs_mul, abs_mul]
      have a1 := mul_le_mul_of_nonneg_right hN (abs_nonneg d)
      have a2 := mul_le_mul_of_nonneg_left hD (abs_nonneg m)
      linarith
    refine t1.trans ?_
    rw [abs_div]
    have a3 : 2 * φ.u / (1 - φ.u) * (|m| / |d|) * (|d'| * |d|) = 2 * φ.u * |m| * (|d'| / (1 - φ.u)) := by
      have : (1 - φ.u) ≠ 0 := by linarith
      field_simp
    rw [a3]
    apply mul_le_mul_of_nonneg_left _ (by positivity)
    rw [le_div_iff₀ (by linarith)]
    linarith
  have e2 : 2 * φ.u / (1 - φ.u) ≤ 5 / 2 * φ.u := by
    rw [div_le_iff₀ (by linarith)]
    nlinarith
  have e3 : |m' / d' - m / d| ≤ 5 / 2 * φ.u * |m / d| := e1.trans (mul_le_mul_of_nonneg_right e2 (abs_nonneg _))
  have e4 : |m' / d'| ≤ (1 + 5 / 2 * φ.u) * |m / d| := by
    have := abs_sub_abs_le_abs_sub (m' / d') (m / d)
    linarith
  generalize m' / d' = Q' at *
  generalize m / d = Q at *
  generalize φ.fl Q' = R at *
  have e5 : |R - Q| ≤ |R - Q'| + |Q' - Q| := abs_sub_le _ _ _
  have e6 := mul_le_mul_of_nonneg_left e4 hu0.le
  have e7 : φ.u * ((1 + 5 / 2 * φ.u) * |Q|) ≤ 3 / 2 * φ.u * |Q| := by
    have := mul_nonneg hu0.le (abs_nonneg Q)
    nlinarith
  have e8 := mul_le_mul_of_nonneg_right hue (abs_nonneg Q)
  linarith

/-- The computed fraction stays between 0 and 1 where the exact one does. -/
theorem progressFl_range (h : L.Accurate ε) {c s e : Flt φ} (h1 : s.val ≤ c.val) (h2 : c.val ≤ e.val) :
    0 ≤ (progressFl c s e).val ∧ (progressFl c s e).val ≤ 1 := by
  unfold progressFl
  by_cases hes : e.val = s.val
  · rw [if_pos hes, fltOne_val h]
    norm_num
  rw [if_neg hes]
  have hlt : s.val < e.val := lt_of_le_of_ne (h1.trans h2) fun hc => hes hc.symm
  have hn : 0 ≤ φ.fl (c.val - s.val) := by
    have := Format.fl_mono (φ := φ) (sub_nonneg.2 h1)
    rwa [Format.fl_zero] at this
  have hd : φ.fl (c.val - s.val) ≤ φ.fl (e.val - s.val) := Format.fl_mono (by linarith)
  have hd0 : 0 < φ.fl (e.val - s.val) := lt_of_le_of_ne (hn.trans hd) fun hc => fl_sub_ne_zero h hes hc.symm
  have h1' : φ.fl 1 = 1 := h.round_one
  constructor
  · have := Format.fl_mono (φ := φ) (div_nonneg hn hd0.le)
    rwa [Format.fl_zero] at this
  · have := Format.fl_mono (φ := φ) ((div_le_one hd0).2 hd)
    rwa [h1'] at this

theorem progressFl_end (h : L.Accurate ε) (s e : Flt φ) : (progressFl e s e).val = 1 := by
  unfold progressFl
  split
  · exact fltOne_val h
  · rename_i hes
    show φ.fl ((e.sub s).val / (e.sub s).val) = 1
    rw [div_self (fl_sub_ne_zero h hes)]
    exact h.round_one

theorem progressFl_start (h : L.Accurate ε) (s e : Flt φ) : (progressFl s s e).val = 0 ∨ (progressFl s s e).val = 1 ∧ e.val = s.val := by
  unfold progressFl
  split
  · rename_i hes
    exact Or.inr ⟨fltOne_val h, hes⟩
  · left
    show φ.fl ((s.sub s).val / (e.sub s).val) = 0
    rw [Flt.sub_self, zero_div, Format.fl_zero]

variable {n T : Nat}

theorem sdcXyLogFl_eq (h : L.Accurate ε) {s : SimState (Flt φ) n T} {k : Fin n} (hk : IsTheSdc s k) (t : Fin T) :
    sdcXyLogFl s t = ((s.logTrajectory k t).x, (s.logTrajectory k t).y) := by
  unfold sdcXyLogFl
  rw [selectByOnehotFl_eq h _ _ k hk, selectByOnehotFl_eq h _ _ k hk]

variable [NeZero T]

/-- The metric in terms of one path of machine numbers. -/
theorem progressionFl_eq (h : L.Accurate ε) {s : SimState (Flt φ) n T} {k : Fin n} (hk : IsTheSdc s k) {t : Fin T} (ht : (t : Int) = s.timestep)
    {paths : List (SdcPath (Flt φ))} (hp : s.sdcPaths = some paths) (hne : ∃ path ∈ paths, path.points ≠ [])
    {first last : Fin T} (hf : first.val = 0) (hl : last.val + 1 = T) :
    let on := exactDistances paths (fun p => p.onRoute = true) (s.simTrajectory k t).exactXy
    (progressionMetricFl L s = .ok ⟨Flt.zero φ, false⟩ ∧ ¬ ((s.simTrajectory k t).valid = true ∧ on.Nonempty)) ∨
    ∃ path : SdcPath (Flt φ), path ∈ paths ∧ NearlyReferencePath ε (paths.map SdcPath.exact) (s.simTrajectory k t).exactXy path.exact ∧
      (∃ p ∈ path.points, p.valid = true) ∧ (s.simTrajectory k t).valid = true ∧ on.Nonempty ∧
      progressionMetricFl L s = .ok ⟨progressFl
        (arclengthForPtsFl L ((s.simTrajectory k t).x, (s.simTrajectory k t).y) path)
        (arclengthForPtsFl L ((s.logTrajectory k first).x, (s.logTrajectory k first).y) path)
        (arclengthForPtsFl L ((s.logTrajectory k last).x, (s.logTrajectory k last).y) path), true⟩ := by
  intro on
  have hfirst : (⟨0, Nat.pos_of_ne_zero (NeZero.ne T)⟩ : Fin T) = first := Fin.ext hf.symm
  have hlast : (⟨T - 1, Nat.sub_lt (Nat.pos_of_ne_zero (NeZero.ne T)) one_pos⟩ : Fin T) = last := Fin.ext (by simp only; omega)
  have hpne : paths ≠ [] := by obtain ⟨path, h, -⟩ := hne; exact List.ne_nil_of_mem h
  unfold progressionMetricFl
  simp only [hp, noPathPointsFl_false hne, sdcXyCurrentFl_eq h hk ht, sdcValidCurrentFl_eq hk ht, hfirst, hlast, sdcXyLogFl_eq h hk]
  cases hv : (s.simTrajectory k t).valid with
  | false =>
    left
    simp only [Bool.false_eq_true, if_false]
    have htop : (minOverPathsFl paths fun _ _ => (⊤ : WithTop (Flt φ))) = ⊤ := by
      rcases listMin_cases (paths.flatMap fun path => path.points.map fun _ => (⊤ : WithTop (Flt φ))) with ⟨h1, -⟩ | ⟨d, -, h2, -⟩
      · exact h1
      · simp [List.mem_flatMap] at h2
    have hlen := argmin_lt (xs := paths.map fun path => listMin (path.points.map fun _ => (⊤ : WithTop (Flt φ))))
      (by simpa using hpne)
    rw [List.length_map] at hlen
    refine ⟨?_, by simp⟩
    rw [List.getElem?_eq_getElem hlen, htop]
  | true =>
    simp only [if_true, true_and]
    set xy : Flt φ × Flt φ := ((s.simTrajectory k t).x, (s.simTrajectory k t).y) with hxy
    set g : SdcPath (Flt φ) → PathPoint (Flt φ) → WithTop (Flt φ) :=
      fun path p => orInfFl (p.valid && path.onRoute) (distFl L (p.x, p.y) xy) with hg
    set f : SdcPath (Flt φ) → WithTop (Flt φ) := fun path => listMin (path.points.map fun p => g path p) with hfdef
    have hmapne : paths.map f ≠ [] := by simpa using hpne
    obtain ⟨v, g1, g2, -⟩ := argmin_spec hmapne
    rw [List.getElem?_map, Option.map_eq_some_iff] at g1
    obtain ⟨path, hpath, hpv⟩ := g1
    rw [hpath]
    simp only
    have hpm := List.mem_of_getElem? hpath
    have gval : ∀ path p, g path p = ⊤ ∨ p.valid = true ∧ path.onRoute = true ∧ g path p = (distFl L xy (p.x, p.y) : WithTop (Flt φ)) := by
      intro path p
      simp only [hg]
      cases hpv : p.valid <;> cases hpo : path.onRoute
      · left; rfl
      · left; rfl
      · left; rfl
      · right; exact ⟨rfl, rfl, by rw [distFl_comm]; rfl⟩
    have gfin : ∀ path p, p.valid = true → path.onRoute = true → g path p = (distFl L xy (p.x, p.y) : WithTop (Flt φ)) := by
      intro path p h1 h2
      simp only [hg, h1, h2]
      rw [distFl_comm]
      rfl
    rcases listMin_cases (paths.flatMap fun path => path.points.map fun p => g path p) with ⟨h1, h2⟩ | ⟨d, h1, h2, h3⟩
    · left
      constructor
      · have : minOverPathsFl paths g = ⊤ := h1
        rw [this]
        rfl
      · rintro ⟨d, path', hp', hon, p', hpp', hval, -⟩
        obtain ⟨path0, hm0, rfl⟩ := List.mem_map.1 hp'
        obtain ⟨p0, hpm0, rfl⟩ := List.mem_map.1 hpp'
        have := h2 (g path0 p0) (List.mem_flatMap.2 ⟨path0, hm0, List.mem_map_of_mem hpm0⟩)
        rw [gfin path0 p0 hval hon] at this
        exact WithTop.coe_ne_top this
    · right
      have hmin : minOverPathsFl paths g = d := h1
      obtain ⟨path1, hm1, hd1⟩ := List.mem_flatMap.1 h2
      obtain ⟨p1, hpm1, hd1'⟩ := List.mem_map.1 hd1
      have hle1 : f path1 ≤ d := hd1' ▸ listMin_le (List.mem_map_of_mem hpm1)
      have hvle : v ≤ d := (g2 _ (List.mem_map_of_mem hm1)).trans hle1
      have hfv : f path ≤ d := hpv.trans_le hvle
      rcases listMin_cases (path.points.map fun p => g path p) with ⟨k1, -⟩ | ⟨d', k1, k2, -⟩
      · exfalso
        have : f path = ⊤ := k1
        rw [this] at hfv
        exact absurd (top_le_iff.1 hfv) WithTop.coe_ne_top
      obtain ⟨p, hpp, hpd⟩ := List.mem_map.1 k2
      rcases gval path p with hc | ⟨hval, hon, hgd⟩
      · rw [hc] at hpd
        exact absurd hpd WithTop.top_ne_coe
      have hfp : f path = (distFl L xy (p.x, p.y) : WithTop (Flt φ)) := by rw [← hgd, hpd]; exact k1
      refine ⟨path, hpm, ⟨List.mem_map_of_mem hpm, hon, p.exact, List.mem_map_of_mem hpp, hval, ?_⟩, ⟨p, hpp, hval⟩,
        ⟨_, path.exact, List.mem_map_of_mem hpm, hon, p.exact, List.mem_map_of_mem hpp, hval, rfl⟩, ?_⟩
      · intro path' hp' hon' q hq hqv
        obtain ⟨path0, hm0, rfl⟩ := List.mem_map.1 hp'
        obtain ⟨q0, hq0, rfl⟩ := List.mem_map.1 hq
        have hle := h3 (g path0 q0) (List.mem_flatMap.2 ⟨path0, hm0, List.mem_map_of_mem hq0⟩)
        rw [gfin path0 q0 hqv hon'] at hle
        have := hfv.trans hle
        rw [hfp] at this
        have hle' : distFl L xy (p.x, p.y) ≤ distFl L xy (q0.x, q0.y) := WithTop.coe_le_coe.1 this
        exact notClearlyLarger h (a := xy) (b := (p.x, p.y)) (c := (q0.x, q0.y)) hle'
      · rw [hmin]
        rfl

/-- C167: `sdc_progression` in machine arithmetic. It is valid iff the car is and some on-route point is valid, as in exact arithmetic;
otherwise it is 0. When valid there are an on-route path and points on it that are nearest to the car, to its logged start and to its
logged end up to the tolerance of a computed distance, and the value is the fraction of arc length covered up to the tolerance of a
computed fraction. The fraction is between 0 and 1, without tolerance, whenever the three arc lengths are in order. -/
theorem C167_progression (h : L.Accurate ε) {s : SimState (Flt φ) n T} {k : Fin n} (hk : IsTheSdc s k) {t : Fin T} (ht : (t : Int) = s.timestep)
    {paths : List (SdcPath (Flt φ))} (hp : s.sdcPaths = some paths) (hne : ∃ path ∈ paths, path.points ≠ [])
    {first last : Fin T} (hf : first.val = 0) (hl : last.val + 1 = T) :
    let sdc := (s.simTrajectory k t).exactXy
    ∃ r, progressionMetricFl L s = .ok r ∧
      (r.valid = true ↔ (s.simTrajectory k t).valid = true ∧ (exactDistances paths (fun p => p.onRoute = true) sdc).Nonempty) ∧
      (r.valid = false → r.value.val = 0) ∧
      (r.valid = true → ∃ path pc ps pe, NearlyReferencePath ε (paths.map SdcPath.exact) sdc path ∧
        NearlyNearestOn ε path sdc pc ∧ NearlyNearestOn ε path (s.logTrajectory k first).exactXy ps ∧
        NearlyNearestOn ε path (s.logTrajectory k last).exactXy pe ∧
        (let f := fractionCovered pc.arcLength ps.arcLength pe.arcLength
         |r.value.val - f| ≤ fractionTolerance φ ε f) ∧
        (ps.arcLength ≤ pc.arcLength → pc.arcLength ≤ pe.arcLength → 0 ≤ r.value.val ∧ r.value.val ≤ 1)) := by
  intro sdc
  rcases progressionFl_eq h hk ht hp hne hf hl with ⟨he, hn⟩ | ⟨path, hm, href, hval, hv, hon, he⟩
  · refine ⟨_, he, ?_, fun _ => rfl, by simp⟩
    simp only [Bool.false_eq_true, false_iff]
    exact hn
  · refine ⟨_, he, by simp only [true_iff]; exact ⟨hv, hon⟩, by simp, fun _ => ?_⟩
    obtain ⟨pc, hc, hc'⟩ := arclengthFl_nearest h path ((s.simTrajectory k t).x, (s.simTrajectory k t).y) hval
    obtain ⟨ps, hs, hs'⟩ := arclengthFl_nearest h path ((s.logTrajectory k first).x, (s.logTrajectory k first).y) hval
    obtain ⟨pe, hE, hE'⟩ := arclengthFl_nearest h path ((s.logTrajectory k last).x, (s.logTrajectory k last).y) hval
    refine ⟨path.exact, pc, ps, pe, href, hc, hs, hE, ?_, ?_⟩
    · rw [← hc', ← hs', ← hE']
      exact progressFl_close h _ _ _
    · rw [← hc', ← hs', ← hE']
      exact progressFl_range h

/-- C167: rounding does not touch the two ends. At the logged end the computed progress is exactly 1; at the logged start it is exactly 0,
or exactly 1 if start and end have the same arc length. -/
theorem C167_start_and_end (h : L.Accurate ε) {s : SimState (Flt φ) n T} {k : Fin n} (hk : IsTheSdc s k) {t : Fin T}
    (ht : (t : Int) = s.timestep) {paths : List (SdcPath (Flt φ))} (hp : s.sdcPaths = some paths) (hne : ∃ path ∈ paths, path.points ≠ [])
    {first last : Fin T} (hf : first.val = 0) (hl : last.val + 1 = T) {r : MetricResultFl φ} (hr : progressionMetricFl L s = .ok r)
    (hv : r.valid = true) :
    ((s.simTrajectory k t).exactXy = (s.logTrajectory k last).exactXy → r.value.val = 1) ∧
    ((s.simTrajectory k t).exactXy = (s.logTrajectory k first).exactXy → r.value.val = 0 ∨ r.value.val = 1) := by
  have hxy : ∀ p q : Pt (Flt φ), p.exactXy = q.exactXy → (p.x, p.y) = (q.x, q.y) := fun p q hpq => by
    obtain ⟨h1, h2⟩ := Prod.mk.inj hpq
    rw [Subtype.ext h1, Subtype.ext h2]
  rcases progressionFl_eq h hk ht hp hne hf hl with ⟨he, hn⟩ | ⟨path, -, -, -, -, -, he⟩
  · rw [hr] at he
    obtain rfl := Except.ok.inj he
    cases hv
  · rw [hr] at he
    obtain rfl := Except.ok.inj he
    constructor
    · intro heq
      rw [hxy _ _ heq]
      exact progressFl_end h _ _
    · intro heq
      rw [hxy _ _ heq]
      rcases progressFl_start h (arclengthForPtsFl L ((s.logTrajectory k first).x, (s.logTrajectory k first).y) path)
        (arclengthForPtsFl L ((s.logTrajectory k last).x, (s.logTrajectory k last).y) path) with h0 | ⟨h1, -⟩
      · exact Or.inl h0
      · exact Or.inr h1

/-- The full expectation: the computed progress is that of exact geometry, up to the tolerance of a fraction. -/
def ProgressComputedExactly (L : Libm φ) (ε : ℝ) : Prop :=
  ∀ {T : Nat} [NeZero T] (s : SimState (Flt φ) 1 T) (t first last : Fin T) (paths : List (SdcPath (Flt φ))) (r : MetricResultFl φ)
    (path : SdcPath ℝ) (pc ps pe : PathPoint ℝ), IsTheSdc s 0 → (t : Int) = s.timestep → first.val = 0 → last.val + 1 = T →
    s.sdcPaths = some paths → progressionMetricFl L s = .ok r → r.valid = true →
    IsReferencePath (paths.map SdcPath.exact) (s.simTrajectory 0 t).exactXy path →
    IsNearestOn path (s.simTrajectory 0 t).exactXy pc → IsNearestOn path (s.logTrajectory 0 first).exactXy ps →
    IsNearestOn path (s.logTrajectory 0 last).exactXy pe →
    let f := fractionCovered pc.arcLength ps.arcLength pe.arcLength
    |r.value.val - f| ≤ fractionTolerance φ ε f

/-- C167: where the nearest path and the nearest points are clear, the computed progress is that of exact geometry up to the tolerance of a
fraction. Missing: positions about equally near to several points of the path, see `C167_progress_violated`. -/
theorem C167_agrees_partial (h : L.Accurate ε) {s : SimState (Flt φ) n T} {k : Fin n} (hk : IsTheSdc s k) {t : Fin T}
    (ht : (t : Int) = s.timestep) {paths : List (SdcPath (Flt φ))} (hp : s.sdcPaths = some paths) (hne : ∃ path ∈ paths, path.points ≠ [])
    {first last : Fin T} (hf : first.val = 0) (hl : last.val + 1 = T) {r : MetricResultFl φ} (hr : progressionMetricFl L s = .ok r)
    (hv : r.valid = true) {path : SdcPath ℝ} {c st e : ℝ}
    (hpath : ∀ path', NearlyReferencePath ε (paths.map SdcPath.exact) (s.simTrajectory k t).exactXy path' → path' = path)
    (hc : ∀ p, NearlyNearestOn ε path (s.simTrajectory k t).exactXy p → p.arcLength = c)
    (hs : ∀ p, NearlyNearestOn ε path (s.logTrajectory k first).exactXy p → p.arcLength = st)
    (he : ∀ p, NearlyNearestOn ε path (s.logTrajectory k last).exactXy p → p.arcLength = e) :
    |r.value.val - fractionCovered c st e| ≤ fractionTolerance φ ε (fractionCovered c st e) := by
  obtain ⟨r', hr', -, -, h1⟩ := C167_progression h hk ht hp hne hf hl
  rw [hr] at hr'
  obtain rfl := Except.ok.inj hr'
  obtain ⟨path', pc, ps, pe, h2, h3, h4, h5, h6, -⟩ := h1 hv
  obtain rfl := hpath _ h2
  rw [hc _ h3, hs _ h4, he _ h5] at h6
  exact h6

end

/-! ### A car far away from a path of two points -/

/-- A point on the first axis at the given arc length. -/
noncomputable def axisPoint (x arc : Flt float32) : PathPoint (Flt float32) :=
  { x, y := quarter 0, z := quarter 0, id := 0, valid := true, arcLength := arc }

/-- The machine number 2²⁴. -/
noncomputable def farFl : Flt float32 := ⟨2 ^ 24, 1, 24, by decide, by decide, by norm_num⟩

/-- Points at -1 m and 0 m, at arc lengths 0 and 100. -/
noncomputable def twoPointPath : SdcPath (Flt float32) :=
  { points := [axisPoint (quarter (-4)) (quarter 0), axisPoint (quarter 0) (quarter 400)], onRoute := true }

/-- A car at `x`, logged to go from the first to the second point of the path. -/
noncomputable def twoPointScen (x : Flt float32) : SimState (Flt float32) 1 2 :=
  { simTrajectory := fun _ _ => quarterPt x (quarter 0) (quarter 0)
    logTrajectory := fun _ t => quarterPt (![quarter (-4), quarter 0] t) (quarter 0) (quarter 0)
    logTrafficLight := []
    objectMetadata := soloMeta
    timestep := 0
    sdcPaths := some [twoPointPath]
    roadgraphPoints := none }

theorem twoPointScen_sdc (x : Flt float32) : IsTheSdc (twoPointScen x) 0 := fun i => by
  simp only [twoPointScen, soloMeta, true_iff]
  exact Subsingleton.elim _ _

theorem dist2_axis (a b c : ℝ) : dist2 (a, c) (b, c) = |a - b| := by
  unfold dist2
  simp only [sub_self, zero_pow two_ne_zero, add_zero]
  exact Real.sqrt_sq_eq_abs _

/-- Which of the two points is chosen. -/
theorem arclength_two {L : Libm float32} (xy : Flt float32 × Flt float32) :
    let d1 := distFl L xy (quarter (-4), quarter 0)
    let d2 := distFl L xy (quarter 0, quarter 0)
    (d1.val ≤ d2.val → arclengthForPtsFl L xy twoPointPath = quarter 0) ∧ (d2.val < d1.val → arclengthForPtsFl L xy twoPointPath = quarter 400) := by
  intro d1 d2
  have e : arclengthForPtsFl L xy twoPointPath =
      (([axisPoint (quarter (-4)) (quarter 0), axisPoint (quarter 0) (quarter 400)][argmin [(d1 : WithTop (Flt float32)), d2]]?).map
        PathPoint.arcLength).getD (Flt.zero float32) := rfl
  have e2 : argmin [(d1 : WithTop (Flt float32)), d2] = if (d2 : WithTop (Flt float32)) < d1 then 1 else 0 := by
    show ((if (d2 : WithTop (Flt float32)) < d1 then some (0 + 1, (d2 : WithTop (Flt float32))) else some (0, (d1 : WithTop (Flt float32)))).map
      Prod.fst).getD 0 = _
    split <;> rfl
  constructor
  · intro hle
    have : ¬ ((d2 : WithTop (Flt float32)) < d1) := by
      rw [WithTop.coe_lt_coe]
      exact not_lt.2 hle
    rw [e, e2, if_neg this]
    rfl
  · intro hlt
    have : (d2 : WithTop (Flt float32)) < d1 := by
      rw [WithTop.coe_lt_coe]
      exact hlt
    rw [e, e2, if_pos this]
    rfl

theorem arclength_ends {ε : ℝ} {L : Libm float32} (h : L.Accurate ε) :
    arclengthForPtsFl L (quarter (-4), quarter 0) twoPointPath = quarter 0 ∧
    arclengthForPtsFl L (quarter 0, quarter 0) twoPointPath = quarter 400 := by
  constructor
  · apply (arclength_two _).1
    rw [distFl_self h]
    exact distFl_nonneg h _ _
  · apply (arclength_two _).2
    rw [distFl_self h]
    have h1 := (abs_le.1 (distFl_close h (quarter 0, quarter 0) (quarter (-4), quarter 0))).1
    have h2 : dist2 ((quarter 0).val, (quarter 0).val) ((quarter (-4)).val, (quarter 0).val) = 1 := by
      rw [dist2_axis]
      norm_num [quarter]
    dsimp only at h1
    rw [h2] at h1
    have h0 := h.pos
    have hs := h.small
    rw [show (2 : ℝ) ^ (-22 : ℤ) = 1 / 4194304 by norm_num] at hs
    unfold distanceTolerance at h1
    norm_num at h1
    linarith

theorem twoPoint_ne : ∃ path ∈ [twoPointPath], path.points ≠ [] := ⟨_, List.mem_singleton.2 rfl, List.cons_ne_nil _ _⟩

theorem twoPoint_on (x : Flt float32) : (exactDistances [twoPointPath] (fun p => p.onRoute = true) ((twoPointScen x).simTrajectory 0 0).exactXy).Nonempty :=
  ⟨_, _, List.mem_singleton.2 rfl, rfl, _, List.mem_cons_self, rfl, rfl⟩

/-- The metric for the two-point path. -/
theorem twoPoint_value {ε : ℝ} {L : Libm float32} (h : L.Accurate ε) (x : Flt float32) :
    progressionMetricFl L (twoPointScen x) =
      .ok ⟨progressFl (arclengthForPtsFl L (x, quarter 0) twoPointPath) (quarter 0) (quarter 400), true⟩ := by
  rcases progressionFl_eq h (twoPointScen_sdc x) (t := 0) rfl rfl twoPoint_ne (first := 0) (last := 1) rfl rfl with
    ⟨-, hn⟩ | ⟨path, hm, -, -, -, -, he⟩
  · exact absurd ⟨rfl, twoPoint_on x⟩ hn
  · obtain rfl := List.mem_singleton.1 hm
    rw [he]
    have h1 : (((twoPointScen x).logTrajectory 0 0).x, ((twoPointScen x).logTrajectory 0 0).y) = (quarter (-4), quarter 0) := rfl
    have h2 : (((twoPointScen x).logTrajectory 0 1).x, ((twoPointScen x).logTrajectory 0 1).y) = (quarter 0, quarter 0) := rfl
    rw [h1, h2, (arclength_ends h).1, (arclength_ends h).2]
    rfl

/-- C167: with every accurate library of float32 functions there is a car whose computed progress is 0 although it is exactly 1: the
distances to the two ends of its path round to the same number, and the first one is chosen. -/
theorem C167_progress_violated {ε : ℝ} {L : Libm float32} (h : L.Accurate ε) : ¬ ProgressComputedExactly L ε := by
  intro hfull
  have hsub : farFl.sub (quarter (-4)) = farFl.sub (quarter 0) := by
    apply Subtype.ext
    show float32.fl (2 ^ 24 - ((-4 : ℤ) : ℝ) * 2 ^ (-2 : ℤ)) = float32.fl (2 ^ 24 - ((0 : ℤ) : ℝ) * 2 ^ (-2 : ℤ))
    rw [show (2 : ℝ) ^ 24 - ((0 : ℤ) : ℝ) * 2 ^ (-2 : ℤ) = 2 ^ 24 by norm_num,
      Format.fl_of_rep (x := (2 : ℝ) ^ 24) ⟨1, 24, by decide, by decide, by norm_num⟩]
    rw [Format.fl_eq (e := 1) (by rw [abs_of_pos (by norm_num)]; norm_num [float32])
      (by rw [abs_of_pos (by norm_num)]; norm_num [float32]) (by decide)]
    rw [show ((2 : ℝ) ^ 24 - ((-4 : ℤ) : ℝ) * 2 ^ (-2 : ℤ)) / 2 ^ (1 : ℤ) = ((8388608 : ℤ) : ℝ) + 1 / 2 by norm_num, Format.rint_half]
    norm_num
  have harc : arclengthForPtsFl L (farFl, quarter 0) twoPointPath = quarter 0 := by
    apply (arclength_two _).1
    apply le_of_eq
    unfold distFl
    rw [hsub]
  have hval := twoPoint_value h farFl
  rw [harc] at hval
  have d1 : dist2 (farFl.val, (quarter 0).val) ((quarter (-4)).val, (quarter 0).val) = 2 ^ 24 + 1 := by
    rw [dist2_axis]
    norm_num [quarter, farFl]
  have d2 : dist2 (farFl.val, (quarter 0).val) ((quarter 0).val, (quarter 0).val) = 2 ^ 24 := by
    rw [dist2_axis]
    norm_num [quarter, farFl]
  have s1 : dist2 ((quarter (-4)).val, (quarter 0).val) ((quarter (-4)).val, (quarter 0).val) = 0 := by
    rw [dist2_axis]
    norm_num
  have s2 : dist2 ((quarter (-4)).val, (quarter 0).val) ((quarter 0).val, (quarter 0).val) = 1 := by
    rw [dist2_axis]
    norm_num [quarter]
  have e1 : dist2 ((quarter 0).val, (quarter 0).val) ((quarter (-4)).val, (quarter 0).val) = 1 := by
    rw [dist2_axis]
    norm_num [quarter]
  have e2 : dist2 ((quarter 0).val, (quarter 0).val) ((quarter 0).val, (quarter 0).val) = 0 := by
    rw [dist2_axis]
    norm_num
  -- the points of the path
  have hpts : ∀ (j : Nat) (q : PathPoint ℝ), twoPointPath.exact.points[j]? = some q →
      (j = 0 ∧ q = (axisPoint (quarter (-4)) (quarter 0)).exact) ∨ (j = 1 ∧ q = (axisPoint (quarter 0) (quarter 400)).exact) := by
    intro j q hj
    match j with
    | 0 => left; exact ⟨rfl, (Option.some.inj hj).symm⟩
    | 1 => right; exact ⟨rfl, (Option.some.inj hj).symm⟩
    | j + 2 => cases hj
  have near1 : IsNearestOn twoPointPath.exact (farFl.val, (quarter 0).val) (axisPoint (quarter 0) (quarter 400)).exact := by
    refine ⟨1, rfl, rfl, fun j q hj _ => ?_⟩
    change dist2 _ ((quarter 0).val, (quarter 0).val) ≤ _ ∧ (_ → dist2 _ ((quarter 0).val, (quarter 0).val) < _)
    rcases hpts j q hj with ⟨rfl, rfl⟩ | ⟨rfl, rfl⟩
    · change _ ≤ dist2 _ ((quarter (-4)).val, (quarter 0).val) ∧ (_ → _ < dist2 _ ((quarter (-4)).val, (quarter 0).val))
      rw [d1, d2]
      norm_num
    · exact ⟨le_rfl, fun hc => absurd hc (lt_irrefl _)⟩
  have near2 : IsNearestOn twoPointPath.exact ((quarter (-4)).val, (quarter 0).val) (axisPoint (quarter (-4)) (quarter 0)).exact := by
    refine ⟨0, rfl, rfl, fun j q hj _ => ⟨?_, fun hc => absurd hc (Nat.not_lt_zero _)⟩⟩
    change dist2 _ ((quarter (-4)).val, (quarter 0).val) ≤ _
    rw [s1]
    exact Real.sqrt_nonneg _
  have near3 : IsNearestOn twoPointPath.exact ((quarter 0).val, (quarter 0).val) (axisPoint (quarter 0) (quarter 400)).exact := by
    refine ⟨1, rfl, rfl, fun j q hj _ => ?_⟩
    change dist2 _ ((quarter 0).val, (quarter 0).val) ≤ _ ∧ (_ → dist2 _ ((quarter 0).val, (quarter 0).val) < _)
    rcases hpts j q hj with ⟨rfl, rfl⟩ | ⟨rfl, rfl⟩
    · change _ ≤ dist2 _ ((quarter (-4)).val, (quarter 0).val) ∧ (_ → _ < dist2 _ ((quarter (-4)).val, (quarter 0).val))
      rw [e1, e2]
      norm_num
    · exact ⟨le_rfl, fun hc => absurd hc (lt_irrefl _)⟩
  have least : ∀ use : SdcPath ℝ → Prop, use twoPointPath.exact → IsLeast (distancesTo [twoPointPath.exact] use (farFl.val, (quarter 0).val)) (2 ^ 24) := by
    intro use hu
    constructor
    · exact ⟨_, List.mem_singleton.2 rfl, hu, (axisPoint (quarter 0) (quarter 400)).exact, by simp [SdcPath.exact_points, twoPointPath], rfl, d2.symm⟩
    · rintro d ⟨path, hp, -, q, hq, -, rfl⟩
      obtain rfl := List.mem_singleton.1 hp
      obtain ⟨j, hj⟩ := List.mem_iff_getElem?.1 hq
      rcases hpts j q hj with ⟨rfl, rfl⟩ | ⟨rfl, rfl⟩
      · change _ ≤ dist2 _ ((quarter (-4)).val, (quarter 0).val)
        rw [d1]
        norm_num
      · exact d2.ge
  have href : IsReferencePath ([twoPointPath].map SdcPath.exact) (farFl.val, (quarter 0).val) twoPointPath.exact :=
    ⟨0, 2 ^ 24, rfl, rfl, least _ rfl, least _ trivial, fun j _ hj => absurd hj (Nat.not_lt_zero _)⟩
  have := hfull (twoPointScen farFl) 0 0 1 _ _ _ _ _ _ (twoPointScen_sdc _) rfl rfl rfl rfl hval rfl href near1 near2 near3
  have hz : (progressFl (quarter 0) (quarter 0) (quarter 400)).val = 0 := by
    rcases progressFl_start h (quarter 0) (quarter 400) with h0 | ⟨-, h1⟩
    · exact h0
    · norm_num [quarter] at h1
  have hf : fractionCovered (axisPoint (quarter 0) (quarter 400)).exact.arcLength (axisPoint (quarter (-4)) (quarter 0)).exact.arcLength
      (axisPoint (quarter 0) (quarter 400)).exact.arcLength = 1 := by
    unfold fractionCovered
    norm_num [axisPoint, PathPoint.exact, quarter]
  simp only [hf] at this
  rw [hz] at this
  unfold fractionTolerance at this
  have hs := h.small
  rw [show (2 : ℝ) ^ (-22 : ℤ) = 1 / 4194304 by norm_num] at hs
  have hr : (2 : ℝ) ^ float32.emin ≤ 2 ^ (-100 : ℤ) := zpow_le_zpow_right₀ (by norm_num) h.range
  have hr' : (2 : ℝ) ^ (-100 : ℤ) ≤ 1 / 4 := by norm_num
  have hE := hr.trans hr'
  rw [zero_sub, abs_neg, abs_one] at this
  linarith

/-- The theorems apply: a car at the end of the two-point path. -/
example : ∃ r, progressionMetricFl (exactLibm float32) (twoPointScen (quarter 0)) = .ok r ∧ r.valid = true ∧ r.value.val = 1 := by
  have hv := twoPoint_value exactLibm_accurate (quarter 0)
  exact ⟨_, hv, rfl, (C167_start_and_end exactLibm_accurate (twoPointScen_sdc _) (t := 0) rfl rfl twoPoint_ne (first := 0) (last := 1) rfl rfl
    hv rfl).1 rfl⟩

/-- The hypotheses of `C167_agrees_partial` are met by a car at the end of the two-point path: the nearest points are clear. -/
example : (∀ path', NearlyReferencePath (2 ^ (-22 : ℤ)) ([twoPointPath].map SdcPath.exact) ((twoPointScen (quarter 0)).simTrajectory 0 0).exactXy path' →
      path' = twoPointPath.exact) ∧
    (∀ p, NearlyNearestOn (2 ^ (-22 : ℤ)) twoPointPath.exact ((twoPointScen (quarter 0)).simTrajectory 0 0).exactXy p → p.arcLength = 100) := by
  refine ⟨fun path' hp => List.mem_singleton.1 hp.1, ?_⟩
  rintro p ⟨hp, -, hq⟩
  have h2 := hq (axisPoint (quarter 0) (quarter 400)).exact (by simp [SdcPath.exact_points, twoPointPath]) rfl
  rw [SdcPath.exact_points] at hp
  rcases List.mem_cons.1 hp with rfl | hp
  · exfalso
    change NotClearlyLarger _ (dist2 ((quarter 0).val, (quarter 0).val) ((quarter (-4)).val, (quarter 0).val))
      (dist2 ((quarter 0).val, (quarter 0).val) ((quarter 0).val, (quarter 0).val)) at h2
    rw [dist2_axis, dist2_axis] at h2
    unfold NotClearlyLarger distanceTolerance at h2
    norm_num [quarter] at h2
  · obtain rfl := List.mem_singleton.1 hp
    norm_num [axisPoint, PathPoint.exact, quarter]

end Waymax
