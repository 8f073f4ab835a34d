import Verif.Model.MachineMetrics
import Verif.Spec.MachineMetrics
import Verif.Props.BicycleMachine
import Verif.Props.Metrics
import Verif.Props.ReplayMachine
/-
C153: the distances that the metrics report in machine arithmetic.
-/

namespace Waymax

open Real

section
variable {φ : Format} {L : Libm φ} {ε : ℝ}

theorem norm_scaled {a b x y e : ℝ} (he : 0 ≤ e) (he1 : e ≤ 1) (hx : |a - x| ≤ e * |x|) (hy : |b - y| ≤ e * |y|) :
    |√(a ^ 2 + b ^ 2) - √(x ^ 2 + y ^ 2)| ≤ e * √(x ^ 2 + y ^ 2) := by
  have up : ∀ {p q : ℝ}, |p - q| ≤ e * |q| → p ^ 2 ≤ (1 + e) ^ 2 * q ^ 2 := fun {p q} h => by
    have h1 : |p| ≤ (1 + e) * |q| := by
      have := abs_sub_abs_le_abs_sub p q
      linarith
    have := pow_le_pow_left₀ (abs_nonneg p) h1 2
    rwa [mul_pow, sq_abs, sq_abs] at this
  have lo : ∀ {p q : ℝ}, |p - q| ≤ e * |q| → (1 - e) ^ 2 * q ^ 2 ≤ p ^ 2 := fun {p q} h => by
    have h1 : (1 - e) * |q| ≤ |p| := by
      have := abs_sub_abs_le_abs_sub q p
      rw [abs_sub_comm] at this
      linarith
    have := pow_le_pow_left₀ (mul_nonneg (by linarith) (abs_nonneg q)) h1 2
    rwa [mul_pow, sq_abs, sq_abs] at this
  have h1 : √(a ^ 2 + b ^ 2) ≤ (1 + e) * √(x ^ 2 + y ^ 2) := by
    rw [← Real.sqrt_sq (by linarith : 0 ≤ 1 + e), ← Real.sqrt_mul (sq_nonneg _)]
    apply Real.sqrt_le_sqrt
    linarith [up hx, up hy]
  have h2 : (1 - e) * √(x ^ 2 + y ^ 2) ≤ √(a ^ 2 + b ^ 2) := by
    rw [← Real.sqrt_sq (by linarith : 0 ≤ 1 - e), ← Real.sqrt_mul (sq_nonneg _)]
    apply Real.sqrt_le_sqrt
    linarith [lo hx, lo hy]
  rw [abs_le]
  constructor <;> linarith

/-- A computed distance is within the tolerance of the exact one. -/
theorem distFl_close (h : L.Accurate ε) (a b : Flt φ × Flt φ) :
    |(distFl L a b).val - dist2 (a.1.val, a.2.val) (b.1.val, b.2.val)| ≤
      distanceTolerance ε (dist2 (a.1.val, a.2.val) (b.1.val, b.2.val)) := by
  have h0 := h.pos
  have hs := h.small
  have hs' : (2 : ℝ) ^ (-22 : ℤ) = 1 / 4194304 := by norm_num
  rw [hs'] at hs
  have e1 := speed_norm h (a.1.sub b.1) (a.2.sub b.2)
  have e2 := norm_scaled h0.le (by linarith) (h.sub a.1 b.1) (h.sub a.2 b.2)
  obtain ⟨N, hN⟩ : ∃ N, N = √((a.1.sub b.1).val ^ 2 + (a.2.sub b.2).val ^ 2) := ⟨_, rfl⟩
  obtain ⟨D, hD⟩ : ∃ D, D = √((a.1.val - b.1.val) ^ 2 + (a.2.val - b.2.val) ^ 2) := ⟨_, rfl⟩
  have D0 : 0 ≤ D := hD ▸ sqrt_nonneg _
  have N0 : 0 ≤ N := hN ▸ sqrt_nonneg _
  show |(speedFl L (a.1.sub b.1) (a.2.sub b.2)).val - √((a.1.val - b.1.val) ^ 2 + (a.2.val - b.2.val) ^ 2)| ≤
    5 * ε * √((a.1.val - b.1.val) ^ 2 + (a.2.val - b.2.val) ^ 2) + 2 ^ (-40 : ℤ)
  rw [← hD, ← hN] at e2
  rw [← hN] at e1
  rw [← hD]
  obtain ⟨κ, hκ⟩ : ∃ κ : ℝ, κ = 2 ^ (-40 : ℤ) := ⟨_, rfl⟩
  rw [← hκ] at e1 ⊢
  rw [abs_le] at e1 e2 ⊢
  have hND : N ≤ 8 / 7 * D := by nlinarith
  have hp : 7 / 2 * ε * N ≤ 7 / 2 * ε * (8 / 7 * D) := mul_le_mul_of_nonneg_left hND (by positivity)
  constructor <;> nlinarith

theorem distFl_nonneg (h : L.Accurate ε) (a b : Flt φ × Flt φ) : 0 ≤ (distFl L a b).val := speed_nonneg h _ _

theorem Flt.sub_self (a : Flt φ) : (a.sub a).val = 0 := by
  show φ.fl (a.val - a.val) = 0
  rw [_root_.sub_self, Format.fl_zero]

theorem Libm.Accurate.sqrt_zero (h : L.Accurate ε) {x : Flt φ} (hx : x.val = 0) : (L.sqrt x).val = 0 := by
  have := h.sqrt x hx.ge
  rw [hx, Real.sqrt_zero, mul_zero, sub_zero] at this
  exact abs_eq_zero.1 (le_antisymm this (abs_nonneg _))

/-- The distance of a point to itself is exactly zero. -/
theorem distFl_self (h : L.Accurate ε) (a : Flt φ × Flt φ) : (distFl L a a).val = 0 := by
  apply h.sqrt_zero
  show φ.fl (φ.fl ((a.1.sub a.1).val * (a.1.sub a.1).val) + φ.fl ((a.2.sub a.2).val * (a.2.sub a.2).val)) = 0
  rw [Flt.sub_self, Flt.sub_self, mul_zero, Format.fl_zero, add_zero, Format.fl_zero]

/-- A threshold of the metrics is a number of the format. -/
theorem Libm.Accurate.round_half_int (h : L.Accurate ε) {k : ℤ} (hk : |k| ≤ 100) : (Flt.round φ (k / 2)).val = k / 2 := by
  apply Format.fl_of_rep
  have hu : φ.u ≤ 2 ^ (-22 : ℤ) := h.unit.trans h.small
  have hp : 22 ≤ φ.prec := by
    have := (zpow_le_zpow_iff_right₀ (by norm_num : (1 : ℝ) < 2)).1 (show (2 : ℝ) ^ (-(φ.prec : ℤ)) ≤ 2 ^ (-22 : ℤ) from hu)
    omega
  have := h.range
  refine ⟨k, -1, lt_of_le_of_lt hk ?_, by omega, by rw [zpow_neg_one]; ring⟩
  calc (100 : ℤ) < 2 ^ 22 := by norm_num
    _ ≤ 2 ^ φ.prec := pow_le_pow_right₀ (by norm_num) hp

theorem Flt.add_zero_right {a b : Flt φ} (h : b.val = 0) : a.add b = a := by
  apply Subtype.ext
  show φ.fl (a.val + b.val) = a.val
  rw [h, add_zero, Format.fl_of_rep a.property]

theorem Flt.add_zero_left {a b : Flt φ} (h : a.val = 0) : a.add b = b := by
  apply Subtype.ext
  show φ.fl (a.val + b.val) = b.val
  rw [h, zero_add, Format.fl_of_rep b.property]

theorem foldl_add_zeros (l : List (Flt φ)) (a : Flt φ) (h : ∀ b ∈ l, b.val = 0) : l.foldl Flt.add a = a := by
  induction l generalizing a with
  | nil => rfl
  | cons b l ih =>
    rw [List.foldl_cons, Flt.add_zero_right (h b List.mem_cons_self)]
    exact ih a fun c hc => h c (List.mem_cons_of_mem _ hc)

/-- Adding up numbers of which at most one is not zero is exact. -/
theorem foldl_add_single (l : List (Flt φ)) (k : Nat) (hk : k < l.length) (h : ∀ j (hj : j < l.length), j ≠ k → l[j].val = 0) :
    l.foldl Flt.add (Flt.zero φ) = l[k] := by
  have e : l = l.take k ++ l[k] :: l.drop (k + 1) := by
    rw [List.getElem_cons_drop, List.take_append_drop]
  have h1 : ∀ b ∈ l.take k, b.val = 0 := fun b hb => by
    obtain ⟨j, hj, rfl⟩ := List.mem_take_iff_getElem.1 hb
    exact h j (by omega) (by omega)
  have h2 : ∀ b ∈ l.drop (k + 1), b.val = 0 := fun b hb => by
    obtain ⟨j, hj, rfl⟩ := List.mem_drop_iff_getElem.1 hb
    exact h _ (by omega) (by omega)
  obtain ⟨a, ha⟩ : ∃ a, a = l[k] := ⟨_, rfl⟩
  rw [← ha] at e ⊢
  rw [e, List.foldl_append, List.foldl_cons, foldl_add_zeros _ _ h1, Flt.add_zero_left rfl, foldl_add_zeros _ _ h2]

theorem Libm.Accurate.round_one (h : L.Accurate ε) : (Flt.round φ 1).val = 1 := by
  have := h.round_half_int (k := 2) (by norm_num)
  norm_num at this
  exact this

theorem Flt.mul_one (a : Flt φ) {b : Flt φ} (h : b.val = 1) : a.mul b = a := by
  apply Subtype.ext
  show φ.fl (a.val * b.val) = a.val
  rw [h, _root_.mul_one, Format.fl_of_rep a.property]

theorem Flt.mul_zero (a : Flt φ) {b : Flt φ} (h : b.val = 0) : (a.mul b).val = 0 := by
  show φ.fl (a.val * b.val) = 0
  rw [h, MulZeroClass.mul_zero, Format.fl_zero]

theorem Flt.round_zero : (Flt.round φ 0).val = 0 := Format.fl_zero

variable {n T : Nat}

/-- Selecting the one marked entry is exact. -/
theorem selectByOnehotFl_eq (h : L.Accurate ε) (x : Fin n → Flt φ) (sel : Fin n → Bool) (k : Fin n) (hk : ∀ i, sel i = true ↔ i = k) :
    selectByOnehotFl x sel = x k := by
  unfold selectByOnehotFl
  rw [foldl_add_single _ k (by simp) fun j hj hne => ?_]
  · rw [List.getElem_ofFn]
    have : sel k = true := (hk k).2 rfl
    simp only [Fin.eta, this, if_true]
    exact Flt.mul_one _ h.round_one
  · rw [List.getElem_ofFn]
    have : sel ⟨j, by simpa using hj⟩ = false := by
      rw [Bool.eq_false_iff]
      intro hc
      exact hne (congrArg Fin.val ((hk _).1 hc))
    rw [this]
    exact Flt.mul_zero _ Flt.round_zero

/-- The computed minimum distance is close to the exact one, and infinite exactly when there is no valid point. -/
theorem minOverPathsFl_cases (h : L.Accurate ε) (paths : List (SdcPath (Flt φ))) (use : SdcPath (Flt φ) → Bool) (useR : SdcPath ℝ → Bool)
    (hu : ∀ p, useR (SdcPath.exact p) = use p) (xy : Flt φ × Flt φ) :
    let D := exactDistances paths (fun p => useR p = true) (xy.1.val, xy.2.val)
    let m := minOverPathsFl paths fun path p => orInfFl (use path && p.valid) (distFl L xy (p.x, p.y))
    (m = ⊤ ∧ D = ∅) ∨ ∃ (c : Flt φ) (d : ℝ), m = c ∧ IsLeast D d ∧ |c.val - d| ≤ distanceTolerance ε d ∧ 0 ≤ d := by
  intro D m
  have h0 := h.pos
  have hs := h.small
  have hs' : (2 : ℝ) ^ (-22 : ℤ) = 1 / 4194304 := by norm_num
  rw [hs'] at hs
  have key : ∀ d, d ∈ D ↔ ∃ path ∈ paths, use path = true ∧ ∃ p ∈ path.points, p.valid = true ∧
      d = dist2 (xy.1.val, xy.2.val) (p.x.val, p.y.val) := by
    intro d
    constructor
    · rintro ⟨path, hp, hus, p, hpp, hv, rfl⟩
      obtain ⟨path', hp', rfl⟩ := List.mem_map.1 hp
      obtain ⟨p', hpp', rfl⟩ := List.mem_map.1 hpp
      exact ⟨path', hp', by rw [← hu]; exact hus, p', hpp', hv, rfl⟩
    · rintro ⟨path, hp, hus, p, hpp, hv, rfl⟩
      exact ⟨path.exact, List.mem_map_of_mem hp, by show useR path.exact = true; rw [hu]; exact hus, _, List.mem_map_of_mem hpp, hv, rfl⟩
  have mem : ∀ c : WithTop (Flt φ), (c ∈ paths.flatMap fun path => path.points.map fun p => orInfFl (use path && p.valid) (distFl L xy (p.x, p.y))) ↔
      ∃ path ∈ paths, ∃ p ∈ path.points, c = orInfFl (use path && p.valid) (distFl L xy (p.x, p.y)) := by
    intro c
    simp only [List.mem_flatMap, List.mem_map]
    constructor
    · rintro ⟨path, hp, p, hpp, rfl⟩
      exact ⟨path, hp, p, hpp, rfl⟩
    · rintro ⟨path, hp, p, hpp, rfl⟩
      exact ⟨path, hp, p, hpp, rfl⟩
  rcases listMin_cases (paths.flatMap fun path => path.points.map fun p => orInfFl (use path && p.valid) (distFl L xy (p.x, p.y))) with
    ⟨h1, h2⟩ | ⟨c, h1, h2, h3⟩
  · left
    refine ⟨h1, Set.eq_empty_iff_forall_notMem.2 fun d hd => ?_⟩
    obtain ⟨path, hp, hus, p, hpp, hv, -⟩ := (key d).1 hd
    have := h2 _ ((mem _).2 ⟨path, hp, p, hpp, rfl⟩)
    simp [orInfFl, hus, hv] at this
  · right
    obtain ⟨path, hp, p, hpp, hc⟩ := (mem _).1 h2
    have hb : (use path && p.valid) = true := by
      by_contra hb
      simp [orInfFl, hb] at hc
    rw [orInfFl, if_pos hb] at hc
    have hc' : c = distFl L xy (p.x, p.y) := WithTop.coe_injective hc
    rw [Bool.and_eq_true] at hb
    have hD : D.Nonempty := ⟨_, (key _).2 ⟨path, hp, hb.1, p, hpp, hb.2, rfl⟩⟩
    obtain ⟨d, hd⟩ : ∃ d, IsLeast D d := by
      rcases minOverPaths_cases (paths.map SdcPath.exact) useR (xy.1.val, xy.2.val) with ⟨-, hE⟩ | ⟨d, -, hd⟩
      · exact absurd hE hD.ne_empty
      · exact ⟨d, hd⟩
    have d0 : 0 ≤ d := by
      obtain ⟨path', hp', hus', q, hq, hv, rfl⟩ := (key d).1 hd.1
      exact sqrt_nonneg _
    refine ⟨c, d, h1, hd, ?_, d0⟩
    have e1 := distFl_close h xy (p.x, p.y)
    rw [← hc'] at e1
    have e2 : d ≤ dist2 (xy.1.val, xy.2.val) (p.x.val, p.y.val) := hd.2 ((key _).2 ⟨path, hp, hb.1, p, hpp, hb.2, rfl⟩)
    obtain ⟨path', hp', hus', q, hq, hv', hdq⟩ := (key d).1 hd.1
    have e3 := distFl_close h xy (q.x, q.y)
    have e4 : c ≤ distFl L xy (q.x, q.y) := by
      have := h3 _ ((mem _).2 ⟨path', hp', q, hq, rfl⟩)
      rw [orInfFl, if_pos (by rw [hus', hv']; rfl)] at this
      exact WithTop.coe_le_coe.1 this
    have e4' : c.val ≤ (distFl L xy (q.x, q.y)).val := e4
    dsimp only at e1 e3
    rw [← hdq] at e3
    unfold distanceTolerance at e1 e3 ⊢
    rw [abs_le] at e1 e3 ⊢
    constructor
    · have := mul_nonneg (by linarith : 0 ≤ 1 - 5 * ε) (sub_nonneg.2 e2)
      nlinarith
    · linarith

variable [NeZero T]

/-! ### Log divergence -/

/-- C153: the reported log divergence is never negative, within the tolerance of the distance between the simulated and the logged
position, and valid iff the object is valid in both. -/
theorem C153_log_divergence (h : L.Accurate ε) (s : SimState (Flt φ) n T) {t : Fin T} (ht : (t : Int) = s.timestep) (i : Fin n) :
    let r := logDivergenceMetricFl L s i
    let d := dist2 (s.simTrajectory i t).exactXy (s.logTrajectory i t).exactXy
    |r.value.val - d| ≤ distanceTolerance ε d ∧ 0 ≤ r.value.val ∧
    (r.valid = true ↔ (s.simTrajectory i t).valid = true ∧ (s.logTrajectory i t).valid = true) := by
  intro r d
  have e : r = ⟨distFl L ((s.simTrajectory i t).x, (s.simTrajectory i t).y) ((s.logTrajectory i t).x, (s.logTrajectory i t).y),
      (s.simTrajectory i t).valid && (s.logTrajectory i t).valid⟩ := by
    show logDivergenceMetricFl L s i = _
    unfold logDivergenceMetricFl
    simp only [dynIndex_of_eq _ ht]
  rw [e]
  exact ⟨distFl_close h _ _, distFl_nonneg h _ _, Bool.and_eq_true_iff⟩

/-- C153: an object at its logged position has divergence exactly zero, whatever the rounding. -/
theorem C153_zero_at_log (h : L.Accurate ε) (s : SimState (Flt φ) n T) {t : Fin T} (ht : (t : Int) = s.timestep) (i : Fin n)
    (hx : (s.simTrajectory i t).x = (s.logTrajectory i t).x) (hy : (s.simTrajectory i t).y = (s.logTrajectory i t).y) :
    (logDivergenceMetricFl L s i).value.val = 0 := by
  unfold logDivergenceMetricFl
  simp only [dynIndex_of_eq _ ht, hx, hy]
  exact distFl_self h _

/-- The full expectation: divergence zero only at the logged position. -/
def ZeroOnlyAtLog (L : Libm φ) : Prop :=
  ∀ (s : SimState (Flt φ) 1 1), s.timestep = 0 → (logDivergenceMetricFl L s 0).value.val = 0 →
    (s.simTrajectory 0 0).x = (s.logTrajectory 0 0).x ∧ (s.simTrajectory 0 0).y = (s.logTrajectory 0 0).y

/-- C153: divergence zero means that the object is within 2⁻³⁹ m of its logged position. Missing: exactly there, see
`C153_zero_only_at_log_violated`. -/
theorem C153_zero_only_at_log_partial (h : L.Accurate ε) (s : SimState (Flt φ) n T) {t : Fin T} (ht : (t : Int) = s.timestep) (i : Fin n)
    (hz : (logDivergenceMetricFl L s i).value.val = 0) :
    dist2 (s.simTrajectory i t).exactXy (s.logTrajectory i t).exactXy ≤ 2 ^ (-39 : ℤ) := by
  have h1 := (C153_log_divergence h s ht i).1
  have h0 := h.pos
  have hs := h.small
  have hs' : (2 : ℝ) ^ (-22 : ℤ) = 1 / 4194304 := by norm_num
  rw [hs'] at hs
  rw [hz] at h1
  obtain ⟨d, hd⟩ : ∃ d, d = dist2 (s.simTrajectory i t).exactXy (s.logTrajectory i t).exactXy := ⟨_, rfl⟩
  have d0 : 0 ≤ d := hd ▸ sqrt_nonneg _
  rw [← hd] at h1 ⊢
  unfold distanceTolerance at h1
  rw [show (2 : ℝ) ^ (-39 : ℤ) = 2 * 2 ^ (-40 : ℤ) by norm_num]
  obtain ⟨κ, hκ⟩ : ∃ κ : ℝ, κ = 2 ^ (-40 : ℤ) := ⟨_, rfl⟩
  rw [← hκ] at h1 ⊢
  rw [abs_le] at h1
  nlinarith

/-- C153: along every episode of every dynamics model in machine arithmetic, objects that are not controlled have divergence exactly
zero. -/
theorem C153_uncontrolled {D : Type} (h : L.Accurate ε) {d : DynamicsModel (Flt φ) D n} {cfg : EnvConfig}
    {scen s0 s1 : SimState (Flt φ) n T} {acts : List (Fin n → Act D)} (E : Episode d cfg scen s0 acts s1)
    (i : Fin n) (hi : ¬ IsControlled cfg s0 i) : (logDivergenceMetricFl L s1 i).value.val = 0 := by
  have hts := E.timestep_eq
  have hw := E.warm
  have hf := E.fits
  have hlog : s1.logTrajectory = scen.logTrajectory := by
    rw [(stepMany_same E.run).log, E.reset_data]
  have ht : ((⟨s1.timestep.toNat, by omega⟩ : Fin T) : Int) = s1.timestep := by simp only; omega
  have key : (s1.simTrajectory i ⟨s1.timestep.toNat, by omega⟩).x = (scen.logTrajectory i ⟨s1.timestep.toNat, by omega⟩).x ∧
      (s1.simTrajectory i ⟨s1.timestep.toNat, by omega⟩).y = (scen.logTrajectory i ⟨s1.timestep.toNat, by omega⟩).y := by
    by_cases hlt : s1.timestep.toNat < cfg.initSteps
    · have hd := E.reset_data
      have := stepMany_frame E.run (by rw [hd]; simp only; omega) (by rw [hd]; simp only; omega) i
        ⟨s1.timestep.toNat, by omega⟩ (by left; rw [hd]; simp only; omega)
      rw [this, hd]
      simp only [hlt, if_true, and_self]
    · have := C09_appears_at_logged_pose_partial E i hi (le_of_eq ht) (by simp only; omega)
      exact ⟨this.1, this.2.1⟩
  exact C153_zero_at_log h s1 ht i (by rw [hlog]; exact key.1) (by rw [hlog]; exact key.2)

/-- The states of a rollout in the base environment keep the log, and count the steps. -/
theorem rollout_log_fl {α D X M R K Q : Type} [ScalarOps α] {d : DynamicsModel α D n} {cfg : EnvConfig} {metrics : SimState α n T → Except Err M}
    {reward : SimState α n T → (Fin n → Act D) → Except Err R} {actor : Actor (SimState α n T) (Fin n → Act D) X K Q (Fin n → Bool)}
    {split : K → K × K} {params : Q} {zerosLike : (Fin n → Act D) → (Fin n → Act D)} {scen : SimState α n T} {rng : K} {N : Nat}
    {out : List (RolloutEntry (SimState α n T) (Fin n → Act D) (SimState α n T) M R)}
    (h : rollout (baseEnv d cfg metrics reward) actor split params zerosLike scen rng N = .ok out) (k : Nat) (hk : k < out.length) :
    out[k].state.logTrajectory = scen.logTrajectory ∧ out[k].state.timestep = (cfg.initSteps : Int) - 1 + k := by
  obtain ⟨hN, hlen, hreset, hstep, -, -, -⟩ := C14_rollout_spec h
  induction k with
  | zero =>
    have hr := C01_reset_spec hreset
    exact ⟨hr.2.2.2.log, by simpa using hr.1⟩
  | succ j ih =>
    obtain ⟨hlog, hts⟩ := ih (by omega)
    have hst : step d cfg out[j].state out[j].action = .ok out[j + 1].state := hstep j (by omega)
    obtain ⟨m, hm, heq⟩ := step_ok hst
    rw [heq]
    exact ⟨hlog, by simp only [hts]; omega⟩

/-- C153: rolling out the expert with `StateDynamics` in machine arithmetic, every object has divergence exactly zero at every step. -/
theorem C153_state_replay {M R K Q : Type} (hL : L.Accurate ε) {cfg : EnvConfig} {metrics : SimState (Flt φ) n T → Except Err M}
    {reward : SimState (Flt φ) n T → (Fin n → Act (StateRow (Flt φ))) → Except Err R}
    {mask : SimState (Flt φ) n T → Fin n → Bool} {split : K → K × K} {params : Q}
    {zerosLike : (Fin n → Act (StateRow (Flt φ))) → (Fin n → Act (StateRow (Flt φ)))} {scen : SimState (Flt φ) n T} {rng : K} {N : Nat}
    {out : List (RolloutEntry (SimState (Flt φ) n T) (Fin n → Act (StateRow (Flt φ))) (SimState (Flt φ) n T) M R)}
    (h : rollout (baseEnv stateDynamics cfg metrics reward) (expertActor stateDynamics mask) split params zerosLike scen rng N = .ok out)
    (hw : 1 ≤ cfg.initSteps) (hfit : cfg.initSteps + N ≤ T) (k : Nat) (hk : k < out.length) (i : Fin n) :
    (logDivergenceMetricFl L out[k].state i).value.val = 0 := by
  obtain ⟨hlog, hts⟩ := rollout_log_fl h k hk
  have hlen : out.length = N + 1 := (C14_rollout_spec h).2.1
  have ht : ((⟨cfg.initSteps - 1 + k, by omega⟩ : Fin T) : Int) = out[k].state.timestep := by
    rw [hts]; simp only; omega
  have := C13_expert_rollout_reproduces_log h hw hfit k hk i _ (le_of_eq ht)
  exact C153_zero_at_log hL _ ht i (by rw [hlog]; exact this.1) (by rw [hlog]; exact this.2.1)

/-- C153: rolling out the expert with `DeltaGlobal` in machine arithmetic, an object whose logged displacements are numbers of the format
inside the bounds has divergence exactly zero at every step. -/
theorem C153_delta_replay {M R K Q : Type} (hL : L.Accurate ε) {P : DeltaParamsFl φ} {cfg : EnvConfig}
    {metrics : SimState (Flt φ) n T → Except Err M}
    {reward : SimState (Flt φ) n T → (Fin n → Act (Delta3Fl φ)) → Except Err R}
    {mask : SimState (Flt φ) n T → Fin n → Bool} {split : K → K × K} {params : Q}
    {zerosLike : (Fin n → Act (Delta3Fl φ)) → (Fin n → Act (Delta3Fl φ))} {scen : SimState (Flt φ) n T} {rng : K} {N : Nat}
    {out : List (RolloutEntry (SimState (Flt φ) n T) (Fin n → Act (Delta3Fl φ)) (SimState (Flt φ) n T) M R)}
    (h : rollout (baseEnv (deltaGlobalFl P) cfg metrics reward) (expertActor (deltaGlobalFl P) mask) split params zerosLike
      scen rng N = .ok out)
    (hw : 1 ≤ cfg.initSteps) (hfit : cfg.initSteps + N ≤ T) (i : Fin n)
    (hlv : ∀ t : Fin T, cfg.initSteps ≤ (t : Nat) + 1 → (scen.logTrajectory i t).valid = true)
    (hdisp : ∀ t t' : Fin T, (t' : Nat) = t + 1 → cfg.initSteps ≤ (t' : Nat) →
      let p := scen.logTrajectory i t
      let q := scen.logTrajectory i t'
      (|q.x.val - p.x.val| ≤ P.maxDx.val ∧ φ.Rep (q.x.val - p.x.val)) ∧ |q.y.val - p.y.val| ≤ P.maxDy.val ∧ φ.Rep (q.y.val - p.y.val))
    (k : Nat) (hk : k < out.length) : (logDivergenceMetricFl L out[k].state i).value.val = 0 := by
  obtain ⟨hlog, hts⟩ := rollout_log_fl h k hk
  have hlen : out.length = N + 1 := (C14_rollout_spec h).2.1
  have ht : ((⟨cfg.initSteps - 1 + k, by omega⟩ : Fin T) : Int) = out[k].state.timestep := by
    rw [hts]; simp only; omega
  have := C133_exact h hw hfit i hlv hdisp k hk _ (le_of_eq ht)
  exact C153_zero_at_log hL _ ht i (by rw [hlog]; exact this.1) (by rw [hlog]; exact this.2)

/-! ### Wrong way and off route -/

theorem sdcXyCurrentFl_eq (h : L.Accurate ε) {s : SimState (Flt φ) n T} {k : Fin n} (hk : IsTheSdc s k) {t : Fin T} (ht : (t : Int) = s.timestep) :
    sdcXyCurrentFl s = ((s.simTrajectory k t).x, (s.simTrajectory k t).y) := by
  unfold sdcXyCurrentFl
  rw [selectByOnehotFl_eq h _ _ k hk, selectByOnehotFl_eq h _ _ k hk, dynIndex_of_eq _ ht]

theorem sdcValidCurrentFl_eq {s : SimState (Flt φ) n T} {k : Fin n} (hk : IsTheSdc s k) {t : Fin T} (ht : (t : Int) = s.timestep) :
    sdcValidCurrentFl s = (s.simTrajectory k t).valid := by
  unfold sdcValidCurrentFl
  rw [selectByOnehotBool_eq _ _ k hk, dynIndex_of_eq _ ht]

omit [NeZero T] in
theorem noPathPointsFl_false {paths : List (SdcPath (Flt φ))} (h : ∃ path ∈ paths, path.points ≠ []) : noPathPointsFl paths = false := by
  obtain ⟨path, hp, hne⟩ := h
  unfold noPathPointsFl
  rw [List.all_eq_false]
  exact ⟨path, hp, by simpa using hne⟩

/-- C153: `sdc_wrongway` in machine arithmetic. `d` is the exact distance to the nearest valid point. Away from the threshold of 3.5 m
the decision is the exact one; the reported value is always 0 or within the tolerance of `d`. -/
theorem C153_wrong_way (h : L.Accurate ε) {s : SimState (Flt φ) n T} {k : Fin n} (hk : IsTheSdc s k) {t : Fin T} (ht : (t : Int) = s.timestep)
    {paths : List (SdcPath (Flt φ))} (hp : s.sdcPaths = some paths) (hne : ∃ path ∈ paths, path.points ≠ []) :
    let D := exactDistances paths (fun _ => True) (s.simTrajectory k t).exactXy
    ∃ r, wrongWayMetricFl L s = .ok r ∧ (r.valid = true ↔ D.Nonempty) ∧ (D = ∅ → r.value.val = 0) ∧
      ∀ d, IsLeast D d →
        (d + distanceTolerance ε d < 3.5 → r.value.val = 0) ∧
        (3.5 ≤ d - distanceTolerance ε d → |r.value.val - d| ≤ distanceTolerance ε d) ∧
        (r.value.val = 0 ∨ |r.value.val - d| ≤ distanceTolerance ε d ∧ 3.5 ≤ r.value.val) := by
  intro D
  have hm := minOverPathsFl_cases h paths (fun _ => true) (fun _ => true) (fun _ => rfl)
    ((s.simTrajectory k t).x, (s.simTrajectory k t).y)
  simp only [Bool.true_and] at hm
  change _ ∧ D = ∅ ∨ ∃ (c : Flt φ) (d : ℝ), _ ∧ IsLeast D d ∧ _ ∧ _ at hm
  have h35 : (Flt.round φ 3.5).val = 3.5 := by
    have := h.round_half_int (k := 7) (by norm_num)
    norm_num at this ⊢
    exact this
  unfold wrongWayMetricFl
  simp only [hp, noPathPointsFl_false hne, sdcXyCurrentFl_eq h hk ht, h35]
  rcases hm with ⟨h1, h2⟩ | ⟨c, d, h1, h2, h3, -⟩
  · refine ⟨⟨Flt.zero φ, false⟩, ?_, ?_, fun _ => rfl, ?_⟩
    · rw [h1]; rfl
    · rw [h2]; simp
    · intro d hd; rw [h2] at hd; exact absurd hd.1 (Set.notMem_empty _)
  · refine ⟨⟨if c.val < 3.5 then Flt.zero φ else c, true⟩, ?_, ?_, ?_, ?_⟩
    · rw [h1]; rfl
    · simp only [true_iff]; exact ⟨d, h2.1⟩
    · intro h; rw [h] at h2; exact absurd h2.1 (Set.notMem_empty _)
    · intro e he
      rw [he.unique h2]
      have h3' := abs_le.1 h3
      refine ⟨fun g => ?_, fun g => ?_, ?_⟩
      · rw [if_pos (by linarith)]
        rfl
      · rw [if_neg (by linarith)]
        exact h3
      · by_cases hc : c.val < 3.5
        · left
          rw [if_pos hc]
          rfl
        · right
          rw [if_neg hc]
          exact ⟨h3, not_lt.1 hc⟩

/-- C153: `sdc_off_route` in machine arithmetic. `on` and `off` are the exact distances to the nearest valid on-route and off-route
points. Away from the thresholds of 5 m and 2 m the decision is the exact one; the reported value is always 0 or within the tolerance of
`on`. -/
theorem C153_off_route (h : L.Accurate ε) {s : SimState (Flt φ) n T} {k : Fin n} (hk : IsTheSdc s k) {t : Fin T} (ht : (t : Int) = s.timestep)
    {paths : List (SdcPath (Flt φ))} (hp : s.sdcPaths = some paths) (hne : ∃ path ∈ paths, path.points ≠ []) :
    let On := exactDistances paths (fun p => p.onRoute = true) (s.simTrajectory k t).exactXy
    let Off := exactDistances paths (fun p => p.onRoute = false) (s.simTrajectory k t).exactXy
    ∃ r, offRouteMetricFl L s = .ok r ∧
      (r.valid = true ↔ (s.simTrajectory k t).valid = true ∧ On.Nonempty) ∧
      (r.valid = false → r.value.val = 0) ∧
      (r.valid = true → ∃ on, IsLeast On on ∧
        (on - distanceTolerance ε on > 5 → |r.value.val - on| ≤ distanceTolerance ε on) ∧
        (∀ off, IsLeast Off off → on - off > 2 + distanceTolerance ε on + distanceTolerance ε off + 5 * ε →
          |r.value.val - on| ≤ distanceTolerance ε on) ∧
        (on + distanceTolerance ε on ≤ 5 → (∀ off, IsLeast Off off → on - off + distanceTolerance ε on + distanceTolerance ε off ≤ 2) →
          r.value.val = 0) ∧
        (r.value.val = 0 ∨ |r.value.val - on| ≤ distanceTolerance ε on)) := by
  intro On Off
  have h0 := h.pos
  have hs := h.small
  have hs' : (2 : ℝ) ^ (-22 : ℤ) = 1 / 4194304 := by norm_num
  rw [hs'] at hs
  have h5 : (Flt.round φ 5).val = 5 := by
    have := h.round_half_int (k := 10) (by norm_num)
    norm_num at this ⊢
    exact this
  have h2 : (Flt.round φ 2).val = 2 := by
    have := h.round_half_int (k := 4) (by norm_num)
    norm_num at this ⊢
    exact this
  unfold offRouteMetricFl
  simp only [hp, noPathPointsFl_false hne, sdcXyCurrentFl_eq h hk ht, sdcValidCurrentFl_eq hk ht, h5]
  cases hv : (s.simTrajectory k t).valid with
  | false =>
    have hm : ∀ use : SdcPath (Flt φ) → Bool, (minOverPathsFl paths fun path p => orInfFl (use path && (false && p.valid))
        (distFl L ((s.simTrajectory k t).x, (s.simTrajectory k t).y) (p.x, p.y))) = ⊤ := by
      intro use
      rcases listMin_cases (paths.flatMap fun path => path.points.map fun p => orInfFl (use path && (false && p.valid))
        (distFl L ((s.simTrajectory k t).x, (s.simTrajectory k t).y) (p.x, p.y))) with ⟨h1, -⟩ | ⟨d, -, h2, -⟩
      · exact h1
      · simp [List.mem_flatMap, orInfFl] at h2
    refine ⟨⟨Flt.zero φ, false⟩, ?_, by simp, fun _ => rfl, by simp⟩
    rw [hm]
    rfl
  | true =>
    have hon := minOverPathsFl_cases h paths (fun p => p.onRoute) (fun p => p.onRoute) (fun _ => rfl)
      ((s.simTrajectory k t).x, (s.simTrajectory k t).y)
    have hoff := minOverPathsFl_cases h paths (fun p => !p.onRoute) (fun p => !p.onRoute) (fun _ => rfl)
      ((s.simTrajectory k t).x, (s.simTrajectory k t).y)
    have hOff : exactDistances paths (fun p => (!p.onRoute) = true) ((s.simTrajectory k t).x.val, (s.simTrajectory k t).y.val) = Off := by
      show _ = exactDistances paths _ _
      simp only [Bool.not_eq_true']
      rfl
    simp only [hOff] at hoff
    change _ ∧ On = ∅ ∨ ∃ (c : Flt φ) (d : ℝ), _ ∧ IsLeast On d ∧ _ ∧ _ at hon
    simp only [Bool.true_and]
    rcases hon with ⟨h1, h2⟩ | ⟨c, d, h1, hd, hc, d0⟩
    · refine ⟨⟨Flt.zero φ, false⟩, ?_, ?_, fun _ => rfl, by simp⟩
      · rw [h1]; rfl
      · simp only [Bool.false_eq_true, true_and, false_iff]
        rw [h2]; simp
    · have hOn : On.Nonempty := ⟨d, hd.1⟩
      have hc' := abs_le.1 hc
      rcases hoff with ⟨g1, g2⟩ | ⟨e, f, g1, hf, he, f0⟩
      · refine ⟨⟨if c.val > 5 then c else Flt.zero φ, true⟩, ?_, by simp [hOn], by simp, ?_⟩
        · rw [h1, g1]
          simp [exceedsByTwoFl]
        · intro _
          refine ⟨d, hd, fun g => ?_, fun off ho => ?_, fun g _ => ?_, ?_⟩
          · rw [if_pos (by linarith)]
            exact hc
          · rw [g2] at ho
            exact absurd ho.1 (Set.notMem_empty _)
          · rw [if_neg (by linarith)]
            rfl
          · by_cases h : c.val > 5
            · right
              rw [if_pos h]
              exact hc
            · left
              rw [if_neg h]
              rfl
      · refine ⟨⟨if c.val > 5 ∨ (c.sub e).val > 2 then c else Flt.zero φ, true⟩, ?_, by simp [hOn], by simp, ?_⟩
        · rw [h1, g1]
          simp [exceedsByTwoFl, h2]
        · intro _
          have he' := abs_le.1 he
          refine ⟨d, hd, fun g => ?_, fun off ho g => ?_, fun g g' => ?_, ?_⟩
          · rw [if_pos (Or.inl (by linarith))]
            exact hc
          · rw [ho.unique hf] at g
            rw [if_pos (Or.inr ?_)]
            · exact hc
            · have hx : c.val - e.val > 2 + 5 * ε := by linarith
              have hr := abs_le.1 (h.sub c e)
              rw [abs_of_pos (by linarith : 0 < c.val - e.val)] at hr
              have : (c.val - e.val) * (1 - ε) > (2 + 5 * ε) * (1 - ε) := mul_lt_mul_of_pos_right hx (by linarith)
              nlinarith
          · have g'' := g' f hf
            rw [if_neg]
            · rfl
            · rintro (w | w)
              · linarith
              · have : (c.sub e).val ≤ 2 := by
                  have r2 : φ.Rep 2 := by
                    rw [← h2]
                    exact (Flt.round φ 2).property
                  exact Format.fl_le_of_rep r2 (by linarith)
                linarith
          · by_cases h : c.val > 5 ∨ (c.sub e).val > 2
            · right
              rw [if_pos h]
              exact hc
            · left
              rw [if_neg h]
              rfl

end

/-! ### Where machine arithmetic differs -/

/-- The float32 number `2 ^ -80`. -/
noncomputable def tinyFl : Flt float32 := ⟨2 ^ (-80 : ℤ), 1, -80, by decide, by decide, by norm_num⟩

/-- A car that is `2 ^ -80` m away from its logged position. -/
noncomputable def tinyScen : SimState (Flt float32) 1 1 :=
  { simTrajectory := fun _ _ => quarterPt tinyFl (quarter 0) (quarter 0)
    logTrajectory := fun _ _ => quarterPt (quarter 0) (quarter 0) (quarter 0)
    logTrafficLight := []
    objectMetadata := soloMeta
    timestep := 0
    sdcPaths := none
    roadgraphPoints := none }

theorem quarter_zero : (quarter 0).val = 0 := by norm_num [quarter]

/-- C153: in float32 the square of a tiny distance underflows: the divergence is zero although the positions differ. -/
theorem C153_zero_only_at_log_violated : ¬ ZeroOnlyAtLog (exactLibm float32) := by
  intro h
  have hx := (h tinyScen rfl ?_).1
  · have : tinyFl.val = (quarter 0).val := congrArg Subtype.val hx
    rw [quarter_zero] at this
    exact absurd this (Format.two_zpow_pos (-80)).ne'
  · apply exactLibm_accurate.sqrt_zero
    have d1 : (tinyFl.sub (quarter 0)).val = 2 ^ (-80 : ℤ) := by
      show float32.fl (tinyFl.val - (quarter 0).val) = _
      rw [quarter_zero, sub_zero, Format.fl_of_rep tinyFl.property]
      rfl
    have d2 : ((quarter 0).sub (quarter 0)).val = 0 := Flt.sub_self _
    have sq : float32.fl (2 ^ (-80 : ℤ) * 2 ^ (-80 : ℤ)) = 0 := by
      have e : (2 : ℝ) ^ (-80 : ℤ) * 2 ^ (-80 : ℤ) = 2 ^ (-160 : ℤ) := by rw [← zpow_add₀ (by norm_num)]; norm_num
      rw [e]
      have h1 := Format.fl_nearest (φ := float32) (x := 2 ^ (-160 : ℤ)) Format.Rep.zero
      obtain ⟨k, hk⟩ := (float32.rep_fl (2 ^ (-160 : ℤ))).grid
      have em : float32.emin = -149 := rfl
      rw [em] at hk
      rw [hk] at h1 ⊢
      have hp := Format.two_zpow_pos (-160)
      rw [zero_sub, abs_neg, abs_of_pos hp] at h1
      have h2 := abs_le.1 h1
      have e2 : (2 : ℝ) ^ (-149 : ℤ) = 2048 * 2 ^ (-160 : ℤ) := by norm_num
      rw [e2] at h2 ⊢
      have k0 : (k : ℝ) < 1 := by nlinarith
      have k1 : (-1 : ℝ) < k := by nlinarith
      have : k = 0 := by
        have a1 : k < 1 := by exact_mod_cast k0
        have a2 : -1 < k := by exact_mod_cast k1
        omega
      rw [this]
      simp
    show float32.fl (float32.fl ((tinyFl.sub (quarter 0)).val * (tinyFl.sub (quarter 0)).val) +
      float32.fl (((quarter 0).sub (quarter 0)).val * ((quarter 0).sub (quarter 0)).val)) = 0
    rw [d1, d2, sq, mul_zero, Format.fl_zero, add_zero, Format.fl_zero]

/-- The full expectation: the wrong-way decision is the exact one. -/
def WrongWayDecidedExactly {φ : Format} (L : Libm φ) : Prop :=
  ∀ (s : SimState (Flt φ) 1 1) (paths : List (SdcPath (Flt φ))) (d : ℝ), IsTheSdc s 0 → s.timestep = 0 → s.sdcPaths = some paths →
    IsLeast (exactDistances paths (fun _ => True) (s.simTrajectory 0 0).exactXy) d → d < 3.5 →
    ∃ r, wrongWayMetricFl L s = .ok r ∧ r.value.val = 0

/-- The largest float32 number below 3.5. -/
noncomputable def below35 : Flt float32 := ⟨14680063 * 2 ^ (-22 : ℤ), 14680063, -22, by decide, by decide, by norm_num⟩

/-- A path point slightly to the left of the origin. -/
noncomputable def leftPoint : PathPoint (Flt float32) :=
  { x := ⟨-3 * 2 ^ (-24 : ℤ), -3, -24, by decide, by decide, by norm_num⟩, y := quarter 0, z := quarter 0, id := 0, valid := true, arcLength := quarter 0 }

/-- A car at `(x, 0)` and a single path point near the origin. -/
noncomputable def pathScen (x : Flt float32) (onRoute : Bool) : SimState (Flt float32) 1 1 :=
  { simTrajectory := fun _ _ => quarterPt x (quarter 0) (quarter 0)
    logTrajectory := fun _ _ => quarterPt x (quarter 0) (quarter 0)
    logTrafficLight := []
    objectMetadata := soloMeta
    timestep := 0
    sdcPaths := some [{ points := [leftPoint], onRoute }]
    roadgraphPoints := none }

theorem pathScen_sdc (x : Flt float32) (b : Bool) : IsTheSdc (pathScen x b) 0 := fun i => by
  simp only [pathScen, soloMeta, true_iff]
  exact Subsingleton.elim _ _

theorem pathScen_distances (x : Flt float32) (b : Bool) (hx : 0 ≤ x.val) (use : SdcPath ℝ → Prop)
    (hu : use (SdcPath.exact { points := [leftPoint], onRoute := b })) :
    IsLeast (exactDistances [{ points := [leftPoint], onRoute := b }] use ((pathScen x b).simTrajectory 0 0).exactXy) (x.val + 3 * 2 ^ (-24 : ℤ)) := by
  have e : dist2 (x.val, (quarter 0).val) (-3 * 2 ^ (-24 : ℤ), (quarter 0).val) = x.val + 3 * 2 ^ (-24 : ℤ) := by
    unfold dist2
    rw [show ((x.val, (quarter 0).val) : ℝ × ℝ).1 - ((-3 * 2 ^ (-24 : ℤ), (quarter 0).val) : ℝ × ℝ).1 = x.val + 3 * 2 ^ (-24 : ℤ) by ring,
      show ((x.val, (quarter 0).val) : ℝ × ℝ).2 - ((-3 * 2 ^ (-24 : ℤ), (quarter 0).val) : ℝ × ℝ).2 = 0 by ring]
    rw [zero_pow two_ne_zero, add_zero, Real.sqrt_sq (by positivity)]
  constructor
  · exact ⟨_, List.mem_singleton.2 rfl, hu, _, List.mem_singleton.2 rfl, rfl, e.symm⟩
  · rintro d ⟨path, hp, -, p, hpp, -, rfl⟩
    rw [List.map_singleton, List.mem_singleton] at hp
    subst hp
    have hpp' := List.mem_singleton.1 hpp
    subst hpp'
    exact e.ge

/-- C153: a car slightly less than 3.5 m from its path is reported as driving the wrong way, because the subtraction rounds up to 3.5. -/
theorem C153_threshold_violated : ¬ WrongWayDecidedExactly (exactLibm float32) := by
  intro h
  have hlt : below35.val + 3 * 2 ^ (-24 : ℤ) < 3.5 := by
    show (14680063 : ℝ) * 2 ^ (-22 : ℤ) + 3 * 2 ^ (-24 : ℤ) < 3.5
    norm_num
  obtain ⟨r, hr, hz⟩ := h (pathScen below35 true) _ _ (pathScen_sdc _ _) rfl rfl
    (pathScen_distances below35 true (by show (0 : ℝ) ≤ 14680063 * 2 ^ (-22 : ℤ); positivity) _ trivial) hlt
  have d1 : (below35.sub leftPoint.x).val = 3.5 := by
    show float32.fl (14680063 * 2 ^ (-22 : ℤ) - -3 * 2 ^ (-24 : ℤ)) = 3.5
    rw [Format.fl_eq (e := -22) (by rw [abs_of_pos (by norm_num)]; norm_num [float32])
      (by rw [abs_of_pos (by norm_num)]; norm_num [float32]) (by decide)]
    rw [rint_eq_of_abs_lt (k := 14680064) (by rw [abs_lt]; norm_num)]
    norm_num
  have c : (distFl (exactLibm float32) (below35, quarter 0) (leftPoint.x, leftPoint.y)).val = 3.5 := by
    have d2 : ((quarter 0).sub (quarter 0)).val = 0 := Flt.sub_self _
    have e0 : float32.fl 12.25 = 12.25 := Format.fl_of_rep ⟨49, -2, by decide, by decide, by norm_num⟩
    have e1 : float32.fl (3.5 * 3.5) = 12.25 := by rw [show (3.5 : ℝ) * 3.5 = 12.25 by norm_num, e0]
    have e1' : float32.fl (12.25 + 0) = 12.25 := by rw [add_zero, e0]
    have e2 : √(12.25 : ℝ) = 3.5 := by
      rw [show (12.25 : ℝ) = 3.5 ^ 2 by norm_num, Real.sqrt_sq (by norm_num)]
    have e3 : float32.fl 3.5 = 3.5 := Format.fl_of_rep ⟨7, -1, by decide, by decide, by norm_num⟩
    show float32.fl √(float32.fl (float32.fl ((below35.sub leftPoint.x).val * (below35.sub leftPoint.x).val) +
      float32.fl (((quarter 0).sub (quarter 0)).val * ((quarter 0).sub (quarter 0)).val))) = _
    rw [d1, d2, e1, mul_zero, Format.fl_zero, e1', e2, e3]
  have h35 : (Flt.round float32 3.5).val = 3.5 := Format.fl_of_rep ⟨7, -1, by decide, by decide, by norm_num⟩
  have hm : wrongWayMetricFl (exactLibm float32) (pathScen below35 true) =
      .ok ⟨distFl (exactLibm float32) (below35, quarter 0) (leftPoint.x, leftPoint.y), true⟩ := by
    have e : (minOverPathsFl [({ points := [leftPoint], onRoute := true } : SdcPath (Flt float32))] fun _ p => orInfFl p.valid
        (distFl (exactLibm float32) (((pathScen below35 true).simTrajectory 0 0).x, ((pathScen below35 true).simTrajectory 0 0).y) (p.x, p.y))) =
        (distFl (exactLibm float32) (below35, quarter 0) (leftPoint.x, leftPoint.y) : WithTop (Flt float32)) := by
      show min _ ⊤ = _
      rw [min_top_right]
      rfl
    have hp : (pathScen below35 true).sdcPaths = some [{ points := [leftPoint], onRoute := true }] := rfl
    unfold wrongWayMetricFl
    simp only [hp, noPathPointsFl_false (paths := [({ points := [leftPoint], onRoute := true } : SdcPath (Flt float32))])
      ⟨_, List.mem_singleton.2 rfl, by simp⟩, sdcXyCurrentFl_eq exactLibm_accurate (pathScen_sdc below35 true) (t := 0) rfl, e, c, h35,
      lt_irrefl, if_false, Bool.false_eq_true]
  rw [hm] at hr
  cases hr
  rw [c] at hz
  norm_num at hz

/-- Non-vacuity of `C153_wrong_way`: a car 10 m from its path is reported, at about 10 m. -/
example : ∃ r, wrongWayMetricFl (exactLibm float32) (pathScen (quarter 40) true) = .ok r ∧ r.valid = true ∧ |r.value.val - 10| ≤ 0.001 := by
  have hx : (quarter 40).val = 10 := by norm_num [quarter]
  obtain ⟨r, hr, hv, -, hd⟩ := C153_wrong_way exactLibm_accurate (pathScen_sdc (quarter 40) true) (t := 0) rfl rfl
    ⟨_, List.mem_singleton.2 rfl, by simp⟩
  have hl := pathScen_distances (quarter 40) true (by rw [hx]; norm_num) (fun _ => True) trivial
  refine ⟨r, hr, hv.2 ⟨_, hl.1⟩, ?_⟩
  have := (hd _ hl).2.1 (by rw [hx]; norm_num [distanceTolerance])
  rw [hx] at this
  have t := abs_le.1 this
  rw [abs_le]
  norm_num [distanceTolerance] at t ⊢
  constructor <;> linarith

/-- Non-vacuity of `C153_off_route`: a car 10 m from the only on-route path is off route. -/
example : ∃ r, offRouteMetricFl (exactLibm float32) (pathScen (quarter 40) true) = .ok r ∧ r.valid = true ∧ |r.value.val - 10| ≤ 0.001 := by
  have hx : (quarter 40).val = 10 := by norm_num [quarter]
  obtain ⟨r, hr, hv, -, hd⟩ := C153_off_route exactLibm_accurate (pathScen_sdc (quarter 40) true) (t := 0) rfl rfl
    ⟨_, List.mem_singleton.2 rfl, by simp⟩
  have hl := pathScen_distances (quarter 40) true (by rw [hx]; norm_num) (fun p => p.onRoute = true) rfl
  have hv' := hv.2 ⟨rfl, ⟨_, hl.1⟩⟩
  refine ⟨r, hr, hv', ?_⟩
  obtain ⟨on, hon, h5, -⟩ := hd hv'
  rw [hon.unique hl] at h5
  have := h5 (by rw [hx]; norm_num [distanceTolerance])
  rw [hx] at this
  have t := abs_le.1 this
  rw [abs_le]
  norm_num [distanceTolerance] at t ⊢
  constructor <;> linarith

/-- Non-vacuity of `C153_log_divergence`: a car 10 m from its logged position. -/
example : |(logDivergenceMetricFl (exactLibm float32)
    { pathScen (quarter 40) true with logTrajectory := fun _ _ => quarterPt (quarter 0) (quarter 0) (quarter 0) } 0).value.val - 10| ≤ 0.001 := by
  have h := (C153_log_divergence exactLibm_accurate
    { pathScen (quarter 40) true with logTrajectory := fun _ _ => quarterPt (quarter 0) (quarter 0) (quarter 0) } (t := 0) rfl 0).1
  have hd : dist2 (quarterPt (quarter 40) (quarter 0) (quarter 0)).exactXy (quarterPt (quarter 0) (quarter 0) (quarter 0)).exactXy = 10 := by
    have hx : (quarter 40).val = 10 := by norm_num [quarter]
    show √(((quarter 40).val - (quarter 0).val) ^ 2 + ((quarter 0).val - (quarter 0).val) ^ 2) = 10
    rw [hx, quarter_zero, show ((10 : ℝ) - 0) ^ 2 + (0 - 0) ^ 2 = 10 ^ 2 by norm_num, Real.sqrt_sq (by norm_num)]
  change |_ - dist2 (quarterPt (quarter 40) (quarter 0) (quarter 0)).exactXy (quarterPt (quarter 0) (quarter 0) (quarter 0)).exactXy| ≤
    distanceTolerance _ (dist2 (quarterPt (quarter 40) (quarter 0) (quarter 0)).exactXy (quarterPt (quarter 0) (quarter 0) (quarter 0)).exactXy) at h
  rw [hd] at h
  exact h.trans (by norm_num [distanceTolerance])

/-- Non-vacuity of `C153_delta_replay`: the car of C133. -/
example : ∃ out,
    rollout (K := Nat) (P := Unit) (baseEnv (deltaGlobalFl (.default float32)) driveCfg (fun _ => .ok ()) (fun _ _ => .ok (0 : Int)))
      (expertActor (deltaGlobalFl (.default float32)) (fun s i => (s.objectMetadata i).isSdc)) (fun k => (k, k + 1)) () id quarterScen 0 3
        = .ok out ∧
    ∀ k (hk : k < out.length), (logDivergenceMetricFl (exactLibm float32) out[k].state 0).value.val = 0 := by
  obtain ⟨out, ho⟩ := C14_rollout_succeeds (K := Nat) (P := Unit)
    (baseEnv (deltaGlobalFl (.default float32)) driveCfg (fun _ => .ok ()) (fun _ _ => .ok (0 : Int)))
    (expertActor (deltaGlobalFl (.default float32)) (fun s i => (s.objectMetadata i).isSdc)) (fun k => (k, k + 1)) () id quarterScen 0
    (n := 3) (by decide) ⟨_, rfl⟩ (fun s a => step_exists _ _ s a (by decide)) (fun _ => ⟨_, rfl⟩) (fun _ _ => ⟨_, rfl⟩)
  refine ⟨out, ho, fun k hk => C153_delta_replay exactLibm_accurate ho (by decide) (by decide) 0 (fun _ _ => rfl) (fun t t' htt _ => ?_) k hk⟩
  rw [float32_six.1, float32_six.2]
  refine ⟨⟨?_, C133_displacement_exact ?_⟩, ?_, C133_displacement_exact ?_⟩
  · fin_cases t <;> fin_cases t' <;> simp at htt <;> norm_num [quarterScen, quarterPt, quarter, abs_of_pos]
  · left
    fin_cases t <;> fin_cases t' <;> simp at htt <;> norm_num [quarterScen, quarterPt, quarter]
  · norm_num [quarterScen, quarterPt]
  · right
    norm_num [quarterScen, quarterPt, quarter]

/-- Non-vacuity of `C153_uncontrolled`: a car that no one controls, under arbitrary actions. -/
example (a b : Fin 1 → Act (Delta3Fl float32)) : ∃ s0 s1,
    Episode (deltaGlobalFl (.default float32)) driveCfg
      { quarterScen with objectMetadata := fun i => { quarterScen.objectMetadata i with isSdc := false } } s0 [a, b] s1 ∧
    ¬ IsControlled driveCfg s0 0 ∧ (logDivergenceMetricFl (exactLibm float32) s1 0).value.val = 0 := by
  obtain ⟨s0, s1, E⟩ := episode_exists (deltaGlobalFl (.default float32)) driveCfg
    { quarterScen with objectMetadata := fun i => { quarterScen.objectMetadata i with isSdc := false } } [a, b] rfl (by decide)
    (by show 1 + 2 ≤ 4; decide) (by decide)
  have hi : ¬ IsControlled driveCfg s0 0 := by
    rw [E.reset_data]
    exact Bool.false_ne_true
  exact ⟨s0, s1, E, hi, C153_uncontrolled exactLibm_accurate E 0 hi⟩

/-- Non-vacuity of `C153_state_replay`: the same car replayed with `StateDynamics`. -/
example : ∃ out,
    rollout (K := Nat) (P := Unit) (baseEnv stateDynamics driveCfg (fun _ => .ok ()) (fun _ _ => .ok (0 : Int)))
      (expertActor stateDynamics (fun s i => (s.objectMetadata i).isSdc)) (fun k => (k, k + 1)) () id quarterScen 0 3 = .ok out ∧
    ∀ k (hk : k < out.length), (logDivergenceMetricFl (exactLibm float32) out[k].state 0).value.val = 0 := by
  obtain ⟨out, ho⟩ := C14_rollout_succeeds (K := Nat) (P := Unit)
    (baseEnv stateDynamics driveCfg (fun _ => .ok ()) (fun _ _ => .ok (0 : Int)))
    (expertActor stateDynamics (fun s i => (s.objectMetadata i).isSdc)) (fun k => (k, k + 1)) () id quarterScen 0
    (n := 3) (by decide) ⟨_, rfl⟩ (fun s a => step_exists _ _ s a (by decide)) (fun _ => ⟨_, rfl⟩) (fun _ _ => ⟨_, rfl⟩)
  exact ⟨out, ho, fun k hk => C153_state_replay exactLibm_accurate ho (by decide) (by decide) k hk 0⟩

end Waymax
