import Verif.Props.Idm
import Verif.Props.Delta
import Mathlib.Analysis.Convex.SpecificFunctions.Basic
/-
C47, C77, C79: bounds on the IDM agent's speed and its reaction to the leader (real arithmetic).
-/

namespace Waymax

open Real

section
variable {n T : Nat} [NeZero T]

/-! ### C47 -/

/-- Never a negative speed, for any setting, state and object. -/
theorem C47_speed_nonneg {P : IdmParams} {s : SimState ℝ n T} {i : Fin n} {r : ℝ × Bool} (h : idmUpdateSpeed P s i = .ok r) :
    0 ≤ r.1 ∧ r.2 = true := by
  unfold idmUpdateSpeed at h
  simp only [bind, Except.bind, pure, Except.pure] at h
  split at h
  · cases h
  · have := Except.ok.inj h
    rw [← this]
    refine ⟨?_, rfl⟩
    simp only
    split
    · exact le_rfl
    · rename_i h; exact not_lt.1 h

theorem idmFollow_le_free {P : IdmParams} (ha : 0 ≤ P.maxAccel) (v u g : ℝ) : idmFollow P v u g ≤ idmFree P v := by
  unfold idmFollow
  have := mul_nonneg ha (sq_nonneg (idmDesiredGap P v u / (if g = 0 then 0.1 else g)))
  linarith

theorem speedAfter_mono {v a b : ℝ} (h : a ≤ b) : speedAfter v a ≤ speedAfter v b := by
  unfold speedAfter
  exact max_le_max le_rfl (by linarith)

/-- With or without a leader the new speed is at most the free-road one. -/
theorem le_free {P : IdmParams} (ha : 0 ≤ P.maxAccel) {s : SimState ℝ n T} {i : Fin n} {t : Fin T}
    (ht : (t : Int) = s.timestep) (hv : (s.simTrajectory i t).valid = true) {r : ℝ × Bool}
    (h : idmUpdateSpeed P s i = .ok r) :
    r.1 ≤ speedAfter (speedOf (s.simTrajectory i t)) (idmFree P (speedOf (s.simTrajectory i t))) := by
  obtain ⟨ws, hws⟩ := idmUpdateSpeed_lookahead ht h
  obtain ⟨-, h1, h2⟩ := C48_leader ht hv hws h
  by_cases hf : FreeRoad (fun j => s.simTrajectory j t) i ws
  · exact (h1 hf).le
  · obtain ⟨u, g, -, -, he⟩ := h2 hf
    rw [he]
    exact speedAfter_mono (idmFollow_le_free ha _ _ _)

/-- In one step the speed grows by at most `max_accel * dt`. -/
theorem C47_accel_bounded {P : IdmParams} (ha : 0 ≤ P.maxAccel) (hd : 0 < P.desiredVel) {s : SimState ℝ n T} {i : Fin n}
    {t : Fin T} (ht : (t : Int) = s.timestep) (hv : (s.simTrajectory i t).valid = true) {r : ℝ × Bool}
    (h : idmUpdateSpeed P s i = .ok r) : r.1 ≤ speedOf (s.simTrajectory i t) + 0.1 * P.maxAccel := by
  refine (le_free ha ht hv h).trans ?_
  have h0 := speedOf_nonneg (s.simTrajectory i t)
  have hp : 0 ≤ (speedOf (s.simTrajectory i t) / P.desiredVel) ^ P.delta := Real.rpow_nonneg (by positivity) _
  unfold speedAfter idmFree
  refine max_le (by positivity) ?_
  have := mul_nonneg ha hp
  linarith

/-- On a free road: at or below the desired speed the agent does not slow down, above it it does, and it keeps its speed exactly
at the desired one. -/
theorem C47_free_flow {P : IdmParams} (ha : 0 < P.maxAccel) (hd : 0 < P.desiredVel) (hδ : 0 < P.delta) {s : SimState ℝ n T}
    {i : Fin n} {t : Fin T} (ht : (t : Int) = s.timestep) (hv : (s.simTrajectory i t).valid = true) {ws : List (Pt ℝ)}
    (hws : idmLookahead P (s.logTrajectory i) (s.simTrajectory i t) = .ok ws)
    (hf : FreeRoad (fun j => s.simTrajectory j t) i ws) {r : ℝ × Bool} (h : idmUpdateSpeed P s i = .ok r) :
    let v := speedOf (s.simTrajectory i t)
    (v ≤ P.desiredVel → v ≤ r.1) ∧ (v < P.desiredVel → v < r.1) ∧ (P.desiredVel < v → r.1 < v) ∧
    (r.1 = v ↔ v = P.desiredVel) := by
  intro v
  have h0 : 0 ≤ v := speedOf_nonneg _
  have hr : r.1 = speedAfter v (idmFree P v) := (C48_leader ht hv hws h).2.1 hf
  have hlt : v < P.desiredVel → v < r.1 := by
    intro hvd
    have hq : (v / P.desiredVel) ^ P.delta < 1 := Real.rpow_lt_one (by positivity) ((div_lt_one hd).2 hvd) hδ
    rw [hr]
    unfold speedAfter idmFree
    refine lt_max_of_lt_right ?_
    have : 0 < P.maxAccel * (1 - (v / P.desiredVel) ^ P.delta) := mul_pos ha (by linarith)
    linarith
  have hgt : P.desiredVel < v → r.1 < v := by
    intro hvd
    have hq : 1 < (v / P.desiredVel) ^ P.delta := Real.one_lt_rpow ((one_lt_div hd).2 hvd) hδ
    rw [hr]
    unfold speedAfter idmFree
    refine max_lt (by linarith) ?_
    have : 0 < P.maxAccel * ((v / P.desiredVel) ^ P.delta - 1) := mul_pos ha (by linarith)
    linarith
  have heq : v = P.desiredVel → r.1 = v := by
    intro hvd
    rw [hr]
    unfold speedAfter idmFree
    rw [← hvd, div_self (by rw [hvd]; exact hd.ne'), Real.one_rpow]
    simp [h0]
  refine ⟨fun hle => ?_, hlt, hgt, ?_, heq⟩
  · rcases hle.lt_or_eq with h | h
    · exact (hlt h).le
    · exact (heq h).ge
  · intro he
    rcases lt_trichotomy v P.desiredVel with h | h | h
    · have := hlt h; linarith
    · exact h
    · have := hgt h; linarith

/-- The desired speed is not overshot: from at or below it, the next speed is at or below it, with or without a leader. The
setting must satisfy `1 ≤ delta` and `dt * max_accel * delta ≤ desired_vel` (the default: `0.8 ≤ 30`). -/
theorem C47_never_exceeds {P : IdmParams} (ha : 0 ≤ P.maxAccel) (hd : 0 < P.desiredVel) (hδ : 1 ≤ P.delta)
    (hstep : 0.1 * P.maxAccel * P.delta ≤ P.desiredVel) {s : SimState ℝ n T} {i : Fin n} {t : Fin T}
    (ht : (t : Int) = s.timestep) (hv : (s.simTrajectory i t).valid = true)
    (hle : speedOf (s.simTrajectory i t) ≤ P.desiredVel) {r : ℝ × Bool} (h : idmUpdateSpeed P s i = .ok r) :
    r.1 ≤ P.desiredVel := by
  refine (le_free ha ht hv h).trans ?_
  set v := speedOf (s.simTrajectory i t) with hvdef
  have h0 : 0 ≤ v := speedOf_nonneg _
  have hq0 : 0 ≤ v / P.desiredVel := by positivity
  have hq1 : v / P.desiredVel ≤ 1 := (div_le_one hd).2 hle
  have hb := one_add_mul_self_le_rpow_one_add (s := v / P.desiredVel - 1) (p := P.delta) (by linarith) hδ
  rw [add_sub_cancel] at hb
  unfold speedAfter idmFree
  refine max_le hd.le ?_
  have h1 : P.maxAccel * (1 - (v / P.desiredVel) ^ P.delta) ≤ P.maxAccel * (P.delta * (1 - v / P.desiredVel)) :=
    mul_le_mul_of_nonneg_left (by linarith) ha
  have h2 : 0.1 * P.maxAccel * P.delta * (1 - v / P.desiredVel) ≤ P.desiredVel * (1 - v / P.desiredVel) :=
    mul_le_mul_of_nonneg_right hstep (by linarith)
  have h3 : P.desiredVel * (1 - v / P.desiredVel) = P.desiredVel - v := by
    field_simp
  nlinarith

/-- The default setting meets all these conditions. -/
example : let P : IdmParams := {}
    0 < P.maxAccel ∧ 0 < P.desiredVel ∧ 0 < P.delta ∧ 1 ≤ P.delta ∧ 0.1 * P.maxAccel * P.delta ≤ P.desiredVel ∧
    0 ≤ P.minSpacing ∧ P.lookaheadFromCurrentPosition = true ∧ 0 < P.additionalLookaheadPoints ∧
    0 ≤ P.additionalLookaheadDistance := by
  norm_num

/-! ### C77: reaction to the leader -/

/-- Against the same own speed: a leader that is farther away and no slower (or no leader at all) never makes the agent slower.
A gap of exactly zero is treated as 10 cm, hence the last hypothesis on the gaps. -/
theorem C77_monotone {P : IdmParams} (ha : 0 ≤ P.maxAccel) (hs0 : 0 ≤ P.minSpacing)
    {s s' : SimState ℝ n T} {i i' : Fin n} {t t' : Fin T} (ht : (t : Int) = s.timestep) (ht' : (t' : Int) = s'.timestep)
    (hv : (s.simTrajectory i t).valid = true) (hv' : (s'.simTrajectory i' t').valid = true)
    (hsame : speedOf (s.simTrajectory i t) = speedOf (s'.simTrajectory i' t')) {ws ws' : List (Pt ℝ)}
    (hws : idmLookahead P (s.logTrajectory i) (s.simTrajectory i t) = .ok ws)
    (hws' : idmLookahead P (s'.logTrajectory i') (s'.simTrajectory i' t') = .ok ws')
    {u g : ℝ} (hu : LeadSpeed (fun j => s.simTrajectory j t) i ws u) (hg : LeadGap (fun j => s.simTrajectory j t) i ws g)
    (hbetter : FreeRoad (fun j => s'.simTrajectory j t') i' ws' ∨
      ∃ u' g', LeadSpeed (fun j => s'.simTrajectory j t') i' ws' u' ∧ LeadGap (fun j => s'.simTrajectory j t') i' ws' g' ∧
        u ≤ u' ∧ g ≤ g' ∧ (g = 0 → g' = 0 ∨ 0.1 ≤ g'))
    {r r' : ℝ × Bool} (h : idmUpdateSpeed P s i = .ok r) (h' : idmUpdateSpeed P s' i' = .ok r') : r.1 ≤ r'.1 := by
  have hr : r.1 = speedAfter (speedOf (s.simTrajectory i t)) (idmFollow P (speedOf (s.simTrajectory i t)) u g) := by
    obtain ⟨u1, g1, hu1, hg1, he⟩ := (C48_leader ht hv hws h).2.2 hu.not_free
    rw [he, hu.unique hu1, hg.unique hg1]
  rw [hr, hsame]
  set v := speedOf (s'.simTrajectory i' t') with hvdef
  rcases hbetter with hf | ⟨u', g', hu', hg', huu, hgg, hzero⟩
  · rw [(C48_leader ht' hv' hws' h').2.1 hf]
    exact speedAfter_mono (idmFollow_le_free ha _ _ _)
  · obtain ⟨u1, g1, hu1, hg1, he⟩ := (C48_leader ht' hv' hws' h').2.2 hu'.not_free
    rw [he, ← hu'.unique hu1, ← hg'.unique hg1]
    apply speedAfter_mono
    unfold idmFollow
    have hv0 : 0 ≤ v := speedOf_nonneg _
    have hgap : idmDesiredGap P v u' ≤ idmDesiredGap P v u := by
      unfold idmDesiredGap
      have hsq : 0 ≤ √(P.maxAccel * P.maxDecel) := Real.sqrt_nonneg _
      have hdiv : v * (v - u') / (2 * √(P.maxAccel * P.maxDecel)) ≤ v * (v - u) / (2 * √(P.maxAccel * P.maxDecel)) := by
        apply div_le_div_of_nonneg_right _ (by positivity)
        exact mul_le_mul_of_nonneg_left (by linarith) hv0
      have := max_le_max (le_refl (0 : ℝ)) (add_le_add_right hdiv (v * P.safeTimeHeadway))
      linarith
    have hgap0 : 0 ≤ idmDesiredGap P v u' := by
      unfold idmDesiredGap
      have := le_max_left (0 : ℝ) (v * P.safeTimeHeadway + v * (v - u') / (2 * √(P.maxAccel * P.maxDecel)))
      linarith
    have hg0 := hg.nonneg
    have hg0' := hg'.nonneg
    have hden : 0 < (if g = 0 then (0.1 : ℝ) else g) := by
      split
      · norm_num
      · exact lt_of_le_of_ne hg0 (Ne.symm (by assumption))
    have hden' : (if g = 0 then (0.1 : ℝ) else g) ≤ (if g' = 0 then (0.1 : ℝ) else g') := by
      by_cases h0 : g = 0
      · rw [if_pos h0]
        rcases hzero h0 with h1 | h1
        · rw [if_pos h1]
        · rw [if_neg (by intro h2; rw [h2] at h1; norm_num at h1)]
          exact h1
      · have : 0 < g := lt_of_le_of_ne hg0 (Ne.symm h0)
        rw [if_neg h0, if_neg (by linarith)]
        exact hgg
    have hq : idmDesiredGap P v u' / (if g' = 0 then (0.1 : ℝ) else g') ≤ idmDesiredGap P v u / (if g = 0 then (0.1 : ℝ) else g) :=
      div_le_div₀ (hgap0.trans hgap) hgap hden hden'
    have hq0 : 0 ≤ idmDesiredGap P v u' / (if g' = 0 then (0.1 : ℝ) else g') := div_nonneg hgap0 (hden.trans_le hden').le
    have := mul_le_mul_of_nonneg_left (pow_le_pow_left₀ hq0 hq 2) ha
    linarith

/-- Closer to the leader than the minimum spacing, the agent does not speed up. -/
theorem C77_no_speed_up_when_close {P : IdmParams} (ha : 0 ≤ P.maxAccel) (hd : 0 < P.desiredVel) {s : SimState ℝ n T}
    {i : Fin n} {t : Fin T} (ht : (t : Int) = s.timestep) (hv : (s.simTrajectory i t).valid = true) {ws : List (Pt ℝ)}
    (hws : idmLookahead P (s.logTrajectory i) (s.simTrajectory i t) = .ok ws) {g : ℝ}
    (hg : LeadGap (fun j => s.simTrajectory j t) i ws g) (hclose : g ≤ P.minSpacing) (hs0 : 0.1 ≤ P.minSpacing)
    {r : ℝ × Bool} (h : idmUpdateSpeed P s i = .ok r) : r.1 ≤ speedOf (s.simTrajectory i t) := by
  obtain ⟨u, g1, hu, hg1, he⟩ := (C48_leader ht hv hws h).2.2 hg.not_free
  rw [he, ← hg.unique hg1]
  set v := speedOf (s.simTrajectory i t) with hvdef
  have hv0 : 0 ≤ v := speedOf_nonneg _
  have hg0 := hg.nonneg
  have hden : 0 < (if g = 0 then (0.1 : ℝ) else g) := by
    split
    · norm_num
    · exact lt_of_le_of_ne hg0 (Ne.symm (by assumption))
  have hden' : (if g = 0 then (0.1 : ℝ) else g) ≤ P.minSpacing := by split <;> assumption
  have hgap : P.minSpacing ≤ idmDesiredGap P v u := by
    unfold idmDesiredGap
    have := le_max_left (0 : ℝ) (v * P.safeTimeHeadway + v * (v - u) / (2 * √(P.maxAccel * P.maxDecel)))
    linarith
  have hone : 1 ≤ idmDesiredGap P v u / (if g = 0 then (0.1 : ℝ) else g) := (one_le_div hden).2 (hden'.trans hgap)
  have hp : 0 ≤ (v / P.desiredVel) ^ P.delta := Real.rpow_nonneg (by positivity) _
  have h1 : idmFollow P v u g ≤ 0 := by
    unfold idmFollow idmFree
    have h2 : P.maxAccel * 1 ≤ P.maxAccel * (idmDesiredGap P v u / (if g = 0 then (0.1 : ℝ) else g)) ^ 2 :=
      mul_le_mul_of_nonneg_left (by nlinarith) ha
    have h3 := mul_nonneg ha hp
    linarith
  unfold speedAfter
  exact max_le hv0 (by linarith)

/-! ### C79: braking and max_decel -/

/-- The part that holds: on a free road at or below the desired speed there is no braking, and as long as the gap is at least
the desired gap, the agent brakes by at most `max_accel`. -/
theorem C79_gentle_braking_partial {P : IdmParams} (ha : 0 ≤ P.maxAccel) (hs0 : 0 ≤ P.minSpacing) (hd : 0 < P.desiredVel)
    (hδ : 0 ≤ P.delta) {s : SimState ℝ n T}
    {i : Fin n} {t : Fin T} (ht : (t : Int) = s.timestep) (hv : (s.simTrajectory i t).valid = true)
    (hle : speedOf (s.simTrajectory i t) ≤ P.desiredVel) {ws : List (Pt ℝ)}
    (hws : idmLookahead P (s.logTrajectory i) (s.simTrajectory i t) = .ok ws) {u g : ℝ}
    (hu : LeadSpeed (fun j => s.simTrajectory j t) i ws u) (hg : LeadGap (fun j => s.simTrajectory j t) i ws g)
    (hfar : idmDesiredGap P (speedOf (s.simTrajectory i t)) u ≤ g) (hpos : 0 < g)
    {r : ℝ × Bool} (h : idmUpdateSpeed P s i = .ok r) : speedOf (s.simTrajectory i t) - r.1 ≤ 0.1 * P.maxAccel := by
  obtain ⟨u1, g1, hu1, hg1, he⟩ := (C48_leader ht hv hws h).2.2 hu.not_free
  rw [he, ← hg.unique hg1, ← hu.unique hu1]
  set v := speedOf (s.simTrajectory i t) with hvdef
  have hv0 : 0 ≤ v := speedOf_nonneg _
  have hq : (v / P.desiredVel) ^ P.delta ≤ 1 := Real.rpow_le_one (by positivity) ((div_le_one hd).2 hle) hδ
  have hgap0 : 0 ≤ idmDesiredGap P v u := by
    unfold idmDesiredGap
    have := le_max_left (0 : ℝ) (v * P.safeTimeHeadway + v * (v - u) / (2 * √(P.maxAccel * P.maxDecel)))
    linarith
  have hratio : (idmDesiredGap P v u / g) ^ 2 ≤ 1 := by
    have h1 : idmDesiredGap P v u / g ≤ 1 := (div_le_one hpos).2 hfar
    have h2 : 0 ≤ idmDesiredGap P v u / g := by positivity
    nlinarith
  have h1 : -P.maxAccel ≤ idmFollow P v u g := by
    unfold idmFollow idmFree
    rw [if_neg hpos.ne']
    have h2 := mul_le_mul_of_nonneg_left hratio ha
    have h3 := mul_le_mul_of_nonneg_left hq ha
    linarith
  unfold speedAfter
  have := le_max_right 0 (v + 0.1 * idmFollow P v u g)
  linarith

end

/-- The claim: in one step the speed drops by at most `max_decel * dt`. -/
def BrakingBounded (n T : Nat) [NeZero T] (P : IdmParams) : Prop :=
  ∀ (s : SimState ℝ n T) (i : Fin n) (t : Fin T), (t : Int) = s.timestep → (s.simTrajectory i t).valid = true →
    ∀ r, idmUpdateSpeed P s i = .ok r → speedOf (s.simTrajectory i t) - r.1 ≤ 0.1 * P.maxDecel

/-- A car at 10 m/s, and a stopped car 5.5 m ahead (both 4 m by 2 m). -/
noncomputable def jamScen : SimState ℝ 2 1 :=
  { simTrajectory := fun i _ => if i = 0 then ptAt 0 0 0 10 0 else ptAt 5.5 0 0 0 0
    logTrajectory := fun i _ => if i = 0 then ptAt 0 0 0 10 0 else ptAt 5.5 0 0 0 0
    logTrafficLight := [], objectMetadata := fun i => ⟨i.val, 1, decide (i = 0), true, true, false, false⟩
    timestep := 0, sdcPaths := none, roadgraphPoints := none }

theorem jam_meets (k : ℕ) : Meets (fun j => jamScen.simTrajectory j 0) 0 (aheadOf (jamScen.simTrajectory 0 0)
    (({} : IdmParams).additionalLookaheadDistance * k / ({} : IdmParams).additionalLookaheadPoints)) 1 ↔
    |(k : ℝ) - 5.5| < 4 := by
  have hk : ({} : IdmParams).additionalLookaheadDistance * (k : ℝ) / ({} : IdmParams).additionalLookaheadPoints = k := by
    norm_num
  rw [hk]
  constructor
  · rintro ⟨-, -, -, p, ⟨u, v, hu, hv, hp⟩, ⟨u', v', hu', hv', hp'⟩⟩
    have h := congrArg Prod.fst (hp.symm.trans hp')
    simp only [jamScen, ptAt, pointAt, heading, leftOf, aheadOf, if_true, Real.cos_zero, Real.sin_zero] at h hu hu'
    norm_num at h hu hu'
    rw [abs_lt] at hu hu' ⊢
    constructor <;> linarith [hu.1, hu.2, hu'.1, hu'.2]
  · intro h
    rw [abs_lt] at h
    refine ⟨by decide, rfl, rfl, ((k + 5.5) / 2, 0), ⟨(5.5 - k) / 2, 0, ?_, ?_, ?_⟩, ⟨(k - 5.5) / 2, 0, ?_, ?_, ?_⟩⟩
    · simp [jamScen, ptAt, aheadOf]
      rw [abs_lt]
      constructor <;> linarith [h.1, h.2]
    · simp [jamScen, ptAt, aheadOf]
    · simp [jamScen, ptAt, aheadOf, pointAt, heading, leftOf]
      ring
    · simp [jamScen, ptAt]
      rw [abs_lt]
      constructor <;> linarith [h.1, h.2]
    · simp [jamScen, ptAt]
    · simp [jamScen, ptAt, pointAt, heading, leftOf]
      ring

/-- The default agent in that scene: the leader is met 2 m ahead, and the agent stops dead within one step. -/
theorem jam_stops : idmUpdateSpeed {} jamScen 0 = .ok (0, true) := by
  obtain ⟨speed, h1, -, h3⟩ := C48_default (P := {}) rfl (by norm_num) (by norm_num) (s := jamScen) (i := 0) (t := 0) rfl rfl
  have hself : ∀ k : ℕ, ∀ j, Meets (fun j => jamScen.simTrajectory j 0) 0 (aheadOf (jamScen.simTrajectory 0 0)
      (({} : IdmParams).additionalLookaheadDistance * k / ({} : IdmParams).additionalLookaheadPoints)) j → j = 1 := by
    intro k j hj
    have := hj.1
    fin_cases j
    · exact absurd rfl this
    · rfl
  obtain ⟨j, hj, -, hs⟩ := h3 2 (by norm_num)
    (by
      intro k' hk' j hj
      have h1 := hself k' j hj
      subst h1
      have h2 := (jam_meets k').1 hj
      rw [abs_lt] at h2
      have : (k' : ℝ) ≤ 1 := by exact_mod_cast (by omega : k' ≤ 1)
      linarith [h2.1])
    ⟨1, (jam_meets 2).2 (by norm_num [abs_lt])⟩
  have hj1 := hself 2 j hj
  subst hj1
  rw [h1, hs]
  have hv : speedOf (jamScen.simTrajectory 0 0) = 10 := by
    simp [jamScen, speedOf, norm2, ptAt]
  have hu : speedOf (jamScen.simTrajectory 1 0) = 0 := by
    simp [jamScen, speedOf, norm2, ptAt]
  rw [hv, hu]
  have : speedAfter 10 (idmFollow {} 10 0 ((10 : ℝ) * ((2 : ℕ) : ℝ) / ((10 : ℕ) : ℝ))) = 0 := by
    unfold speedAfter
    apply max_eq_left
    have hg : (10 : ℝ) * ((2 : ℕ) : ℝ) / ((10 : ℕ) : ℝ) = 2 := by norm_num
    rw [hg]
    unfold idmFollow idmFree
    have hgap : 22 ≤ idmDesiredGap {} 10 0 := by
      unfold idmDesiredGap
      have h0 : (0 : ℝ) ≤ 10 * (10 - 0) / (2 * √(2 * 4)) := by positivity
      have := le_max_right (0 : ℝ) (10 * 2 + 10 * (10 - 0) / (2 * √(2 * 4)))
      simp only
      linarith
    have hp : (0 : ℝ) ≤ (10 / 30 : ℝ) ^ (4 : ℝ) := by positivity
    rw [if_neg (by norm_num)]
    simp only
    nlinarith
  exact congrArg (fun x => Except.ok (x, true)) this

/-- The code violates the claim with the default setting: in that scene the speed drops from 10 m/s to 0 in 0.1 s. -/
theorem C79_violated : ¬ BrakingBounded 2 1 {} := by
  intro h
  have h1 := h jamScen 0 0 rfl rfl _ jam_stops
  have hv : speedOf (jamScen.simTrajectory 0 0) = 10 := by
    simp [jamScen, speedOf, norm2, ptAt]
  rw [hv] at h1
  norm_num at h1

/-- C77's hypotheses are met in the same scene: leader speed 0, gap 2 m = the default minimum spacing. -/
example : ∃ ws, idmLookahead {} (jamScen.logTrajectory 0) (jamScen.simTrajectory 0 0) = .ok ws ∧
    ∃ u g, LeadSpeed (fun j => jamScen.simTrajectory j 0) 0 ws u ∧ LeadGap (fun j => jamScen.simTrajectory j 0) 0 ws g := by
  obtain ⟨ws, hws⟩ := idmUpdateSpeed_lookahead (t := 0) rfl jam_stops
  refine ⟨ws, hws, ?_⟩
  have hne : ¬ FreeRoad (fun j => jamScen.simTrajectory j 0) 0 ws := by
    rw [lookahead_default rfl (by norm_num)] at hws
    have := Except.ok.inj hws
    subst this
    intro hf
    exact hf _ (List.mem_map.2 ⟨2, List.mem_range.2 (by norm_num), rfl⟩) 1 (by
      exact (jam_meets 2).2 (by norm_num [abs_lt]))
  obtain ⟨u, g, h1, h2, -⟩ := (C48_leader (t := 0) rfl rfl hws jam_stops).2.2 hne
  exact ⟨u, g, h1, h2⟩

end Waymax
