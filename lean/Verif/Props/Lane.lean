import Verif.Spec.Lane
import Verif.Props.Foresight
/-
C192: on a straight road the default IDM agent does not run into parked objects (real arithmetic).
-/

namespace Waymax

open Real

/-- The agent stops for a parked object: if it is at least a tenth of a second away, it still is after the next time step. `k` is the
distance of the first sampled point at which the agent sees the object, at most one metre beyond the contact. -/
theorem gap_kept {v g k : ℝ} (h0 : 0 ≤ v) (hg : 0.1 * v ≤ g) (hk0 : 0 < k) (hk : k ≤ g + 1) :
    (v + speedAfter v (idmFollow {} v 0 k)) / 2 * 0.1 + 0.1 * speedAfter v (idmFollow {} v 0 k) ≤ g := by
  set v' := speedAfter v (idmFollow {} v 0 k) with hv'
  by_cases hz : v' = 0
  · rw [hz]; linarith
  have hpos : v' = v + 0.1 * idmFollow {} v 0 k := by
    rw [hv']
    unfold speedAfter
    refine max_eq_right ?_
    by_contra hc
    apply hz
    rw [hv']
    exact max_eq_left (not_le.1 hc).le
  have hv'0 : 0 ≤ v' := le_max_left _ _
  by_contra hcon
  rw [not_le] at hcon
  have hfree : idmFree {} v ≤ 2 := by
    unfold idmFree
    have : (0 : ℝ) ≤ (v / 30) ^ (4 : ℝ) := Real.rpow_nonneg (by positivity) _
    linarith
  have hsq : √(2 * 4 : ℝ) ≤ 3 := by
    rw [Real.sqrt_le_left (by norm_num)]; norm_num
  have hsq0 : (0 : ℝ) < √(2 * 4 : ℝ) := Real.sqrt_pos.2 (by norm_num)
  have hgap : 2 + 2 * v + v ^ 2 / 6 ≤ idmDesiredGap {} v 0 := by
    unfold idmDesiredGap
    simp only [sub_zero]
    have h1 : v ^ 2 / 6 ≤ v * v / (2 * √(2 * 4 : ℝ)) := by
      rw [← sq]
      exact div_le_div_of_nonneg_left (sq_nonneg v) (by linarith) (by linarith)
    have := le_max_right (0 : ℝ) (v * 2 + v * v / (2 * √(2 * 4 : ℝ)))
    linarith
  have hacc : idmFollow {} v 0 k ≤ 2 - 2 * (idmDesiredGap {} v 0 / k) ^ 2 := by
    unfold idmFollow
    rw [if_neg hk0.ne']
    simp only
    linarith
  have hsq' := sq_nonneg (idmDesiredGap {} v 0 / k)
  have hle : v' ≤ v + 0.2 := by rw [hpos]; linarith
  have hkv : k < 1.03 + 0.2 * v := by linarith
  have hdiv : (2 + 2 * v + v ^ 2 / 6) / (1.03 + 0.2 * v) ≤ idmDesiredGap {} v 0 / k :=
    div_le_div₀ (le_trans (by positivity) hgap) hgap hk0 hkv.le
  have hd0 : 0 < 1.03 + 0.2 * v := by linarith
  have hge : v + 0.2 ≤ 0.2 * ((2 + 2 * v + v ^ 2 / 6) / (1.03 + 0.2 * v)) ^ 2 := by
    rw [div_pow, ← mul_div_assoc, le_div_iff₀ (by positivity)]
    nlinarith [mul_nonneg h0 h0, mul_nonneg (mul_nonneg h0 h0) h0, mul_nonneg (mul_nonneg h0 h0) (mul_nonneg h0 h0)]
  have hpow : ((2 + 2 * v + v ^ 2 / 6) / (1.03 + 0.2 * v)) ^ 2 ≤ (idmDesiredGap {} v 0 / k) ^ 2 :=
    pow_le_pow_left₀ (by positivity) hdiv 2
  have : v' ≤ 0 := by rw [hpos]; linarith
  exact hz (le_antisymm this hv'0)

/-- The point of a line nearest to a point of the line. -/
theorem foot_on_line {w : Pt ℝ} {q r : ℝ × ℝ} {s : ℝ} (h : FootOn w q r) (hq : q = posOf (aheadOf w s)) : r = q := by
  have := h.2 s
  rw [← hq] at this
  have h0 : dist2 q q = 0 := by simp [dist2]
  rw [h0] at this
  unfold dist2 at this
  have hz : (r.1 - q.1) ^ 2 + (r.2 - q.2) ^ 2 = 0 := by
    have h1 := Real.sqrt_eq_zero'.1 (le_antisymm this (Real.sqrt_nonneg _))
    nlinarith [sq_nonneg (r.1 - q.1), sq_nonneg (r.2 - q.2)]
  have e1 : (r.1 - q.1) ^ 2 = 0 := by nlinarith [sq_nonneg (r.1 - q.1), sq_nonneg (r.2 - q.2)]
  have e2 : (r.2 - q.2) ^ 2 = 0 := by nlinarith [sq_nonneg (r.1 - q.1), sq_nonneg (r.2 - q.2)]
  exact Prod.ext (by linarith [pow_eq_zero_iff (two_ne_zero) |>.1 e1]) (by linarith [pow_eq_zero_iff (two_ne_zero) |>.1 e2])

theorem aheadOf_add (p : Pt ℝ) (d s : ℝ) : aheadOf (aheadOf p d) s = aheadOf p (d + s) := by
  simp only [aheadOf]
  congr 1 <;> ring

section
variable {D K P : Type} {n T : Nat} [NeZero T]

/-- Object `i` is where it gets from `p` by driving `d` metres straight on. -/
structure DrivenAhead (p : Pt ℝ) (d : ℝ) (c : Pt ℝ) : Prop where
  pos : posOf c = posOf (aheadOf p d)
  yaw : c.yaw = p.yaw
  length : c.length = p.length
  width : c.width = p.width
  valid : c.valid = true

theorem DrivenAhead.ahead {p c : Pt ℝ} {d : ℝ} (h : DrivenAhead p d c) (hp : p.valid = true) (s : ℝ) (o : Fin n → Pt ℝ) (i j : Fin n) :
    Meets o i (aheadOf c s) j ↔ Meets o i (aheadOf p (d + s)) j := by
  have h1 : c.x = p.x + d * (heading p.yaw).1 := congrArg Prod.fst h.pos
  have h2 : c.y = p.y + d * (heading p.yaw).2 := congrArg Prod.snd h.pos
  have ex : (aheadOf c s).x = (aheadOf p (d + s)).x := by simp only [aheadOf, h.yaw, h1]; ring
  have ey : (aheadOf c s).y = (aheadOf p (d + s)).y := by simp only [aheadOf, h.yaw, h2]; ring
  have el : (aheadOf c s).length = (aheadOf p (d + s)).length := h.length
  have ew : (aheadOf c s).width = (aheadOf p (d + s)).width := h.width
  have ez : (aheadOf c s).yaw = (aheadOf p (d + s)).yaw := h.yaw
  have ev : (aheadOf c s).valid = (aheadOf p (d + s)).valid := h.valid.trans hp.symm
  unfold Meets
  rw [ex, ey, el, ew, ez, ev]

/-- What the agent decides on a straight road among parked objects: the distance it covers in the next time step and its new speed
keep every object that blocks the way at least a tenth of a second away. -/
theorem idm_keeps {s : SimState ℝ n T} {i : Fin n} {t : Fin T} (ht : (t : Int) = s.timestep) {p : Pt ℝ} {o : Fin n → Pt ℝ} {d : ℝ}
    (hp : p.valid = true) (hd : 0 ≤ d) (hc : DrivenAhead p d (s.simTrajectory i t)) (hv : speedOf (s.simTrajectory i t) ≤ 30)
    (ho : ∀ j, j ≠ i → StandsAs (s.simTrajectory j t) (o j)) (hpark : ∀ j, j ≠ i → (o j).valid = true → speedOf (o j) = 0)
    (hway : ∀ j, j ≠ i → LaneClear p o i j ∨ ∃ g, d + 0.1 * speedOf (s.simTrajectory i t) ≤ g ∧ BlocksLane p o i j g) :
    ∃ v', idmUpdateSpeed {} s i = .ok (v', true) ∧ 0 ≤ v' ∧ v' ≤ 30 ∧
      ∀ j g, j ≠ i → d + 0.1 * speedOf (s.simTrajectory i t) ≤ g → BlocksLane p o i j g →
        d + (speedOf (s.simTrajectory i t) + v') / 2 * 0.1 + 0.1 * v' ≤ g := by
  obtain ⟨v', hs, hfree, hlead⟩ := C48_default (P := {}) rfl (by norm_num) (by norm_num) ht hc.valid
  simp only [Nat.cast_ofNat] at hfree hlead
  set v := speedOf (s.simTrajectory i t) with hvdef
  have h0 : 0 ≤ v := speedOf_nonneg _
  have hmax : v' ≤ 30 := C47_never_exceeds (P := {}) (by norm_num) (by norm_num) (by norm_num) (by norm_num) ht hc.valid hv hs
  have hacc : v' ≤ v + 0.1 * 2 := C47_accel_bounded (P := {}) (by norm_num) (by norm_num) ht hc.valid hs
  have h0' : 0 ≤ v' := (C47_speed_nonneg hs).1
  have hmeets : ∀ (w : Pt ℝ) j, Meets (fun j => s.simTrajectory j t) i w j ↔ Meets o i w j := by
    intro w j
    unfold Meets
    by_cases hj : j = i
    · simp [hj]
    · obtain ⟨h1, h2, h3, h4, h5, -, -, h8⟩ := ho j hj
      simp only [h1, h2, h3, h4, h5, h8]
  refine ⟨v', hs, h0', hmax, fun j g hj hg hb => ?_⟩
  -- the agent sees the object at the first whole metre beyond the contact
  have hsee : ∀ k : ℕ, g - d < k → (k : ℝ) ≤ g - d + 1 → Meets (fun j => s.simTrajectory j t) i
      (aheadOf (s.simTrajectory i t) (10 * k / 10)) j := by
    intro k h1 h2
    rw [hmeets, hc.ahead hp]
    have e : (10 * (k : ℝ) / 10) = k := by ring
    rw [e]
    exact hb.2 _ (by linarith) (by linarith)
  have hgd : 0 ≤ g - d := by linarith
  have hf1 := Nat.lt_floor_add_one (g - d)
  have hf2 := Nat.floor_le hgd
  by_cases hex : ∃ k ≤ 10, ∃ j, Meets (fun j => s.simTrajectory j t) i (aheadOf (s.simTrajectory i t) (10 * (k : ℕ) / 10)) j
  · classical
    have hmin := Nat.find_spec hex
    set k := Nat.find hex with hk
    have hfirst : ∀ k' < k, ∀ j, ¬ Meets (fun j => s.simTrajectory j t) i (aheadOf (s.simTrajectory i t) (10 * (k' : ℕ) / 10)) j := by
      intro k' hk' j' hm
      exact Nat.find_min hex hk' ⟨by omega, j', hm⟩
    obtain ⟨j', hm', -, hsp⟩ := hlead k hmin.1 hfirst hmin.2
    have hne : j' ≠ i := hm'.1
    have hval : (o j').valid = true := by
      rw [← (ho j' hne).valid]
      exact hm'.2.2.1
    have e : (10 * (k : ℝ) / 10) = k := by ring
    have hsame : speedOf (s.simTrajectory j' t) = speedOf (o j') := by
      unfold speedOf; rw [(ho j' hne).velX, (ho j' hne).velY]
    rw [hsame, hpark j' hne hval, e] at hsp
    have hkg : (k : ℝ) ≤ g - d + 1 := by
      by_contra hc'
      rw [not_le] at hc'
      refine hfirst (⌊g - d⌋₊ + 1) ?_ j (hsee _ (by push_cast; exact hf1) (by push_cast; linarith))
      have : ((⌊g - d⌋₊ + 1 : ℕ) : ℝ) < k := by push_cast; linarith
      exact_mod_cast this
    by_cases hk0 : k = 0
    · exfalso
      rw [hk0] at hm'
      rw [hmeets, hc.ahead hp] at hm'
      have e0 : d + 10 * ((0 : ℕ) : ℝ) / 10 = d := by simp
      rw [e0] at hm'
      rcases hway j' hne with h | ⟨g', hg', h⟩
      · exact h d hd hm'
      · exact h.1 d hd (by linarith) hm'
    · have := gap_kept (g := g - d) h0 (by linarith) (k := k) (by exact_mod_cast Nat.pos_of_ne_zero hk0) hkg
      rw [← hsp] at this
      linarith
  · have hfar : 10 ≤ g - d := by
      by_contra hc'
      rw [not_le] at hc'
      refine hex ⟨⌊g - d⌋₊ + 1, ?_, j, hsee _ (by push_cast; exact hf1) (by push_cast; linarith)⟩
      have : (⌊g - d⌋₊ : ℝ) < 10 := by linarith
      have : ⌊g - d⌋₊ < 10 := by exact_mod_cast this
      omega
    linarith

/-- One step of the planning environment on a straight road: the object moves straight on at the mean of its speeds and takes over the
speed chosen by the agent. -/
theorem lane_moves {E : PlanEnv D Unit K P n T} {a : Nat} {ctrl : SimState ℝ n T → Fin n → Bool} {i : Fin n} {scen : SimState ℝ n T}
    (hD : DrivenBy E a ctrl (waypointUpdate false (idmSpeeds {})) i scen) {split : K → Nat → List K}
    (hsplit : ∀ k m, (split k m).length = m) {s s' : PlanState Unit n T} {act : Act D} {rng : Option K}
    (hscen : SameScenario scen s.sim) (hst : planStep E split s act rng = .ok s') {t t' : Fin T} (ht : (t : Int) = s.sim.timestep)
    (ht' : (t' : Int) = s.sim.timestep + 1) {p : Pt ℝ} {d L : ℝ} (hd : 0 ≤ d)
    (hdL : d + 3 ≤ L) (hroute : StraightRoute (scen.logTrajectory i) p L)
    (hc : DrivenAhead p d (s.sim.simTrajectory i t)) (hv : speedOf (s.sim.simTrajectory i t) ≤ 30) {v' : ℝ}
    (hs : idmUpdateSpeed {} s.sim i = .ok (v', true)) (h0 : 0 ≤ v') (hmax : v' ≤ 30) :
    DrivenAhead p (d + (v' + speedOf (s.sim.simTrajectory i t)) / 2 * 0.1) (s'.sim.simTrajectory i t') ∧
      speedOf (s'.sim.simTrajectory i t') = v' ∧ s'.sim.timestep = s.sim.timestep + 1 ∧ SameScenario scen s'.sim := by
  obtain ⟨⟨ux, uy, uyaw, uvx, uvy⟩, uv, ⟨-, ul, uw, -⟩, hts, hsc⟩ := driven_step hD hsplit hscen hst ht ht'
  have hsp : idmSpeeds {} s.sim i = (v', true) := by unfold idmSpeeds; rw [hs]
  obtain ⟨t0, hn, hgo, -⟩ := waypoint_spec (inv := false) (us := idmSpeeds {}) (i := i) ht hc.valid (by rw [hsp])
    (by rw [hscen.log]; exact hroute.logged)
  rw [hsp, hscen.log] at hn hgo
  set c := s.sim.simTrajectory i t with hcdef
  set v := speedOf c with hvdef
  have hv0 : 0 ≤ v := speedOf_nonneg _
  set m := (v' + v) / 2 * 0.1 with hm
  have hm0 : 0 ≤ m := by positivity
  have hm3 : m ≤ 3 := by rw [hm]; linarith
  have hq : coast c v' = posOf (aheadOf p (d + m)) := by
    have h1 : c.x = p.x + d * (heading p.yaw).1 := congrArg Prod.fst hc.pos
    have h2 : c.y = p.y + d * (heading p.yaw).2 := congrArg Prod.snd hc.pos
    unfold coast posOf aheadOf
    rw [hc.yaw, h1, h2]
    refine Prod.ext ?_ ?_ <;> simp only [← hvdef] <;> rw [hm] <;> ring
  rw [hq] at hn hgo
  obtain ⟨hfoot, hyaw, hvx, hvy, -⟩ := hgo (hroute.goesOn _ (by linarith) (by linarith) t0 hn)
  obtain ⟨wyaw, x0, wpos⟩ := hroute.straight t0 hn.1
  have hline : posOf (aheadOf p (d + m)) = posOf (aheadOf (scen.logTrajectory i t0) (d + m - x0)) := by
    have h1 : (scen.logTrajectory i t0).x = p.x + x0 * (heading p.yaw).1 := congrArg Prod.fst wpos
    have h2 : (scen.logTrajectory i t0).y = p.y + x0 * (heading p.yaw).2 := congrArg Prod.snd wpos
    unfold posOf aheadOf
    rw [wyaw, h1, h2]
    refine Prod.ext ?_ ?_ <;> simp only <;> ring
  have hpos := foot_on_line hfoot hline
  have hspeed : speedOf (s'.sim.simTrajectory i t') = v' := by
    unfold speedOf
    rw [uvx, uvy, hvx, hvy]
    have : norm2 (v' * (heading c.yaw).1, v' * (heading c.yaw).2) = √(v' ^ 2 * (cos c.yaw ^ 2 + sin c.yaw ^ 2)) := by
      unfold norm2 heading
      congr 1
      ring
    rw [this, cos_sq_add_sin_sq, mul_one, Real.sqrt_sq h0]
  refine ⟨⟨?_, ?_, ul.trans hc.length, uw.trans hc.width, uv hc.valid⟩, hspeed, hts, hsc⟩
  · rw [← hpos]
    unfold posOf
    rw [ux, uy]
  · rw [uyaw, hyaw, wyaw]

/-- One step of the planning environment among parked objects. -/
theorem lane_step {E : PlanEnv D Unit K P n T} {a : Nat} {ctrl : SimState ℝ n T → Fin n → Bool} {i : Fin n} {scen : SimState ℝ n T}
    (hD : DrivenBy E a ctrl (waypointUpdate false (idmSpeeds {})) i scen) {split : K → Nat → List K}
    (hsplit : ∀ k m, (split k m).length = m) {s s' : PlanState Unit n T} {act : Act D} {rng : Option K}
    (hscen : SameScenario scen s.sim) (hst : planStep E split s act rng = .ok s') {t t' : Fin T} (ht : (t : Int) = s.sim.timestep)
    (ht' : (t' : Int) = s.sim.timestep + 1) {p : Pt ℝ} {o : Fin n → Pt ℝ} {d L : ℝ} (hp : p.valid = true) (hd : 0 ≤ d)
    (hdL : d + 3 ≤ L) (hroute : StraightRoute (scen.logTrajectory i) p L)
    (hc : DrivenAhead p d (s.sim.simTrajectory i t)) (hv : speedOf (s.sim.simTrajectory i t) ≤ 30)
    (ho : ∀ j, j ≠ i → StandsAs (s.sim.simTrajectory j t) (o j)) (hpark : ∀ j, j ≠ i → (o j).valid = true → speedOf (o j) = 0)
    (hway : ∀ j, j ≠ i → LaneClear p o i j ∨ ∃ g, d + 0.1 * speedOf (s.sim.simTrajectory i t) ≤ g ∧ BlocksLane p o i j g) :
    ∃ d', d ≤ d' ∧ d' ≤ d + 3 ∧ DrivenAhead p d' (s'.sim.simTrajectory i t') ∧ speedOf (s'.sim.simTrajectory i t') ≤ 30 ∧
      (∀ j g, j ≠ i → d + 0.1 * speedOf (s.sim.simTrajectory i t) ≤ g → BlocksLane p o i j g →
        d' + 0.1 * speedOf (s'.sim.simTrajectory i t') ≤ g) ∧
      s'.sim.timestep = s.sim.timestep + 1 ∧ SameScenario scen s'.sim := by
  obtain ⟨v', hs, h0, hmax, hkeep⟩ := idm_keeps ht hp hd hc hv ho hpark hway
  obtain ⟨hc', hspeed, hts, hsc⟩ := lane_moves hD hsplit hscen hst ht ht' hd hdL hroute hc hv hs h0 hmax
  have hv0 := speedOf_nonneg (s.sim.simTrajectory i t)
  refine ⟨_, by linarith, by linarith, hc', by rw [hspeed]; exact hmax, ?_, hts, hsc⟩
  intro j g hj hg hb
  rw [hspeed]
  have := hkeep j g hj hg hb
  linarith

/-- On a straight road the default IDM agent does not run into parked objects. Object `i` is driven by the agent, at most at the
desired speed, along a route that leads straight on; the other objects stand still, and every one that is in the way blocks it for at
least a metre and is at least a tenth of a second away. Then, at every step of every episode, object `i` overlaps no other object; it
drives straight on, never backwards, never beyond the contact with an object, and never faster than 30 m/s. -/
theorem C192_no_collision {E : PlanEnv D Unit K P n T} {a : Nat} {ctrl : SimState ℝ n T → Fin n → Bool} {i : Fin n}
    {scen : SimState ℝ n T} (hD : DrivenBy E a ctrl (waypointUpdate false (idmSpeeds {})) i scen) {split : K → Nat → List K}
    (hsplit : ∀ k m, (split k m).length = m) {N : Nat} {st : Nat → PlanState Unit n T} {acts : Nat → Act D} {keys : Nat → Option K}
    (hstep : ∀ m < N, planStep E split (st m) (acts m) (keys m) = .ok (st (m + 1))) (hscen : SameScenario scen (st 0).sim)
    {t : Nat → Fin T} (ht : ∀ m ≤ N, ((t m : Fin T) : Int) = (st 0).sim.timestep + m) {o : Fin n → Pt ℝ}
    (ho : ∀ m ≤ N, ∀ j, j ≠ i → StandsAs ((st m).sim.simTrajectory j (t m)) (o j))
    (hpark : ∀ j, j ≠ i → (o j).valid = true → speedOf (o j) = 0)
    (hvalid : ((st 0).sim.simTrajectory i (t 0)).valid = true) (hv : speedOf ((st 0).sim.simTrajectory i (t 0)) ≤ 30)
    (hroute : StraightRoute (scen.logTrajectory i) ((st 0).sim.simTrajectory i (t 0)) (3 * N))
    (hway : WayAhead ((st 0).sim.simTrajectory i (t 0)) o i) (m : Nat) (hm : m ≤ N) :
    let p := (st 0).sim.simTrajectory i (t 0)
    let c := (st m).sim.simTrajectory i (t m)
    (∀ j, ¬ Meets o i c j) ∧ c.valid = true ∧ speedOf c ≤ 30 ∧ c.yaw = p.yaw ∧
      ∃ d : ℝ, 0 ≤ d ∧ posOf c = posOf (aheadOf p d) ∧ ∀ j g, j ≠ i → 0.1 * speedOf p ≤ g → BlocksLane p o i j g → d ≤ g := by
  intro p c
  have key : ∀ m, m ≤ N → ∃ d : ℝ, 0 ≤ d ∧ d ≤ 3 * m ∧ DrivenAhead p d ((st m).sim.simTrajectory i (t m)) ∧
      speedOf ((st m).sim.simTrajectory i (t m)) ≤ 30 ∧
      (∀ j g, j ≠ i → 0.1 * speedOf p ≤ g → BlocksLane p o i j g → d + 0.1 * speedOf ((st m).sim.simTrajectory i (t m)) ≤ g) ∧
      (st m).sim.timestep = (st 0).sim.timestep + m ∧ SameScenario scen (st m).sim := by
    intro m
    induction m with
    | zero =>
      intro _
      refine ⟨0, le_rfl, by simp, ⟨by simp [aheadOf, posOf, p], rfl, rfl, rfl, hvalid⟩, hv, fun j g _ hg _ => ?_, by simp, hscen⟩
      rw [zero_add]
      exact hg
    | succ m ih =>
      intro hmN
      obtain ⟨d, hd0, hd3, hc, hv, hg, hts, hsc⟩ := ih (by omega)
      have hway' : ∀ j, j ≠ i → LaneClear p o i j ∨
          ∃ g, d + 0.1 * speedOf ((st m).sim.simTrajectory i (t m)) ≤ g ∧ BlocksLane p o i j g := by
        intro j hj
        rcases hway j hj with h | ⟨g, h1, h2⟩
        · exact .inl h
        · exact .inr ⟨g, hg j g hj h1 h2, h2⟩
      have hle : (m : ℝ) + 1 ≤ N := by exact_mod_cast hmN
      obtain ⟨d', e1, e2, e3, e4, e5, e6, e7⟩ := lane_step hD hsplit hsc (hstep m (by omega)) (t := t m) (t' := t (m + 1))
        (by rw [hts]; exact ht m (by omega)) (by rw [hts, ht (m + 1) hmN]; push_cast; ring) hvalid hd0 (L := 3 * N) (by linarith)
        hroute hc hv (ho m (by omega)) hpark hway'
      refine ⟨d', by linarith, by push_cast; linarith, e3, e4, fun j g hj h1 h2 => e5 j g hj (hg j g hj h1 h2) h2, ?_, e7⟩
      rw [e6, hts]
      push_cast
      ring
  obtain ⟨d, hd0, -, hc, hv', hg, -⟩ := key m hm
  have hsp := speedOf_nonneg ((st m).sim.simTrajectory i (t m))
  refine ⟨fun j hmeet => ?_, hc.valid, hv', hc.yaw, d, hd0, hc.pos, fun j g hj h1 h2 => by linarith [hg j g hj h1 h2]⟩
  have hj : j ≠ i := hmeet.1
  have h0 : Meets o i (aheadOf c 0) j := by
    have : aheadOf c 0 = c := by simp [aheadOf]
    rw [this]; exact hmeet
  rw [hc.ahead hvalid, add_zero] at h0
  rcases hway j hj with h | ⟨g, h1, h2⟩
  · exact h d hd0 h0
  · exact h2.1 d hd0 (by linarith [hg j g hj h1 h2]) h0

/-- At the end of its route the agent does not stop for anything: an object driven by it keeps its velocity for ever and covers at
least half the distance this velocity stands for, whatever is in the way. -/
theorem C192_end_of_route {E : PlanEnv D Unit K P n T} {a : Nat} {ctrl : SimState ℝ n T → Fin n → Bool} {i : Fin n}
    {scen : SimState ℝ n T} (hD : DrivenBy E a ctrl (waypointUpdate false (idmSpeeds {})) i scen) {split : K → Nat → List K}
    (hsplit : ∀ k m, (split k m).length = m) {N : Nat} {st : Nat → PlanState Unit n T} {acts : Nat → Act D} {keys : Nat → Option K}
    (hstep : ∀ m < N, planStep E split (st m) (acts m) (keys m) = .ok (st (m + 1))) (hscen : SameScenario scen (st 0).sim)
    {t : Nat → Fin T} (ht : ∀ m ≤ N, ((t m : Fin T) : Int) = (st 0).sim.timestep + m)
    (hvalid : ((st 0).sim.simTrajectory i (t 0)).valid = true)
    (hroute : RouteOver (scen.logTrajectory i) ((st 0).sim.simTrajectory i (t 0))) (m : Nat) (hm : m ≤ N) :
    let p := (st 0).sim.simTrajectory i (t 0)
    let c := (st m).sim.simTrajectory i (t m)
    c.velX = p.velX ∧ c.velY = p.velY ∧ ∃ d : ℝ, m * (0.05 * speedOf p) ≤ d ∧ posOf c = posOf (aheadOf p d) := by
  intro p c
  have key : ∀ m, m ≤ N → ∃ d : ℝ, m * (0.05 * speedOf p) ≤ d ∧ DrivenAhead p d ((st m).sim.simTrajectory i (t m)) ∧
      ((st m).sim.simTrajectory i (t m)).velX = p.velX ∧ ((st m).sim.simTrajectory i (t m)).velY = p.velY ∧
      (st m).sim.timestep = (st 0).sim.timestep + m ∧ SameScenario scen (st m).sim := by
    intro m
    induction m with
    | zero =>
      intro _
      exact ⟨0, by simp, ⟨by simp [aheadOf, posOf, p], rfl, rfl, rfl, hvalid⟩, rfl, rfl, by simp, hscen⟩
    | succ m ih =>
      intro hmN
      obtain ⟨d, hd, hc, hvx, hvy, hts, hsc⟩ := ih (by omega)
      have e0 : ((t m : Fin T) : Int) = (st m).sim.timestep := by rw [hts]; exact ht m (by omega)
      have e1 : ((t (m + 1) : Fin T) : Int) = (st m).sim.timestep + 1 := by rw [hts, ht (m + 1) hmN]; push_cast; ring
      obtain ⟨⟨ux, uy, uyaw, uvx, uvy⟩, uv, ⟨-, ul, uw, -⟩, hts', hsc'⟩ := driven_step hD hsplit hsc (hstep m (by omega)) e0 e1
      obtain ⟨v', hs, -⟩ := C48_default (P := {}) rfl (by norm_num) (by norm_num) e0 hc.valid
      have h0 : 0 ≤ v' := (C47_speed_nonneg hs).1
      have hsp : idmSpeeds {} (st m).sim i = (v', true) := by unfold idmSpeeds; rw [hs]
      obtain ⟨t0, hn, -, hend, -⟩ := waypoint_spec (inv := false) (us := idmSpeeds {}) (i := i) e0 hc.valid (by rw [hsp])
        (by rw [hsc.log]; exact hroute.logged)
      rw [hsp, hsc.log] at hn hend
      set c := (st m).sim.simTrajectory i (t m) with hcdef
      have hspeed : speedOf c = speedOf p := by unfold speedOf; rw [hvx, hvy]
      have hv0 : 0 ≤ speedOf p := speedOf_nonneg _
      have hq : coast c v' = posOf (aheadOf p (d + (v' + speedOf p) / 2 * 0.1)) := by
        have h1 : c.x = p.x + d * (heading p.yaw).1 := congrArg Prod.fst hc.pos
        have h2 : c.y = p.y + d * (heading p.yaw).2 := congrArg Prod.snd hc.pos
        unfold coast posOf aheadOf
        rw [hc.yaw, h1, h2, hspeed]
        refine Prod.ext ?_ ?_ <;> simp only <;> ring
      rw [hq] at hn hend
      have hd0 : 0 ≤ d := le_trans (by positivity) hd
      obtain ⟨hfoot, hyaw, hx, hy, -⟩ := hend (hroute.over _ (by positivity) t0 hn) rfl
      obtain ⟨wyaw, x0, wpos⟩ := hroute.straight t0 hn.1
      have hline : posOf (aheadOf p (d + (v' + speedOf p) / 2 * 0.1)) =
          posOf (aheadOf (scen.logTrajectory i t0) (d + (v' + speedOf p) / 2 * 0.1 - x0)) := by
        have h1 : (scen.logTrajectory i t0).x = p.x + x0 * (heading p.yaw).1 := congrArg Prod.fst wpos
        have h2 : (scen.logTrajectory i t0).y = p.y + x0 * (heading p.yaw).2 := congrArg Prod.snd wpos
        unfold posOf aheadOf
        rw [wyaw, h1, h2]
        refine Prod.ext ?_ ?_ <;> simp only <;> ring
      have hpos := foot_on_line hfoot hline
      refine ⟨d + (v' + speedOf p) / 2 * 0.1, by push_cast; linarith,
        ⟨?_, by rw [uyaw, hyaw, wyaw], ul.trans hc.length, uw.trans hc.width, uv hc.valid⟩, ?_, ?_, ?_, hsc'⟩
      · rw [← hpos]
        unfold posOf
        rw [ux, uy]
      · rw [uvx, hx, hvx]
      · rw [uvy, hy, hvy]
      · rw [hts', hts]; push_cast; ring
  obtain ⟨d, hd, hc, h1, h2, -⟩ := key m hm
  exact ⟨h1, h2, d, hd, hc.pos⟩

end

/-! ### A case -/

/-- A car at 10 m/s on a straight road, and the SDC parked 4 m in front of it. -/
noncomputable def laneScen : SimState ℝ 2 3 :=
  { carScen with
    logTrajectory := fun i t => if i = 0 then ptAt (3 * t.val) 0 0 10 0 else ptAt 8 0 0 0 0
    objectMetadata := fun i => ⟨i.val, 1, decide (i = 1), true, true, false, false⟩ }

theorem lane_log (t : Fin 3) : laneScen.logTrajectory 0 t = ptAt (3 * t.val) 0 0 10 0 := by simp [laneScen]

theorem lane_apart (i : Fin 2) : ¬ StartsOverlapping laneScen.logTrajectory i := by
  rintro ⟨j, hj, p, ⟨u, v, hu, hv, hp⟩, ⟨u', v', hu', hv', hp'⟩⟩
  have h := congrArg Prod.fst (hp.symm.trans hp')
  fin_cases i <;> fin_cases j <;> first | exact absurd rfl hj | (
    simp [laneScen, ptAt, pointAt, heading, leftOf] at h hu hu'
    rw [abs_lt] at hu hu'
    linarith [hu.1, hu.2, hu'.1, hu'.2])

/-- The SDC blocks the way after 4 m. -/
theorem lane_blocks : BlocksLane (ptAt 0 0 0 10 0) (fun _ => ptAt 8 0 0 0 0) (0 : Fin 2) 1 4 := by
  have key : ∀ s : ℝ, Meets (fun _ => ptAt 8 0 0 0 0) (0 : Fin 2) (aheadOf (ptAt 0 0 0 10 0) s) 1 ↔ |s - 8| < 4 := by
    intro s
    rw [meets_aligned rfl rfl ⟨rfl, rfl, rfl⟩ ⟨rfl, rfl, rfl⟩]
    simp [aheadOf, ptAt, heading]
  constructor
  · intro s h0 h1 hm
    rw [key, abs_lt] at hm
    linarith [hm.1]
  · intro s h0 h1
    rw [key, abs_lt]
    constructor <;> linarith

/-- A straight road of 6 m, driven in two steps. -/
theorem road_route (w : ℝ) : StraightRoute (fun t : Fin 3 => ptAt (3 * t.val) 0 0 w 0) (ptAt 0 0 0 w 0) 3 := by
  have hd : ∀ (x : ℝ) (t : Fin 3), dist2 (posOf (ptAt (3 * t.val) 0 0 w 0)) (posOf (aheadOf (ptAt 0 0 0 w 0) x)) =
      |3 * t.val - x| := by
    intro x t
    simp [dist2, posOf, aheadOf, ptAt, heading, Real.sqrt_sq_eq_abs]
  refine ⟨⟨0, rfl⟩, fun t _ => ⟨rfl, 3 * t.val, ?_⟩, fun x h0 h3 t hn => ?_⟩
  · simp [posOf, aheadOf, ptAt, heading]
  · have ht1 := hn.2.1 1 (rfl)
    simp only [hd] at ht1
    have ht2 : t ≠ 2 := by
      rintro rfl
      norm_num at ht1
      rw [abs_of_nonneg (by linarith), abs_of_nonneg (by linarith)] at ht1
      linarith
    have hle : (t.val : ℝ) ≤ 1 := by
      have : t.val ≤ 1 := by omega
      exact_mod_cast this
    have hge : (0 : ℝ) ≤ t.val := Nat.cast_nonneg _
    rintro (⟨u, hu, hlt⟩ | hfar)
    · have hu2 : u = 2 := by
        have h1 := hu.2 2 (rfl)
        omega
      subst hu2
      simp [dist2, posOf, ptAt, Real.sqrt_sq_eq_abs] at hlt
      rw [abs_of_nonneg (by linarith)] at hlt
      linarith
    · simp only [hd] at hfar
      have : |3 * (t.val : ℝ) - x| ≤ 5 := by rw [abs_le]; constructor <;> linarith
      linarith

theorem lane_route : StraightRoute (laneScen.logTrajectory 0) (ptAt 0 0 0 10 0) 3 := by
  rw [show laneScen.logTrajectory 0 = fun t : Fin 3 => ptAt (3 * t.val) 0 0 10 0 from funext lane_log]
  exact road_route 10

/-- The hypotheses of `C192_no_collision` can be met by an episode of the planning environment in which the planner keeps the SDC
where it is. -/
example : ∃ st : Nat → PlanState Unit 2 3, planReset (peekEnv [idmAgent {}]) (fun _ m => List.replicate m ()) laneScen none = .ok (st 0) ∧
    planStep (peekEnv [idmAgent {}]) (fun _ m => List.replicate m ()) (st 0) { data := ⟨8, 0, 0, 0, 0⟩, valid := true } none =
      .ok (st 1) ∧
    (st 0).sim.simTrajectory 0 0 = ptAt 0 0 0 10 0 ∧ (∀ j, ¬ Meets (fun _ => ptAt 8 0 0 0 0) (0 : Fin 2) ((st 1).sim.simTrajectory 0 1) j) := by
  obtain ⟨s0, hr, hsc, hts, htr, hlen⟩ := reset_peek [idmAgent {}] laneScen
  obtain ⟨s1, hst⟩ : ∃ s1, planStep (peekEnv [idmAgent {}]) (fun _ m => List.replicate m ()) s0
      { data := ⟨8, 0, 0, 0, 0⟩, valid := true } none = .ok s1 := by
    rw [planStep_eq, if_neg (by rw [hlen]; simp [peekEnv, pushEnv])]
    exact ⟨_, rfl⟩
  have h00 : s0.sim.simTrajectory 0 0 = ptAt 0 0 0 10 0 := by rw [htr]; simp [laneScen]
  have h10 : s0.sim.simTrajectory 1 0 = ptAt 8 0 0 0 0 := by rw [htr]; simp [laneScen]
  have ht0 : ((0 : Fin 3) : Int) = s0.sim.timestep := by rw [hts]; rfl
  have ht1 : ((1 : Fin 3) : Int) = s0.sim.timestep + 1 := by rw [hts]; rfl
  refine ⟨fun m => if m = 0 then s0 else s1, hr, hst, h00, ?_⟩
  have hD : DrivenBy (peekEnv [idmAgent {}]) 0 defaultControlFunc (waypointUpdate false (idmSpeeds {})) 0 laneScen := by
    refine ⟨rfl, rfl, fun s hs => ?_, ?_, lane_apart 0⟩
    · unfold defaultControlFunc
      rw [hs.objects]
      rfl
    · intro k' a hk h
      obtain ⟨k, rfl⟩ : ∃ k, k' = k + 1 := ⟨k' - 1, by omega⟩
      simp [peekEnv, pushEnv] at h
  have hno : ∀ k o, ¬ Claims (peekEnv [idmAgent {}]) (fun _ m => List.replicate m ()) s0 none 1 k o := by
    rintro k o ⟨h1, h2, -⟩
    unfold agentOutput at h1
    rcases k with _ | k
    · simp only [peekEnv, pushEnv, List.getElem?_cons_zero] at h1
      split at h1
      · rename_i a x p ha _ _
        cases ha
        simp only [Option.some.injEq] at h1
        rw [← h1] at h2
        simp only [idmAgent, simAgent, defaultControlFunc, hsc.objects] at h2
        simp [laneScen] at h2
      · cases h1
    · simp [peekEnv, pushEnv] at h1
  have hmoved := (C45_who_moves hst ht0 ht1 1).2.1 hno (by rw [hsc.objects]; rfl)
  obtain ⟨hv, -, -, hl, hw, -⟩ := C45_rest_of_step hst ht0 ht1 1
  have hbody : StandsAs (s1.sim.simTrajectory 1 1) (ptAt 8 0 0 0 0) := by
    obtain ⟨e1, e2, e3, e4, e5⟩ := hmoved
    refine ⟨e1, e2, e3, by rw [hl, h10], by rw [hw, h10], e4, e5, ?_⟩
    exact hv.2 (.inl ⟨by rw [h10]; rfl, .inl (by rw [hsc.objects]; rfl)⟩)
  refine (C192_no_collision (st := fun m => if m = 0 then s0 else s1) (N := 1) hD (split := fun _ m => List.replicate m ()) (by simp)
    (acts := fun _ => { data := ⟨8, 0, 0, 0, 0⟩, valid := true }) (keys := fun _ => none) ?_ hsc
    (t := fun m => if m = 0 then 0 else 1) ?_ (o := fun _ => ptAt 8 0 0 0 0) ?_ ?_ ?_ ?_ ?_ ?_ 1 le_rfl).1
  · intro m hm
    have : m = 0 := by omega
    subst this
    exact hst
  · intro m hm
    rcases Nat.le_one_iff_eq_zero_or_eq_one.1 hm with rfl | rfl
    · simpa using ht0
    · simpa using ht1
  · intro m hm j hj
    have hj1 : j = 1 := by omega
    subst hj1
    rcases Nat.le_one_iff_eq_zero_or_eq_one.1 hm with rfl | rfl
    · simp only [if_true, h10]
      exact ⟨rfl, rfl, rfl, rfl, rfl, rfl, rfl, rfl⟩
    · exact hbody
  · intro j _ _
    simp [speedOf, norm2, ptAt]
  · simp only [if_true, h00]
    rfl
  · simp only [if_true, h00]
    simp [speedOf, norm2, ptAt]
    norm_num
  · simp only [if_true, h00]
    simpa using lane_route
  · simp only [if_true, h00]
    intro j hj
    have hj1 : j = 1 := by omega
    subst hj1
    refine .inr ⟨4, ?_, lane_blocks⟩
    simp [speedOf, norm2, ptAt]
    norm_num

/-- The same car, whose recording breaks off after the first step. -/
noncomputable def endScen : SimState ℝ 2 3 :=
  { laneScen with
    logTrajectory := fun i t => if i = 0 then { ptAt (3 * t.val) 0 0 10 0 with valid := decide (t = 0) } else ptAt 8 0 0 0 0 }

theorem end_route : RouteOver (endScen.logTrajectory 0) (ptAt 0 0 0 10 0) := by
  have h0 : ∀ t : Fin 3, (endScen.logTrajectory 0 t).valid = true → t = 0 := by
    intro t h
    simpa [endScen] using h
  have hv : (endScen.logTrajectory 0 0).valid = true := by simp [endScen]
  refine ⟨⟨0, hv⟩, fun t h => ?_, fun x _ t hn => .inl ⟨0, ⟨hv, fun u hu => by rw [h0 u hu]⟩, ?_⟩⟩
  · rw [h0 t h]
    exact ⟨by simp [endScen, ptAt], 0, by simp [endScen, posOf, aheadOf, ptAt]⟩
  · rw [h0 t hn.1]
    simp [dist2]
    norm_num

theorem end_apart : ¬ StartsOverlapping endScen.logTrajectory (0 : Fin 2) := by
  rintro ⟨j, hj, p, ⟨u, v, hu, hv, hp⟩, ⟨u', v', hu', hv', hp'⟩⟩
  have h := congrArg Prod.fst (hp.symm.trans hp')
  fin_cases j
  · exact absurd rfl hj
  · simp [endScen, ptAt, pointAt, heading, leftOf] at h hu hu'
    rw [abs_lt] at hu hu'
    linarith [hu.1, hu.2, hu'.1, hu'.2]

/-- The hypotheses of `C192_end_of_route` can be met: this car keeps its 10 m/s although the SDC is parked in front of it. -/
example : ∃ st : Nat → PlanState Unit 2 3, planReset (peekEnv [idmAgent {}]) (fun _ m => List.replicate m ()) endScen none = .ok (st 0) ∧
    planStep (peekEnv [idmAgent {}]) (fun _ m => List.replicate m ()) (st 0) { data := ⟨8, 0, 0, 0, 0⟩, valid := true } none =
      .ok (st 1) ∧ ((st 1).sim.simTrajectory 0 1).velX = 10 := by
  obtain ⟨s0, hr, hsc, hts, htr, hlen⟩ := reset_peek [idmAgent {}] endScen
  obtain ⟨s1, hst⟩ : ∃ s1, planStep (peekEnv [idmAgent {}]) (fun _ m => List.replicate m ()) s0
      { data := ⟨8, 0, 0, 0, 0⟩, valid := true } none = .ok s1 := by
    rw [planStep_eq, if_neg (by rw [hlen]; simp [peekEnv, pushEnv])]
    exact ⟨_, rfl⟩
  have h00 : s0.sim.simTrajectory 0 0 = ptAt 0 0 0 10 0 := by rw [htr]; simp [endScen, ptAt]
  have ht0 : ((0 : Fin 3) : Int) = s0.sim.timestep := by rw [hts]; rfl
  have ht1 : ((1 : Fin 3) : Int) = s0.sim.timestep + 1 := by rw [hts]; rfl
  refine ⟨fun m => if m = 0 then s0 else s1, hr, hst, ?_⟩
  have hD : DrivenBy (peekEnv [idmAgent {}]) 0 defaultControlFunc (waypointUpdate false (idmSpeeds {})) 0 endScen := by
    refine ⟨rfl, rfl, fun s hs => ?_, ?_, end_apart⟩
    · unfold defaultControlFunc
      rw [hs.objects]
      rfl
    · intro k' a hk h
      obtain ⟨k, rfl⟩ : ∃ k, k' = k + 1 := ⟨k' - 1, by omega⟩
      simp [peekEnv, pushEnv] at h
  have key := (C192_end_of_route (st := fun m => if m = 0 then s0 else s1) (N := 1) hD (split := fun _ m => List.replicate m ()) (by simp)
    (acts := fun _ => { data := ⟨8, 0, 0, 0, 0⟩, valid := true }) (keys := fun _ => none) ?_ hsc
    (t := fun m => if m = 0 then 0 else 1) ?_ ?_ ?_ 1 le_rfl).1
  · simpa [h00, ptAt] using key
  · intro m hm
    have : m = 0 := by omega
    subst this
    exact hst
  · intro m hm
    rcases Nat.le_one_iff_eq_zero_or_eq_one.1 hm with rfl | rfl
    · simpa using ht0
    · simpa using ht1
  · simp only [if_true, h00]
    rfl
  · simp only [if_true, h00]
    exact end_route

end Waymax
