import Verif.Spec.Convoy
import Verif.Props.Lane
/-
C193: on a straight road the default IDM agent does not run into the vehicle it follows (real arithmetic).
-/

namespace Waymax

open Real

/-- The desired gap is large enough for the distance by which the agent catches up. -/
theorem catch_up {v e k : ℝ} (he : 0 ≤ e) (hev : e ≤ v) (hk0 : 0 < k) (hk : k ≤ 1.03 + 0.2 * v) :
    1 + 10 * e / 3 ≤ ((2 + 2 * v + v * e / 6) / k) ^ 2 := by
  have hv : 0 ≤ v := he.trans hev
  rw [div_pow, le_div_iff₀ (by positivity)]
  have h1 : k ^ 2 ≤ (1.03 + 0.2 * v) ^ 2 := pow_le_pow_left₀ hk0.le hk 2
  have h2 : (1 + 10 * e / 3) * k ^ 2 ≤ (1 + 10 * e / 3) * (1.03 + 0.2 * v) ^ 2 := mul_le_mul_of_nonneg_left h1 (by positivity)
  refine h2.trans ?_
  have a1 : 0 ≤ v * e := mul_nonneg hv he
  have a2 : 0 ≤ v * (v - e) := mul_nonneg hv (by linarith)
  have a3 : 0 ≤ v * (v * e) := mul_nonneg hv a1
  have a4 : 0 ≤ (v * e) ^ 2 := sq_nonneg _
  nlinarith

/-- The agent keeps its distance from a leader of speed `u`: if it is at least a tenth of a second away, it still is after the next
time step, in which the leader moves on by `0.1 * u`. -/
theorem follow_kept {v u g k : ℝ} (h0 : 0 ≤ v) (hu : 0 ≤ u) (hg : 0.1 * v ≤ g) (hk0 : 0 < k) (hk : k ≤ g + 1) :
    (v + speedAfter v (idmFollow {} v u k)) / 2 * 0.1 + 0.1 * speedAfter v (idmFollow {} v u k) ≤ g + 0.1 * u := by
  set v' := speedAfter v (idmFollow {} v u k) with hv'
  by_cases hz : v' = 0
  · rw [hz]; linarith
  have hpos : v' = v + 0.1 * idmFollow {} v u k := by
    rw [hv']
    unfold speedAfter
    refine max_eq_right ?_
    by_contra hc
    apply hz
    rw [hv']
    exact max_eq_left (not_le.1 hc).le
  by_contra hcon
  rw [not_le] at hcon
  have hfree : idmFree {} v ≤ 2 := by
    unfold idmFree
    have : (0 : ℝ) ≤ (v / 30) ^ (4 : ℝ) := Real.rpow_nonneg (by positivity) _
    linarith
  have hacc : idmFollow {} v u k ≤ 2 - 2 * (idmDesiredGap {} v u / k) ^ 2 := by
    unfold idmFollow
    rw [if_neg hk0.ne']
    simp only
    linarith
  have hsq' := sq_nonneg (idmDesiredGap {} v u / k)
  have hle : v' ≤ v + 0.2 - 0.2 * (idmDesiredGap {} v u / k) ^ 2 := by rw [hpos]; linarith
  have hsq : √(2 * 4 : ℝ) ≤ 3 := by
    rw [Real.sqrt_le_left (by norm_num)]; norm_num
  have hsq2 : (2 : ℝ) ≤ √(2 * 4 : ℝ) := Real.le_sqrt_of_sq_le (by norm_num)
  have hgap : 2 + 2 * v + v * (v - u) / (2 * √(2 * 4 : ℝ)) ≤ idmDesiredGap {} v u := by
    unfold idmDesiredGap
    have := le_max_right (0 : ℝ) (v * 2 + v * (v - u) / (2 * √(2 * 4 : ℝ)))
    simp only
    linarith
  have hkv : k < 1.03 + 0.2 * v := by linarith
  rcases le_total u v with huv | huv
  · have h1 : v * (v - u) / 6 ≤ v * (v - u) / (2 * √(2 * 4 : ℝ)) :=
      div_le_div_of_nonneg_left (mul_nonneg h0 (by linarith)) (by linarith) (by linarith)
    have h2 := catch_up (v := v) (e := v - u) (by linarith) (by linarith) hk0 hkv.le
    have h3 : (2 + 2 * v + v * (v - u) / 6) / k ≤ idmDesiredGap {} v u / k := div_le_div_of_nonneg_right (by linarith) hk0.le
    have h4 : 0 ≤ (2 + 2 * v + v * (v - u) / 6) / k := by
      have := mul_nonneg h0 (sub_nonneg.2 huv)
      positivity
    have h5 := pow_le_pow_left₀ h4 h3 2
    linarith
  · by_cases hfar : v + 0.3 ≤ u
    · linarith
    · have h1 : v * (u - v) / (2 * √(2 * 4 : ℝ)) ≤ 0.1 * v := by
        rw [div_le_iff₀ (by linarith)]
        have h2 : u - v ≤ 0.1 * (2 * √(2 * 4 : ℝ)) := by
          have := not_le.1 hfar
          calc u - v ≤ 0.3 := by linarith
            _ ≤ 0.1 * (2 * 2) := by norm_num
            _ ≤ 0.1 * (2 * √(2 * 4 : ℝ)) := by gcongr
        calc v * (u - v) ≤ v * (0.1 * (2 * √(2 * 4 : ℝ))) := mul_le_mul_of_nonneg_left h2 h0
          _ = 0.1 * v * (2 * √(2 * 4 : ℝ)) := by ring
      have h1' : v * (v - u) / (2 * √(2 * 4 : ℝ)) = - (v * (u - v) / (2 * √(2 * 4 : ℝ))) := by ring
      have h2 : 1 ≤ idmDesiredGap {} v u / k := by
        rw [one_le_div hk0]
        linarith
      have h3 : 1 ≤ (idmDesiredGap {} v u / k) ^ 2 := one_le_pow₀ h2
      linarith

section
variable {D K P : Type} {n T : Nat} [NeZero T]

/-- What the agent decides behind a leader: the distance it covers in the next time step and its new speed keep the leader at least a
tenth of a second away if the leader moves on. -/
theorem idm_follows {s : SimState ℝ n T} {i j : Fin n} {t : Fin T} (ht : (t : Int) = s.timestep) {p : Pt ℝ} {d g : ℝ}
    (hp : p.valid = true) (hd : 0 ≤ d) (hc : DrivenAhead p d (s.simTrajectory i t)) (hv : speedOf (s.simTrajectory i t) ≤ 30)
    (hclear : ∀ j', j' ≠ i → j' ≠ j → LaneClear p (fun j => s.simTrajectory j t) i j')
    (hb : BlocksLane p (fun j => s.simTrajectory j t) i j g) (hg : d + 0.1 * speedOf (s.simTrajectory i t) ≤ g) :
    ∃ v', idmUpdateSpeed {} s i = .ok (v', true) ∧ 0 ≤ v' ∧ v' ≤ 30 ∧
      d + (v' + speedOf (s.simTrajectory i t)) / 2 * 0.1 + 0.1 * v' ≤ g + 0.1 * speedOf (s.simTrajectory j t) := by
  obtain ⟨v', hs, hfree, hlead⟩ := C48_default (P := {}) rfl (by norm_num) (by norm_num) ht hc.valid
  simp only [Nat.cast_ofNat] at hfree hlead
  set v := speedOf (s.simTrajectory i t) with hvdef
  have h0 : 0 ≤ v := speedOf_nonneg _
  have hu : 0 ≤ speedOf (s.simTrajectory j t) := speedOf_nonneg _
  have hmax : v' ≤ 30 := C47_never_exceeds (P := {}) (by norm_num) (by norm_num) (by norm_num) (by norm_num) ht hc.valid hv hs
  have hacc : v' ≤ v + 0.1 * 2 := C47_accel_bounded (P := {}) (by norm_num) (by norm_num) ht hc.valid hs
  have h0' : 0 ≤ v' := (C47_speed_nonneg hs).1
  refine ⟨v', hs, h0', hmax, ?_⟩
  have hwhere : ∀ (k : ℕ) (j' : Fin n), Meets (fun j => s.simTrajectory j t) i (aheadOf (s.simTrajectory i t) (10 * k / 10)) j' ↔
      Meets (fun j => s.simTrajectory j t) i (aheadOf p (d + k)) j' := by
    intro k j'
    have e : (10 * (k : ℝ) / 10) = k := by ring
    rw [e, hc.ahead hp]
  have hsee : ∀ k : ℕ, g - d < k → (k : ℝ) ≤ g - d + 1 → Meets (fun j => s.simTrajectory j t) i
      (aheadOf (s.simTrajectory i t) (10 * k / 10)) j := by
    intro k h1 h2
    rw [hwhere]
    exact hb.2 _ (by linarith) (by linarith)
  have hgd : 0 ≤ g - d := by linarith
  have hf1 := Nat.lt_floor_add_one (g - d)
  have hf2 := Nat.floor_le hgd
  by_cases hex : ∃ k ≤ 10, ∃ j, Meets (fun j => s.simTrajectory j t) i (aheadOf (s.simTrajectory i t) (10 * (k : ℕ) / 10)) j
  · classical
    have hmin := Nat.find_spec hex
    set k := Nat.find hex with hk
    have hfirst : ∀ k' < k, ∀ j, ¬ Meets (fun j => s.simTrajectory j t) i (aheadOf (s.simTrajectory i t) (10 * (k' : ℕ) / 10)) j := by
      intro k' hk' j' hm
      exact Nat.find_min hex hk' ⟨by omega, j', hm⟩
    obtain ⟨j', hm', -, hsp⟩ := hlead k hmin.1 hfirst hmin.2
    have hmp := (hwhere k j').1 hm'
    -- only the leader can be met
    have hj' : j' = j := by
      by_contra hne
      exact hclear j' hm'.1 hne (d + k) (by positivity) hmp
    subst hj'
    have e : (10 * (k : ℝ) / 10) = k := by ring
    rw [e] at hsp
    have hkg : (k : ℝ) ≤ g - d + 1 := by
      by_contra hc'
      rw [not_le] at hc'
      refine hfirst (⌊g - d⌋₊ + 1) ?_ j' (hsee _ (by push_cast; exact hf1) (by push_cast; linarith))
      have : ((⌊g - d⌋₊ + 1 : ℕ) : ℝ) < k := by push_cast; linarith
      exact_mod_cast this
    have hk0 : k ≠ 0 := by
      intro hk0
      rw [hk0] at hmp
      exact hb.1 (d + ((0 : ℕ) : ℝ)) (by simpa using hd) (by simp only [Nat.cast_zero]; linarith) hmp
    have := follow_kept (g := g - d) (u := speedOf (s.simTrajectory j' t)) h0 hu (by linarith) (k := k)
      (by exact_mod_cast Nat.pos_of_ne_zero hk0) hkg
    rw [← hsp] at this
    linarith
  · have hfar : 10 ≤ g - d := by
      by_contra hc'
      rw [not_le] at hc'
      refine hex ⟨⌊g - d⌋₊ + 1, ?_, j, hsee _ (by push_cast; exact hf1) (by push_cast; linarith)⟩
      have : (⌊g - d⌋₊ : ℝ) < 10 := by linarith
      have : ⌊g - d⌋₊ < 10 := by exact_mod_cast this
      omega
    linarith

/-- On a straight road the default IDM agent does not run into the vehicle it follows. Object `i` is driven by the agent, at most at the
desired speed, along a route that leads straight on; object `j` drives ahead of it, by whatever means, at least a tenth of a second
away at the start, and no other object is in the way. Then, at every step of every episode, object `i` overlaps no other object; it
drives straight on, never backwards, never faster than 30 m/s, and stays at least a tenth of a second behind the leader. -/
theorem C193_following {E : PlanEnv D Unit K P n T} {a : Nat} {ctrl : SimState ℝ n T → Fin n → Bool} {i j : Fin n}
    {scen : SimState ℝ n T} (hD : DrivenBy E a ctrl (waypointUpdate false (idmSpeeds {})) i scen) {split : K → Nat → List K}
    (hsplit : ∀ k m, (split k m).length = m) {N : Nat} {st : Nat → PlanState Unit n T} {acts : Nat → Act D} {keys : Nat → Option K}
    (hstep : ∀ m < N, planStep E split (st m) (acts m) (keys m) = .ok (st (m + 1))) (hscen : SameScenario scen (st 0).sim)
    {t : Nat → Fin T} (ht : ∀ m ≤ N, ((t m : Fin T) : Int) = (st 0).sim.timestep + m)
    (hvalid : ((st 0).sim.simTrajectory i (t 0)).valid = true) (hv : speedOf ((st 0).sim.simTrajectory i (t 0)) ≤ 30)
    (hroute : StraightRoute (scen.logTrajectory i) ((st 0).sim.simTrajectory i (t 0)) (3 * N)) {g : Nat → ℝ}
    (hlead : LeadsAhead ((st 0).sim.simTrajectory i (t 0)) (fun m j => (st m).sim.simTrajectory j (t m)) i j g N)
    (hgap : 0.1 * speedOf ((st 0).sim.simTrajectory i (t 0)) ≤ g 0) (m : Nat) (hm : m ≤ N) :
    let p := (st 0).sim.simTrajectory i (t 0)
    let c := (st m).sim.simTrajectory i (t m)
    (∀ j', ¬ Meets (fun j => (st m).sim.simTrajectory j (t m)) i c j') ∧ c.valid = true ∧ speedOf c ≤ 30 ∧ c.yaw = p.yaw ∧
      ∃ d : ℝ, 0 ≤ d ∧ posOf c = posOf (aheadOf p d) ∧ d + 0.1 * speedOf c ≤ g m := by
  intro p c
  have key : ∀ m, m ≤ N → ∃ d : ℝ, 0 ≤ d ∧ d ≤ 3 * m ∧ DrivenAhead p d ((st m).sim.simTrajectory i (t m)) ∧
      speedOf ((st m).sim.simTrajectory i (t m)) ≤ 30 ∧ d + 0.1 * speedOf ((st m).sim.simTrajectory i (t m)) ≤ g m ∧
      (st m).sim.timestep = (st 0).sim.timestep + m ∧ SameScenario scen (st m).sim := by
    intro m
    induction m with
    | zero =>
      intro _
      refine ⟨0, le_rfl, by simp, ⟨by simp [aheadOf, posOf, p], rfl, rfl, rfl, hvalid⟩, hv, ?_, by simp, hscen⟩
      rw [zero_add]
      exact hgap
    | succ m ih =>
      intro hmN
      obtain ⟨d, hd0, hd3, hc, hv, hg, hts, hsc⟩ := ih (by omega)
      have hle : (m : ℝ) + 1 ≤ N := by exact_mod_cast hmN
      have e0 : ((t m : Fin T) : Int) = (st m).sim.timestep := by rw [hts]; exact ht m (by omega)
      have e1 : ((t (m + 1) : Fin T) : Int) = (st m).sim.timestep + 1 := by rw [hts, ht (m + 1) hmN]; push_cast; ring
      obtain ⟨v', hs, h0, hmax, hkeep⟩ := idm_follows e0 hvalid hd0 hc hv (hlead.clear m (by omega)) (hlead.blocks m (by omega)) hg
      obtain ⟨hc', hspeed, hts', hsc'⟩ := lane_moves hD hsplit hsc (hstep m (by omega)) e0 e1 hd0 (L := 3 * N) (by linarith)
        hroute hc hv hs h0 hmax
      have hv0 := speedOf_nonneg ((st m).sim.simTrajectory i (t m))
      have hmove := hlead.moves m (by omega)
      refine ⟨_, by positivity, by push_cast; linarith, hc', by rw [hspeed]; exact hmax, by rw [hspeed]; exact hkeep.trans hmove, ?_, hsc'⟩
      rw [hts', hts]
      push_cast
      ring
  obtain ⟨d, hd0, -, hc, hv', hg, -⟩ := key m hm
  have hsp := speedOf_nonneg ((st m).sim.simTrajectory i (t m))
  refine ⟨fun j' hmeet => ?_, hc.valid, hv', hc.yaw, d, hd0, hc.pos, hg⟩
  have h0 : Meets (fun j => (st m).sim.simTrajectory j (t m)) i (aheadOf c 0) j' := by
    have : aheadOf c 0 = c := by simp [aheadOf]
    rw [this]; exact hmeet
  rw [hc.ahead hvalid, add_zero] at h0
  by_cases hj : j' = j
  · subst hj
    exact (hlead.blocks m hm).1 d hd0 (by linarith) h0
  · exact hlead.clear m hm j' hmeet.1 hj d hd0 h0

/-- A standing object waits behind a queue: as long as some object, standing or moving, blocks its way less than two metres ahead,
it stays where it is. -/
theorem C193_waits {E : PlanEnv D Unit K P n T} {a : Nat} {ctrl : SimState ℝ n T → Fin n → Bool} {i : Fin n}
    {scen : SimState ℝ n T} (hD : DrivenBy E a ctrl (waypointUpdate false (idmSpeeds {})) i scen) {split : K → Nat → List K}
    (hsplit : ∀ k m, (split k m).length = m) {N : Nat} {st : Nat → PlanState Unit n T} {acts : Nat → Act D} {keys : Nat → Option K}
    (hstep : ∀ m < N, planStep E split (st m) (acts m) (keys m) = .ok (st (m + 1))) (hscen : SameScenario scen (st 0).sim)
    {t : Nat → Fin T} (ht : ∀ m ≤ N, ((t m : Fin T) : Int) = (st 0).sim.timestep + m)
    (hvalid : ((st 0).sim.simTrajectory i (t 0)).valid = true) (hv : speedOf ((st 0).sim.simTrajectory i (t 0)) = 0)
    (hroute : StraightRoute (scen.logTrajectory i) ((st 0).sim.simTrajectory i (t 0)) 3)
    (hblock : ∀ m < N, ∃ j g, 0 ≤ g ∧ g < 2 ∧
      BlocksLane ((st 0).sim.simTrajectory i (t 0)) (fun j => (st m).sim.simTrajectory j (t m)) i j g) (m : Nat) (hm : m ≤ N) :
    let p := (st 0).sim.simTrajectory i (t 0)
    let c := (st m).sim.simTrajectory i (t m)
    posOf c = posOf p ∧ c.yaw = p.yaw ∧ speedOf c = 0 ∧ c.valid = true := by
  intro p c
  have key : ∀ m, m ≤ N → DrivenAhead p 0 ((st m).sim.simTrajectory i (t m)) ∧ speedOf ((st m).sim.simTrajectory i (t m)) = 0 ∧
      (st m).sim.timestep = (st 0).sim.timestep + m ∧ SameScenario scen (st m).sim := by
    intro m
    induction m with
    | zero =>
      intro _
      exact ⟨⟨by simp [aheadOf, posOf, p], rfl, rfl, rfl, hvalid⟩, hv, by simp, hscen⟩
    | succ m ih =>
      intro hmN
      obtain ⟨hc, hv, hts, hsc⟩ := ih (by omega)
      have e0 : ((t m : Fin T) : Int) = (st m).sim.timestep := by rw [hts]; exact ht m (by omega)
      have e1 : ((t (m + 1) : Fin T) : Int) = (st m).sim.timestep + 1 := by rw [hts, ht (m + 1) hmN]; push_cast; ring
      obtain ⟨v', hs, -, hlead⟩ := C48_default (P := {}) rfl (by norm_num) (by norm_num) e0 hc.valid
      simp only [Nat.cast_ofNat] at hlead
      obtain ⟨j, g, hg0, hg2, hb⟩ := hblock m (by omega)
      have hsee : ∃ k ≤ 2, ∃ j, Meets (fun j => (st m).sim.simTrajectory j (t m)) i
          (aheadOf ((st m).sim.simTrajectory i (t m)) (10 * (k : ℕ) / 10)) j := by
        have hf1 := Nat.lt_floor_add_one g
        have hf2 := Nat.floor_le hg0
        refine ⟨⌊g⌋₊ + 1, ?_, j, ?_⟩
        · have : (⌊g⌋₊ : ℝ) < 2 := by linarith
          have : ⌊g⌋₊ < 2 := by exact_mod_cast this
          omega
        · have e : (10 * ((⌊g⌋₊ + 1 : ℕ) : ℝ) / 10) = ⌊g⌋₊ + 1 := by push_cast; ring
          rw [e, hc.ahead hvalid, zero_add]
          exact hb.2 _ hf1 (by linarith)
      have hv'0 : v' = 0 := by
        classical
        have hmin := Nat.find_spec hsee
        set k := Nat.find hsee with hk
        obtain ⟨j', -, -, hsp⟩ := hlead k (by omega) (fun k' hk' j' hm => Nat.find_min hsee hk' ⟨by omega, j', hm⟩) hmin.2
        have e : (10 * (k : ℝ) / 10) = k := by ring
        rw [hv, e] at hsp
        rw [hsp]
        have hfree : idmFree {} 0 = 2 := by
          unfold idmFree
          rw [zero_div, Real.zero_rpow (by norm_num)]
          norm_num
        have hgap : idmDesiredGap {} 0 (speedOf ((st m).sim.simTrajectory j' (t m))) = 2 := by
          unfold idmDesiredGap
          simp
        unfold speedAfter idmFollow
        rw [hfree, hgap]
        refine max_eq_left ?_
        have h2 : (1 : ℝ) ≤ 2 / (if (k : ℝ) = 0 then 0.1 else (k : ℝ)) := by
          split
          · norm_num
          · rename_i hk0
            have hkpos : (0 : ℝ) < k := lt_of_le_of_ne (Nat.cast_nonneg _) (Ne.symm hk0)
            rw [one_le_div hkpos]
            exact_mod_cast hmin.1
        have h3 : (1 : ℝ) ≤ (2 / (if (k : ℝ) = 0 then 0.1 else (k : ℝ))) ^ 2 := one_le_pow₀ h2
        simp only
        linarith
      obtain ⟨hc', hspeed, hts', hsc'⟩ := lane_moves hD hsplit hsc (hstep m (by omega)) e0 e1 le_rfl (L := 3) (by norm_num)
        hroute hc (by rw [hv]; norm_num) hs (by rw [hv'0]) (by rw [hv'0]; norm_num)
      rw [hv, hv'0] at hc'
      refine ⟨by simpa using hc', by rw [hspeed, hv'0], ?_, hsc'⟩
      rw [hts', hts]
      push_cast
      ring
  obtain ⟨hc, hv', -⟩ := key m hm
  refine ⟨?_, hc.yaw, hv', hc.valid⟩
  rw [hc.pos]
  simp [aheadOf, posOf]

end

/-! ### A case -/

/-- A car at 10 m/s on a straight road, and the SDC 4 m in front of it at the same speed. -/
noncomputable def convoyScen : SimState ℝ 2 3 :=
  { laneScen with logTrajectory := fun i t => if i = 0 then ptAt (3 * t.val) 0 0 10 0 else ptAt 8 0 0 10 0 }

theorem convoy_apart : ¬ StartsOverlapping convoyScen.logTrajectory (0 : Fin 2) := by
  rintro ⟨j, hj, p, ⟨u, v, hu, hv, hp⟩, ⟨u', v', hu', hv', hp'⟩⟩
  have h := congrArg Prod.fst (hp.symm.trans hp')
  fin_cases j
  · exact absurd rfl hj
  · simp [convoyScen, ptAt, pointAt, heading, leftOf] at h hu hu'
    rw [abs_lt] at hu hu'
    linarith [hu.1, hu.2, hu'.1, hu'.2]

theorem convoy_meets {cur : Fin 2 → Pt ℝ} {x w : ℝ} (s : ℝ) (hv : (cur 1).valid = true)
    (hb : (cur 1).length = 4 ∧ (cur 1).width = 2 ∧ (cur 1).yaw = 0) (hx : (cur 1).x = x) (hy : (cur 1).y = 0) :
    Meets cur (0 : Fin 2) (aheadOf (ptAt 0 0 0 w 0) s) 1 ↔ |s - x| < 4 := by
  rw [meets_aligned rfl hv ⟨rfl, rfl, rfl⟩ hb, hx, hy]
  simp [aheadOf, ptAt, heading]

/-- The SDC at `x` blocks the way after `x - 4` metres. -/
theorem convoy_blocks {cur : Fin 2 → Pt ℝ} {x w : ℝ} (hv : (cur 1).valid = true)
    (hb : (cur 1).length = 4 ∧ (cur 1).width = 2 ∧ (cur 1).yaw = 0) (hx : (cur 1).x = x) (hy : (cur 1).y = 0) :
    BlocksLane (ptAt 0 0 0 w 0) cur (0 : Fin 2) 1 (x - 4) := by
  have key := fun s => convoy_meets (w := w) s hv hb hx hy
  constructor
  · intro s h0 h1 hm
    rw [key, abs_lt] at hm
    linarith [hm.1]
  · intro s h0 h1
    rw [key, abs_lt]
    constructor <;> linarith

/-- The hypotheses of `C193_following` can be met by an episode of the planning environment in which the planner drives the SDC on at
10 m/s. -/
example : ∃ st : Nat → PlanState Unit 2 3, planReset (peekEnv [idmAgent {}]) (fun _ m => List.replicate m ()) convoyScen none = .ok (st 0) ∧
    planStep (peekEnv [idmAgent {}]) (fun _ m => List.replicate m ()) (st 0) { data := ⟨9, 0, 0, 10, 0⟩, valid := true } none =
      .ok (st 1) ∧
    (∀ j, ¬ Meets (fun j => (st 1).sim.simTrajectory j 1) (0 : Fin 2) ((st 1).sim.simTrajectory 0 1) j) := by
  obtain ⟨s0, hr, hsc, hts, htr, hlen⟩ := reset_peek [idmAgent {}] convoyScen
  obtain ⟨s1, hst⟩ : ∃ s1, planStep (peekEnv [idmAgent {}]) (fun _ m => List.replicate m ()) s0
      { data := ⟨9, 0, 0, 10, 0⟩, valid := true } none = .ok s1 := by
    rw [planStep_eq, if_neg (by rw [hlen]; simp [peekEnv, pushEnv])]
    exact ⟨_, rfl⟩
  have h00 : s0.sim.simTrajectory 0 0 = ptAt 0 0 0 10 0 := by rw [htr]; simp [convoyScen]
  have h10 : s0.sim.simTrajectory 1 0 = ptAt 8 0 0 10 0 := by rw [htr]; simp [convoyScen]
  have ht0 : ((0 : Fin 3) : Int) = s0.sim.timestep := by rw [hts]; rfl
  have ht1 : ((1 : Fin 3) : Int) = s0.sim.timestep + 1 := by rw [hts]; rfl
  refine ⟨fun m => if m = 0 then s0 else s1, hr, hst, ?_⟩
  have hD : DrivenBy (peekEnv [idmAgent {}]) 0 defaultControlFunc (waypointUpdate false (idmSpeeds {})) 0 convoyScen := by
    refine ⟨rfl, rfl, fun s hs => ?_, ?_, convoy_apart⟩
    · unfold defaultControlFunc
      rw [hs.objects]
      rfl
    · intro k' a hk h
      obtain ⟨k, rfl⟩ : ∃ k, k' = k + 1 := ⟨k' - 1, by omega⟩
      simp [peekEnv, pushEnv] at h
  have hno : ∀ k o, ¬ Claims (peekEnv [idmAgent {}]) (fun _ m => List.replicate m ()) s0 none 1 k o := by
    rintro k o ⟨h1, h2, -⟩
    unfold agentOutput at h1
    rcases k with _ | k
    · simp only [peekEnv, pushEnv, List.getElem?_cons_zero] at h1
      split at h1
      · rename_i a x p ha _ _
        cases ha
        simp only [Option.some.injEq] at h1
        rw [← h1] at h2
        simp only [idmAgent, simAgent, defaultControlFunc, hsc.objects] at h2
        simp [convoyScen, laneScen] at h2
      · cases h1
    · simp [peekEnv, pushEnv] at h1
  obtain ⟨e1, e2, e3, e4, e5⟩ := (C45_who_moves hst ht0 ht1 1).2.1 hno (by rw [hsc.objects]; rfl)
  obtain ⟨hv, -, -, hl, hw, -⟩ := C45_rest_of_step hst ht0 ht1 1
  have hvalid1 : (s1.sim.simTrajectory 1 1).valid = true := hv.2 (.inl ⟨by rw [h10]; rfl, .inl (by rw [hsc.objects]; rfl)⟩)
  have hb0 : BlocksLane (ptAt 0 0 0 10 0) (fun j => s0.sim.simTrajectory j 0) (0 : Fin 2) 1 4 := by
    have := convoy_blocks (cur := fun j => s0.sim.simTrajectory j 0) (x := 8) (w := 10) (by simp only [h10]; rfl)
      (by simp only [h10]; exact ⟨rfl, rfl, rfl⟩) (by simp only [h10]; rfl) (by simp only [h10]; rfl)
    norm_num at this
    exact this
  have hb1 : BlocksLane (ptAt 0 0 0 10 0) (fun j => s1.sim.simTrajectory j 1) (0 : Fin 2) 1 5 := by
    have := convoy_blocks (cur := fun j => s1.sim.simTrajectory j 1) (x := 9) (w := 10) hvalid1
      ⟨by simp only [hl, h10]; rfl, by simp only [hw, h10]; rfl, e3⟩ e1 e2
    norm_num at this
    exact this
  refine (C193_following (st := fun m => if m = 0 then s0 else s1) (N := 1) (j := 1) (g := fun m => 4 + m) hD
    (split := fun _ m => List.replicate m ()) (by simp)
    (acts := fun _ => { data := ⟨9, 0, 0, 10, 0⟩, valid := true }) (keys := fun _ => none) ?_ hsc
    (t := fun m => if m = 0 then 0 else 1) ?_ ?_ ?_ ?_ ?_ ?_ 1 le_rfl).1
  · intro m hm
    have : m = 0 := by omega
    subst this
    exact hst
  · intro m hm
    rcases Nat.le_one_iff_eq_zero_or_eq_one.1 hm with rfl | rfl
    · simpa using ht0
    · simpa using ht1
  · simp only [if_true, h00]
    rfl
  · simp only [if_true, h00]
    simp [speedOf, norm2, ptAt]
    norm_num
  · simp only [if_true, h00]
    have : convoyScen.logTrajectory 0 = laneScen.logTrajectory 0 := by funext t; simp [convoyScen, laneScen]
    rw [this]
    simpa using lane_route
  · simp only [if_true, h00]
    refine ⟨fun m hm => ?_, fun m hm j' h1 h2 => by omega, fun m hm => ?_⟩
    · rcases Nat.le_one_iff_eq_zero_or_eq_one.1 hm with rfl | rfl
      · simpa using hb0
      · norm_num
        exact hb1
    · have : m = 0 := by omega
      subst this
      simp [h10, speedOf, norm2, ptAt]
      norm_num
  · simp only [if_true, h00]
    simp [speedOf, norm2, ptAt]
    norm_num

/-- A car at 20 m/s, and the SDC 2 m in front of it, with a stored velocity of 40 m/s. -/
noncomputable def stallScen : SimState ℝ 2 3 :=
  { laneScen with logTrajectory := fun i t => if i = 0 then ptAt (3 * t.val) 0 0 20 0 else ptAt 6 0 0 40 0 }

theorem stall_apart : ¬ StartsOverlapping stallScen.logTrajectory (0 : Fin 2) := by
  rintro ⟨j, hj, p, ⟨u, v, hu, hv, hp⟩, ⟨u', v', hu', hv', hp'⟩⟩
  have h := congrArg Prod.fst (hp.symm.trans hp')
  fin_cases j
  · exact absurd rfl hj
  · simp [stallScen, ptAt, pointAt, heading, leftOf] at h hu hu'
    rw [abs_lt] at hu hu'
    linarith [hu.1, hu.2, hu'.1, hu'.2]

/-- The speed the agent chooses behind that leader. -/
theorem stall_speed : speedAfter 20 (idmFollow {} 20 40 3) = 20 + 5.8 / 81 := by
  have hsq : √(2 * 4 : ℝ) ≤ 5 := by
    rw [Real.sqrt_le_left (by norm_num)]; norm_num
  have hsq0 : (0 : ℝ) < √(2 * 4 : ℝ) := Real.sqrt_pos.2 (by norm_num)
  have hgap : idmDesiredGap {} 20 40 = 2 := by
    unfold idmDesiredGap
    have h1 : (20 : ℝ) * 2 + 20 * (20 - 40) / (2 * √(2 * 4 : ℝ)) ≤ 0 := by
      have : (20 : ℝ) * (20 - 40) / (2 * √(2 * 4 : ℝ)) ≤ -40 := by
        rw [div_le_iff₀ (by positivity)]
        have := mul_le_mul_of_nonneg_left hsq (show (0 : ℝ) ≤ 80 by norm_num)
        calc (20 : ℝ) * (20 - 40) = -(80 * 5) := by norm_num
          _ ≤ -(80 * √(2 * 4 : ℝ)) := by exact neg_le_neg this
          _ = -40 * (2 * √(2 * 4 : ℝ)) := by ring
      exact (add_le_add_right this (20 * 2)).trans (by norm_num)
    rw [max_eq_left h1]
    norm_num
  have hpow : ((20 : ℝ) / 30) ^ (4 : ℝ) = (2 / 3) ^ 4 := by
    have : (20 : ℝ) / 30 = 2 / 3 := by norm_num
    rw [this]
    exact_mod_cast Real.rpow_natCast (2 / 3 : ℝ) 4
  unfold speedAfter idmFollow idmFree
  rw [hgap, if_neg (by norm_num), hpow]
  norm_num

/-- It is not enough that the leader does not come back, since the agent trusts the velocity stored for it: a car at 20 m/s drives into
an SDC a tenth of a second ahead that stands although it is stored with 40 m/s. -/
theorem C193_stalled_leader : ∃ st : Nat → PlanState Unit 2 3,
    planReset (peekEnv [idmAgent {}]) (fun _ m => List.replicate m ()) stallScen none = .ok (st 0) ∧
    planStep (peekEnv [idmAgent {}]) (fun _ m => List.replicate m ()) (st 0) { data := ⟨6, 0, 0, 40, 0⟩, valid := true } none =
      .ok (st 1) ∧
    (let p := (st 0).sim.simTrajectory 0 0
    StraightRoute (stallScen.logTrajectory 0) p 3 ∧ 0.1 * speedOf p ≤ 2 ∧
      StaysAhead p (fun m j => (st m).sim.simTrajectory j (if m = 0 then 0 else 1)) 0 1 (fun _ => 2) 1) ∧
    Meets (fun j => (st 1).sim.simTrajectory j 1) (0 : Fin 2) ((st 1).sim.simTrajectory 0 1) 1 := by
  obtain ⟨s0, hr, hsc, hts, htr, hlen⟩ := reset_peek [idmAgent {}] stallScen
  obtain ⟨s1, hst⟩ : ∃ s1, planStep (peekEnv [idmAgent {}]) (fun _ m => List.replicate m ()) s0
      { data := ⟨6, 0, 0, 40, 0⟩, valid := true } none = .ok s1 := by
    rw [planStep_eq, if_neg (by rw [hlen]; simp [peekEnv, pushEnv])]
    exact ⟨_, rfl⟩
  have h00 : s0.sim.simTrajectory 0 0 = ptAt 0 0 0 20 0 := by rw [htr]; simp [stallScen]
  have h10 : s0.sim.simTrajectory 1 0 = ptAt 6 0 0 40 0 := by rw [htr]; simp [stallScen]
  have ht0 : ((0 : Fin 3) : Int) = s0.sim.timestep := by rw [hts]; rfl
  have ht1 : ((1 : Fin 3) : Int) = s0.sim.timestep + 1 := by rw [hts]; rfl
  have hD : DrivenBy (peekEnv [idmAgent {}]) 0 defaultControlFunc (waypointUpdate false (idmSpeeds {})) 0 stallScen := by
    refine ⟨rfl, rfl, fun s hs => ?_, ?_, stall_apart⟩
    · unfold defaultControlFunc
      rw [hs.objects]
      rfl
    · intro k' a hk h
      obtain ⟨k, rfl⟩ : ∃ k, k' = k + 1 := ⟨k' - 1, by omega⟩
      simp [peekEnv, pushEnv] at h
  have hno : ∀ k o, ¬ Claims (peekEnv [idmAgent {}]) (fun _ m => List.replicate m ()) s0 none 1 k o := by
    rintro k o ⟨h1, h2, -⟩
    unfold agentOutput at h1
    rcases k with _ | k
    · simp only [peekEnv, pushEnv, List.getElem?_cons_zero] at h1
      split at h1
      · rename_i a x p ha _ _
        cases ha
        simp only [Option.some.injEq] at h1
        rw [← h1] at h2
        simp only [idmAgent, simAgent, defaultControlFunc, hsc.objects] at h2
        simp [stallScen, laneScen] at h2
      · cases h1
    · simp [peekEnv, pushEnv] at h1
  obtain ⟨e1, e2, e3, e4, e5⟩ := (C45_who_moves hst ht0 ht1 1).2.1 hno (by rw [hsc.objects]; rfl)
  obtain ⟨hv, -, -, hl, hw, -⟩ := C45_rest_of_step hst ht0 ht1 1
  have hvalid1 : (s1.sim.simTrajectory 1 1).valid = true := hv.2 (.inl ⟨by rw [h10]; rfl, .inl (by rw [hsc.objects]; rfl)⟩)
  have hbox : (s1.sim.simTrajectory 1 1).length = 4 ∧ (s1.sim.simTrajectory 1 1).width = 2 ∧ (s1.sim.simTrajectory 1 1).yaw = 0 :=
    ⟨by rw [hl, h10]; rfl, by rw [hw, h10]; rfl, e3⟩
  have hb0 : BlocksLane (ptAt 0 0 0 20 0) (fun j => s0.sim.simTrajectory j 0) (0 : Fin 2) 1 2 := by
    have := convoy_blocks (cur := fun j => s0.sim.simTrajectory j 0) (x := 6) (w := 20) (by simp only [h10]; rfl)
      (by simp only [h10]; exact ⟨rfl, rfl, rfl⟩) (by simp only [h10]; rfl) (by simp only [h10]; rfl)
    norm_num at this
    exact this
  have hb1 : BlocksLane (ptAt 0 0 0 20 0) (fun j => s1.sim.simTrajectory j 1) (0 : Fin 2) 1 2 := by
    have := convoy_blocks (cur := fun j => s1.sim.simTrajectory j 1) (x := 6) (w := 20) hvalid1 hbox e1 e2
    norm_num at this
    exact this
  have hspeed0 : speedOf (ptAt 0 0 0 20 0) = 20 := by
    unfold speedOf norm2 ptAt
    rw [show ((20 : ℝ), (0 : ℝ)).1 ^ 2 + ((20 : ℝ), (0 : ℝ)).2 ^ 2 = 20 ^ 2 by norm_num, Real.sqrt_sq (by norm_num)]
  have hspeed1 : speedOf (ptAt 6 0 0 40 0) = 40 := by
    unfold speedOf norm2 ptAt
    rw [show ((40 : ℝ), (0 : ℝ)).1 ^ 2 + ((40 : ℝ), (0 : ℝ)).2 ^ 2 = 40 ^ 2 by norm_num, Real.sqrt_sq (by norm_num)]
  have hlog : stallScen.logTrajectory 0 = fun t : Fin 3 => ptAt (3 * t.val) 0 0 20 0 := by funext t; simp [stallScen]
  have hroute : StraightRoute (stallScen.logTrajectory 0) (ptAt 0 0 0 20 0) 3 := by rw [hlog]; exact road_route 20
  -- the speed chosen by the agent
  obtain ⟨v', hs, -, hlead⟩ := C48_default (P := {}) rfl (by norm_num) (by norm_num) (i := 0) ht0 (by rw [h00]; rfl)
  simp only [Nat.cast_ofNat] at hlead
  have hmeets : ∀ k : ℕ, Meets (fun j => s0.sim.simTrajectory j 0) 0 (aheadOf (s0.sim.simTrajectory 0 0) (10 * k / 10)) 1 ↔
      |(k : ℝ) - 6| < 4 := by
    intro k
    have e : (10 * (k : ℝ) / 10) = k := by ring
    rw [e, h00]
    exact convoy_meets (cur := fun j => s0.sim.simTrajectory j 0) (x := 6) (w := 20) _ (by simp only [h10]; rfl)
      (by simp only [h10]; exact ⟨rfl, rfl, rfl⟩) (by simp only [h10]; rfl) (by simp only [h10]; rfl)
  obtain ⟨j, hm, -, hsp⟩ := hlead 3 (by norm_num) (by
    intro k' hk' j hm
    have hj : j = 1 := by have := hm.1; omega
    subst hj
    rw [hmeets, abs_lt] at hm
    have : (k' : ℝ) ≤ 2 := by exact_mod_cast Nat.le_of_lt_succ hk'
    linarith [hm.1]) ⟨1, by rw [hmeets]; norm_num [abs_lt]⟩
  have hj : j = 1 := by have := hm.1; omega
  subst hj
  have e3' : (10 * ((3 : ℕ) : ℝ) / 10) = 3 := by norm_num
  rw [h00, h10, hspeed0, hspeed1, e3', stall_speed] at hsp
  have hc : DrivenAhead (ptAt 0 0 0 20 0) 0 (s0.sim.simTrajectory 0 0) := by
    rw [h00]
    exact ⟨by simp [aheadOf, posOf], rfl, rfl, rfl, rfl⟩
  obtain ⟨hc', -, -, -⟩ := lane_moves hD (split := fun _ m => List.replicate m ()) (by simp) hsc hst ht0 ht1 le_rfl (L := 3) (by norm_num)
    hroute hc (by rw [h00, hspeed0]; norm_num) hs (by rw [hsp]; norm_num) (by rw [hsp]; norm_num)
  rw [h00, hspeed0, hsp] at hc'
  refine ⟨fun m => if m = 0 then s0 else s1, hr, hst, ⟨?_, ?_, ?_⟩, ?_⟩
  · simp only [if_true, h00]
    exact hroute
  · simp only [if_true, h00, hspeed0]
    norm_num
  · simp only [if_true, h00]
    refine ⟨fun m hm => ?_, fun m hm j' h1 h2 => by omega, fun _ _ => le_rfl⟩
    rcases Nat.le_one_iff_eq_zero_or_eq_one.1 hm with rfl | rfl
    · simpa using hb0
    · exact hb1
  · have h0 := hc'.ahead rfl 0 (fun j => s1.sim.simTrajectory j 1) 0 1
    have e : aheadOf (s1.sim.simTrajectory 0 1) 0 = s1.sim.simTrajectory 0 1 := by simp [aheadOf]
    rw [e] at h0
    refine h0.2 ((convoy_meets (cur := fun j => s1.sim.simTrajectory j 1) (x := 6) (w := 20) _ hvalid1 hbox e1 e2).2 ?_)
    rw [abs_lt]
    constructor <;> norm_num

/-- A car that stands 1 m behind the SDC. -/
noncomputable def waitScen : SimState ℝ 2 3 :=
  { laneScen with logTrajectory := fun i t => if i = 0 then ptAt (3 * t.val) 0 0 0 0 else ptAt 5 0 0 3 0 }

/-- The hypotheses of `C193_waits` can be met. -/
example : ∃ st : Nat → PlanState Unit 2 3, planReset (peekEnv [idmAgent {}]) (fun _ m => List.replicate m ()) waitScen none = .ok (st 0) ∧
    planStep (peekEnv [idmAgent {}]) (fun _ m => List.replicate m ()) (st 0) { data := ⟨5, 0, 0, 0, 0⟩, valid := true } none =
      .ok (st 1) ∧ posOf ((st 1).sim.simTrajectory 0 1) = posOf ((st 0).sim.simTrajectory 0 0) := by
  obtain ⟨s0, hr, hsc, hts, htr, hlen⟩ := reset_peek [idmAgent {}] waitScen
  obtain ⟨s1, hst⟩ : ∃ s1, planStep (peekEnv [idmAgent {}]) (fun _ m => List.replicate m ()) s0
      { data := ⟨5, 0, 0, 0, 0⟩, valid := true } none = .ok s1 := by
    rw [planStep_eq, if_neg (by rw [hlen]; simp [peekEnv, pushEnv])]
    exact ⟨_, rfl⟩
  have h00 : s0.sim.simTrajectory 0 0 = ptAt 0 0 0 0 0 := by rw [htr]; simp [waitScen]
  have h10 : s0.sim.simTrajectory 1 0 = ptAt 5 0 0 3 0 := by rw [htr]; simp [waitScen]
  have ht0 : ((0 : Fin 3) : Int) = s0.sim.timestep := by rw [hts]; rfl
  have ht1 : ((1 : Fin 3) : Int) = s0.sim.timestep + 1 := by rw [hts]; rfl
  have hapart : ¬ StartsOverlapping waitScen.logTrajectory (0 : Fin 2) := by
    rintro ⟨j, hj, p, ⟨u, v, hu, hv, hp⟩, ⟨u', v', hu', hv', hp'⟩⟩
    have h := congrArg Prod.fst (hp.symm.trans hp')
    fin_cases j
    · exact absurd rfl hj
    · simp [waitScen, ptAt, pointAt, heading, leftOf] at h hu hu'
      rw [abs_lt] at hu hu'
      linarith [hu.1, hu.2, hu'.1, hu'.2]
  have hD : DrivenBy (peekEnv [idmAgent {}]) 0 defaultControlFunc (waypointUpdate false (idmSpeeds {})) 0 waitScen := by
    refine ⟨rfl, rfl, fun s hs => ?_, ?_, hapart⟩
    · unfold defaultControlFunc
      rw [hs.objects]
      rfl
    · intro k' a hk h
      obtain ⟨k, rfl⟩ : ∃ k, k' = k + 1 := ⟨k' - 1, by omega⟩
      simp [peekEnv, pushEnv] at h
  refine ⟨fun m => if m = 0 then s0 else s1, hr, hst, ?_⟩
  refine (C193_waits (st := fun m => if m = 0 then s0 else s1) (N := 1) hD (split := fun _ m => List.replicate m ()) (by simp)
    (acts := fun _ => { data := ⟨5, 0, 0, 0, 0⟩, valid := true }) (keys := fun _ => none) ?_ hsc
    (t := fun m => if m = 0 then 0 else 1) ?_ ?_ ?_ ?_ ?_ 1 le_rfl).1
  · intro m hm
    have : m = 0 := by omega
    subst this
    exact hst
  · intro m hm
    rcases Nat.le_one_iff_eq_zero_or_eq_one.1 hm with rfl | rfl
    · simpa using ht0
    · simpa using ht1
  · simp only [if_true, h00]
    rfl
  · simp only [if_true, h00]
    simp [speedOf, norm2, ptAt]
  · simp only [if_true, h00]
    rw [show waitScen.logTrajectory 0 = fun t : Fin 3 => ptAt (3 * t.val) 0 0 0 0 by funext t; simp [waitScen]]
    exact road_route 0
  · intro m hm
    have : m = 0 := by omega
    subst this
    refine ⟨1, 1, by norm_num, by norm_num, ?_⟩
    simp only [if_true, h00]
    have := convoy_blocks (cur := fun j => s0.sim.simTrajectory j 0) (x := 5) (w := 0) (by simp only [h10]; rfl)
      (by simp only [h10]; exact ⟨rfl, rfl, rfl⟩) (by simp only [h10]; rfl) (by simp only [h10]; rfl)
    norm_num at this
    exact this

end Waymax
