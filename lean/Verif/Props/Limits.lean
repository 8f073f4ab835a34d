import Verif.Props.Specs
import Verif.Props.Bicycle
import Verif.Props.DeltaEpisode
/-
C111: the limits a dynamics model declares and what an episode does with actions outside them.
-/

namespace Waymax

open Real

section
variable {n T : Nat} [NeZero T]

/-! ### Bicycle model: actions outside the limits act like the nearest allowed ones -/

/-- `b` is allowed, and no allowed action is nearer to `a` in either entry. -/
def NearestAllowed (P : BicycleParams) (a b : AccelSteer) : Prop :=
  (|b.accel| ≤ P.accelBound ∧ |b.steering| ≤ P.steeringBound) ∧
    ∀ c : AccelSteer, |c.accel| ≤ P.accelBound → |c.steering| ≤ P.steeringBound →
      |a.accel - b.accel| ≤ |a.accel - c.accel| ∧ |a.steering - b.steering| ≤ |a.steering - c.steering|

theorem clip_dist {x b y : ℝ} (hy : |y| ≤ b) : |x - clip x (-b) b| ≤ |x - y| := by
  have h := abs_le.1 hy
  unfold clip
  rcases le_total x (-b) with h1 | h1
  · rw [max_eq_right h1, min_eq_left (by linarith), abs_of_nonpos (by linarith), abs_of_nonpos (by linarith)]; linarith
  · rw [max_eq_left h1]
    rcases le_total x b with h2 | h2
    · rw [min_eq_left h2]; simp
    · rw [min_eq_right h2, abs_of_nonneg (by linarith), abs_of_nonneg (by linarith)]; linarith

theorem clip_unique {x b y : ℝ} (hy : |y| ≤ b) (h : ∀ z, |z| ≤ b → |x - y| ≤ |x - z|) : clip x (-b) b = y := by
  have hb : 0 ≤ b := (abs_nonneg y).trans hy
  have hc : |clip x (-b) b| ≤ b := clip_abs hb
  -- the middle of two nearest points would be nearer
  have h1 := h _ hc
  have h2 := clip_dist (x := x) hy
  have h3 := abs_le.1 hy
  have h4 := abs_le.1 hc
  have hm := h ((clip x (-b) b + y) / 2) (abs_le.2 ⟨by linarith, by linarith⟩)
  have he : |x - clip x (-b) b| = |x - y| := le_antisymm h2 h1
  rcases abs_eq_abs.1 he with h5 | h5
  · linarith
  · have : x - (clip x (-b) b + y) / 2 = 0 := by linarith
    rw [this, abs_zero] at hm
    have := abs_nonpos_iff.1 hm
    rw [this] at he
    have := abs_eq_zero.1 (he.trans abs_zero)
    linarith

theorem bicycleClip_nearest {P : BicycleParams} {a b : AccelSteer} (h : NearestAllowed P a b) : bicycleClip P a = b := by
  obtain ⟨⟨h1, h2⟩, h3⟩ := h
  have e1 := clip_unique (x := a.accel) h1 fun z hz => (h3 ⟨z, b.steering⟩ hz h2).1
  have e2 := clip_unique (x := a.steering) h2 fun z hz => (h3 ⟨b.accel, z⟩ h1 hz).2
  unfold bicycleClip
  rw [e1, e2]

theorem bicycleClip_idem {P : BicycleParams} {b : AccelSteer} (h1 : |b.accel| ≤ P.accelBound) (h2 : |b.steering| ≤ P.steeringBound) :
    bicycleClip P b = b := by
  unfold bicycleClip
  rw [clip_id_abs h1, clip_id_abs h2]

/-- Every action has a nearest allowed one when the limits are not negative. -/
theorem nearest_exists {P : BicycleParams} (h : BuiltinDyn.SaneLimits (.bicycle P)) (a : AccelSteer) :
    ∃ b, NearestAllowed P a b := by
  have h1 : 0 ≤ P.accelBound ∧ 0 ≤ P.steeringBound := by
    unfold BicycleParams.accelBound BicycleParams.steeringBound
    rcases h with h | h
    · simp [h]
    · split
      · simp
      · exact h
  exact ⟨bicycleClip P a, ⟨clip_abs h1.1, clip_abs h1.2⟩, fun c hc1 hc2 => ⟨clip_dist hc1, clip_dist hc2⟩⟩

/-- One step of the bicycle model with any action is the step with the nearest allowed action. -/
theorem C111_bicycle_step (P : BicycleParams) (cfg : EnvConfig) (s : SimState ℝ n T) {a b : Fin n → Act AccelSteer}
    (h : ∀ i, NearestAllowed P (a i).data (b i).data ∧ (a i).valid = (b i).valid) :
    step (bicycle P) cfg s a = step (bicycle P) cfg s b := by
  have e : ∀ cur : Fin n → Pt ℝ, (bicycle P).computeUpdate a cur = (bicycle P).computeUpdate b cur := by
    intro cur
    funext i
    have h1 := (h i).1
    have h2 : bicyclePhysical P (a i).data = bicyclePhysical P (b i).data := by
      unfold bicyclePhysical
      rw [bicycleClip_nearest h1, bicycleClip_idem h1.1.1 h1.1.2]
    simp only [bicycle, DynamicsModel.ofSingle, bicycleUpdate, h2, (h i).2]
  unfold step DynamicsModel.forward
  simp only [e]

/-- So is a whole episode: replacing every action by the nearest allowed one changes nothing. -/
theorem C111_bicycle (P : BicycleParams) (cfg : EnvConfig) {as bs : List (Fin n → Act AccelSteer)}
    (h : List.Forall₂ (fun a b => ∀ i, NearestAllowed P (a i).data (b i).data ∧ (a i).valid = (b i).valid) as bs)
    (s : SimState ℝ n T) : stepMany (bicycle P) cfg s as = stepMany (bicycle P) cfg s bs := by
  induction h generalizing s with
  | nil => rfl
  | cons h1 _ ih =>
    unfold stepMany
    rw [C111_bicycle_step P cfg s h1]
    congr 1
    funext s'
    exact ih s'

/-- Allowed actions are carried out as given: the signed speed along the new heading is the old speed plus the acceleration times
the time step, and the heading turns by the curvature times the distance driven. With normalised actions the entries are shares of
the physical limits. -/
theorem C111_bicycle_applied (P : BicycleParams) (act : Fin n → Act AccelSteer) (cur : Fin n → Pt ℝ) (i : Fin n)
    (h : BuiltinDyn.Within (.bicycle P) fun k => if k = 0 then (act i).data.accel else (act i).data.steering) :
    let u := (bicycle P).computeUpdate act cur i
    let speed := norm2 ((cur i).velX, (cur i).velY)
    let acc := if P.normalizeActions then P.maxAccel * (act i).data.accel else (act i).data.accel
    let kappa := if P.normalizeActions then P.maxSteering * (act i).data.steering else (act i).data.steering
    u.velX = (speed + acc * P.dt) * cos u.yaw ∧ u.velY = (speed + acc * P.dt) * sin u.yaw ∧
      AnglesAgree u.yaw ((cur i).yaw + kappa * (speed * P.dt + acc * P.dt ^ 2 / 2)) := by
  obtain ⟨h1, h2⟩ := h
  simp only [if_true, one_ne_zero, if_false] at h1 h2
  have hc := bicycleClip_idem (P := P) h1 h2
  intro u speed acc kappa
  have hs : √((cur i).velX ^ 2 + (cur i).velY ^ 2) = speed := rfl
  have ha : (bicyclePhysical P (act i).data).accel = acc := by
    unfold bicyclePhysical
    simp only [hc, acc]
    split <;> simp [mul_comm]
  have hk : (bicyclePhysical P (act i).data).steering = kappa := by
    unfold bicyclePhysical
    simp only [hc, kappa]
    split <;> simp [mul_comm]
  have hu : u = bicycleUpdate P (act i) (cur i) := rfl
  rw [hu]
  simp only [bicycleUpdate, ha, hk, hs]
  refine ⟨trivial, trivial, ?_⟩
  have := wrap_agrees ((cur i).yaw + kappa * (speed * P.dt + 0.5 * acc * P.dt ^ 2))
  convert this using 2
  ring

/-! ### Delta models: limits are declared, not enforced -/

/-- C111 for delta actions, full expectation: in no step does a controlled object move by more than the declared limits. -/
def C111_full : Prop :=
  ∀ (n T : Nat) (_ : NeZero T) (P : DeltaParams) (cfg : EnvConfig) (scen s0 s1 : SimState ℝ n T)
    (acts : List (Fin n → Act Delta3)), BuiltinDyn.SaneLimits (.deltaGlobal P) → P.dt ≠ 0 →
    Episode (deltaGlobal P) cfg scen s0 acts s1 → ∀ (t t' : Fin T) (i : Fin n), cfg.initSteps ≤ t'.val → t'.val = t.val + 1 →
      t'.val < cfg.initSteps + acts.length → IsControlled cfg s0 i →
      |(s1.simTrajectory i t').x - (s1.simTrajectory i t).x| ≤ P.maxDx

/-- The object makes any commanded jump: a car allowed 6 m per step moves 100 m in a tenth of a second. -/
theorem C111_violated : ¬ C111_full := by
  intro h
  obtain ⟨s0, s1, E⟩ := episode_exists (deltaGlobal { dt := 0.1 }) { maxNumObjects := 1, initSteps := 2 } parkedScen
    [fun _ => ⟨⟨100, 0, 0⟩, true⟩] rfl (by decide) (by decide) (by decide)
  have hc : IsControlled { maxNumObjects := 1, initSteps := 2 } s0 0 := by
    simp only [IsControlled]
    rw [E.reset_data]
    first | exact rfl | simp [parkedScen]
  have h1 := h 1 4 inferInstance { dt := 0.1 } { maxNumObjects := 1, initSteps := 2 } parkedScen s0 s1
    [fun _ => ⟨⟨100, 0, 0⟩, true⟩] ⟨by norm_num, by norm_num, by positivity⟩ (by norm_num) E 1 2 0 (by decide) rfl (by decide) hc
  obtain ⟨h2, -⟩ := C88_global_step (by norm_num) E (k := 0) (by decide) (t := 1) (t' := 2) rfl rfl hc
  rw [h2] at h1
  simp only [List.getElem_cons_zero] at h1
  rw [abs_of_nonneg (by norm_num)] at h1
  norm_num at h1

/-- What holds: with allowed actions a controlled object keeps to the limits. Missing: actions outside them, which are carried out
in full (C88). -/
theorem C111_delta_global_partial {P : DeltaParams} (hdt : P.dt ≠ 0) {cfg : EnvConfig} {scen s0 s1 : SimState ℝ n T}
    {acts : List (Fin n → Act Delta3)} (E : Episode (deltaGlobal P) cfg scen s0 acts s1)
    {i : Fin n} (hc : IsControlled cfg s0 i)
    (ha : ∀ a ∈ acts, |(a i).data.dx| ≤ P.maxDx ∧ |(a i).data.dy| ≤ P.maxDy ∧ |(a i).data.dyaw| ≤ P.maxDyaw)
    {t t' : Fin T} (h0 : cfg.initSteps ≤ t'.val) (ht : t'.val = t.val + 1) (h1 : t'.val < cfg.initSteps + acts.length) :
    let p := s1.simTrajectory i t
    let q := s1.simTrajectory i t'
    |q.x - p.x| ≤ P.maxDx ∧ |q.y - p.y| ≤ P.maxDy ∧ |q.yaw - p.yaw| ≤ P.maxDyaw := by
  obtain ⟨a1, a2, a3, -, -⟩ := C88_global_step hdt E (k := t'.val - cfg.initSteps) (by omega) (t := t) (t' := t') (by omega)
    (by omega) hc
  have := ha _ (List.getElem_mem (show t'.val - cfg.initSteps < acts.length by omega))
  intro p q
  rw [a1, a2, a3]
  exact this

/-- The same for delta actions in the object's own frame: the distance moved is at most the diagonal of the limits. -/
theorem C111_delta_local_partial {P : DeltaParams} (hdt : P.dt ≠ 0) {cfg : EnvConfig} {scen s0 s1 : SimState ℝ n T}
    {acts : List (Fin n → Act Delta3)} (E : Episode (deltaLocal P) cfg scen s0 acts s1)
    {i : Fin n} (hc : IsControlled cfg s0 i)
    (ha : ∀ a ∈ acts, |(a i).data.dx| ≤ P.maxDx ∧ |(a i).data.dy| ≤ P.maxDy ∧ |(a i).data.dyaw| ≤ P.maxDyaw)
    {t t' : Fin T} (h0 : cfg.initSteps ≤ t'.val) (ht : t'.val = t.val + 1) (h1 : t'.val < cfg.initSteps + acts.length) :
    let p := s1.simTrajectory i t
    let q := s1.simTrajectory i t'
    dist2 (q.x, q.y) (p.x, p.y) ≤ √(P.maxDx ^ 2 + P.maxDy ^ 2) ∧ |q.yaw - p.yaw| ≤ P.maxDyaw := by
  obtain ⟨a1, a2, -, -⟩ := C88_local_step hdt E (k := t'.val - cfg.initSteps) (by omega) (t := t) (t' := t') (by omega)
    (by omega) hc
  obtain ⟨b1, b2, b3⟩ := ha _ (List.getElem_mem (show t'.val - cfg.initSteps < acts.length by omega))
  intro p q
  rw [a1, a2]
  refine ⟨?_, b3⟩
  unfold dist2 pointAt heading leftOf
  refine sqrt_le_sqrt ?_
  set dx := (acts[t'.val - cfg.initSteps] i).data.dx
  set dy := (acts[t'.val - cfg.initSteps] i).data.dy
  have e1 : dx ^ 2 ≤ P.maxDx ^ 2 := by rw [← sq_abs dx]; exact pow_le_pow_left₀ (abs_nonneg _) b1 2
  have e2 : dy ^ 2 ≤ P.maxDy ^ 2 := by rw [← sq_abs dy]; exact pow_le_pow_left₀ (abs_nonneg _) b2 2
  have e3 := sin_sq_add_cos_sq p.yaw
  simp only
  nlinarith [e1, e2, e3]

end

/-- The bicycle statements have cases: full throttle beyond the limit, and the nearest allowed action. -/
example : NearestAllowed { dt := 0.1, normalizeActions := false } ⟨100, 0⟩ ⟨6, 0⟩ := by
  refine ⟨⟨?_, ?_⟩, fun c h1 h2 => ⟨?_, ?_⟩⟩
  · simp [BicycleParams.accelBound]
  · simp [BicycleParams.steeringBound]; norm_num
  · simp [BicycleParams.accelBound] at h1
    have := (abs_le.1 h1).2
    rw [abs_of_nonneg (by norm_num), abs_of_nonneg (by simp only; linarith)]
    simp only
    linarith
  · simp

/-- The delta statements have cases: allowed moves of 5 m. -/
example : ∃ s0 s1, Episode (deltaGlobal { dt := 0.1 }) { maxNumObjects := 1, initSteps := 2 } parkedScen s0
    [fun _ => ⟨⟨5, 0, 0⟩, true⟩] s1 ∧ IsControlled { maxNumObjects := 1, initSteps := 2 } s0 0 ∧
    |(s1.simTrajectory 0 2).x - (s1.simTrajectory 0 1).x| ≤ 6 := by
  obtain ⟨s0, s1, E⟩ := episode_exists (deltaGlobal { dt := 0.1 }) { maxNumObjects := 1, initSteps := 2 } parkedScen
    [fun _ => ⟨⟨5, 0, 0⟩, true⟩] rfl (by decide) (by decide) (by decide)
  have hc : IsControlled { maxNumObjects := 1, initSteps := 2 } s0 0 := by
    simp only [IsControlled]
    rw [E.reset_data]
    first | exact rfl | simp [parkedScen]
  refine ⟨s0, s1, E, hc, ?_⟩
  exact (C111_delta_global_partial (P := { dt := 0.1 }) (by norm_num) E hc (by
    intro a ha
    simp only [List.mem_singleton] at ha
    subst ha
    refine ⟨?_, ?_, ?_⟩ <;> simp <;> norm_num [abs_of_nonneg, pi_pos.le]) (t := 1) (t' := 2) (by decide) rfl (by decide)).1

end Waymax
