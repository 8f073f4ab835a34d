import Verif.Spec.Mirror
import Verif.Props.Motion
/-
C169: the simulation treats left and right alike (real arithmetic).
-/

namespace Waymax

open Real

/-! ### Mirroring -/

theorem AnglesAgree.neg {a b : ℝ} (h : AnglesAgree a b) : AnglesAgree (-a) (-b) := by
  obtain ⟨k, rfl⟩ := h
  exact ⟨-k, by push_cast; ring⟩

/-- The heading of a mirrored object. -/
theorem flip_heading {yaw yaw' : ℝ} (h : AnglesAgree yaw' (-yaw)) : Real.cos yaw' = Real.cos yaw ∧ Real.sin yaw' = -Real.sin yaw := by
  rw [h.cos, h.sin, Real.cos_neg, Real.sin_neg]
  exact ⟨rfl, rfl⟩

theorem PtFlipped.xy {p p' : Pt ℝ} (h : PtFlipped p p') (hv : p.valid = true) : p'.x = p.x ∧ p'.y = -p.y :=
  Prod.ext_iff.1 (h.position hv)

theorem PtFlipped.vel {p p' : Pt ℝ} (h : PtFlipped p p') (hv : p.valid = true) : p'.velX = p.velX ∧ p'.velY = -p.velY :=
  Prod.ext_iff.1 (h.velocity hv)

theorem invalid_flipped : PtFlipped invalidPt invalidPt :=
  ⟨rfl, rfl, rfl, rfl, rfl, rfl, (fun h => by cases h), (fun h => by cases h), (fun h => by cases h)⟩

/-! ### Dynamics models -/

section
variable {n : Nat}

/-- Setting the state: the poses to set are mirrored. -/
theorem C169_state : MirrorFree StateFlipped (stateDynamics (n := n)) := by
  intro a a' c c' ha _ i _
  obtain ⟨h, hv⟩ := ha i
  exact ⟨h.position, h.velocity, h.yaw, hv⟩

/-- Displacements in map axes: they are mirrored. -/
theorem C169_deltaGlobal (P : DeltaParams) : MirrorFree DeltaFlipped (deltaGlobal P (n := n)) := by
  intro a a' c c' ha hc i hi
  obtain ⟨h, hv⟩ := ha i
  obtain ⟨hx, hy⟩ := (hc i).xy hi
  obtain ⟨sx, sy⟩ := Prod.ext_iff.1 h.shift
  simp only [flip2] at sx sy
  refine ⟨?_, ?_, ?_, ?_⟩ <;> simp only [deltaGlobal, DynamicsModel.ofSingle, deltaGlobalUpdate]
  · rw [hx, hy, sx, sy]
    exact Prod.ext rfl (by simp only [flip2]; ring)
  · rw [sx, sy]
    exact Prod.ext rfl (by simp only [flip2]; ring)
  · rw [h.turn]
    obtain ⟨k, hk⟩ := (hc i).yaw hi
    exact ⟨k, by rw [hk]; ring⟩
  · rw [(hc i).valid, hv]

/-- Displacements in the vehicle's axes: left becomes right. -/
theorem C169_deltaLocal (P : DeltaParams) : MirrorFree DeltaFlipped (deltaLocal P (n := n)) := by
  intro a a' c c' ha hc i hi
  obtain ⟨h, hv⟩ := ha i
  obtain ⟨hx, hy⟩ := (hc i).xy hi
  obtain ⟨hcos, hsin⟩ := flip_heading ((hc i).yaw hi)
  obtain ⟨sx, sy⟩ := Prod.ext_iff.1 h.shift
  simp only [flip2] at sx sy
  refine ⟨?_, ?_, ?_, ?_⟩ <;>
    simp only [deltaLocal, DynamicsModel.ofSingle, deltaLocalUpdate, deltaGlobalUpdate, rotatePoints, rotationMatrix2d,
      Matrix.cons_val', Matrix.cons_val_zero, Matrix.cons_val_one, Matrix.of_apply, Matrix.cons_val_fin_one]
  · rw [hx, hy, sx, sy, hcos, hsin]
    simp only [flip2, Prod.mk.injEq]; constructor <;> ring
  · rw [sx, sy, hcos, hsin]
    simp only [flip2, Prod.mk.injEq]; constructor <;> ring
  · rw [h.turn]
    obtain ⟨k, hk⟩ := (hc i).yaw hi
    exact ⟨k, by rw [hk]; ring⟩
  · rw [(hc i).valid, hv]

/-- Speed does not change. -/
theorem PtFlipped.speed {p p' : Pt ℝ} (h : PtFlipped p p') (hv : p.valid = true) :
    √(p'.velX ^ 2 + p'.velY ^ 2) = √(p.velX ^ 2 + p.velY ^ 2) := by
  rw [(h.vel hv).1, (h.vel hv).2, neg_sq]

theorem clip_neg {a m : ℝ} (hm : 0 ≤ m) : clip (-a) (-m) m = -clip a (-m) m := by
  unfold clip
  rcases le_total a (-m) with h1 | h1 <;> rcases le_total a m with h2 | h2 <;>
    simp only [max_def, min_def] <;> split_ifs <;> linarith

/-- What the vehicle executes, after clipping and scaling. -/
theorem physical_flipped {P : BicycleParams} (hP : 0 ≤ P.maxSteering) {a a' : AccelSteer} (h : SteerFlipped a a') :
    (bicyclePhysical P a').accel = (bicyclePhysical P a).accel ∧ (bicyclePhysical P a').steering = -(bicyclePhysical P a).steering := by
  have hb : 0 ≤ P.steeringBound := by
    unfold BicycleParams.steeringBound
    split
    · exact zero_le_one
    · exact hP
  have h1 : (bicycleClip P a').accel = (bicycleClip P a).accel := by simp only [bicycleClip, h.accel]
  have h2 : (bicycleClip P a').steering = -(bicycleClip P a).steering := by simp only [bicycleClip, h.steering, clip_neg hb]
  unfold bicyclePhysical
  simp only
  split
  · exact ⟨by rw [h1], by rw [h2, neg_mul]⟩
  · exact ⟨h1, h2⟩

/-- Pedal and steering commands: the same acceleration, steering to the other side. -/
theorem C169_bicycle {P : BicycleParams} (hP : 0 ≤ P.maxSteering) : MirrorFree SteerFlipped (bicycle P (n := n)) := by
  intro a a' c c' ha hc i hi
  obtain ⟨h, hv⟩ := ha i
  obtain ⟨hx, hy⟩ := (hc i).xy hi
  obtain ⟨vx, vy⟩ := (hc i).vel hi
  obtain ⟨hcos, hsin⟩ := flip_heading ((hc i).yaw hi)
  have hspeed := (hc i).speed hi
  obtain ⟨e1, e2⟩ := physical_flipped hP h
  have hyaw : ∀ d, AnglesAgree (wrapYaws ((c' i).yaw + -d)) (-wrapYaws ((c i).yaw + d)) := by
    intro d
    refine (wrap_agrees _).trans ?_
    refine (((hc i).yaw hi).add (-d)).trans ?_
    have := (wrap_agrees ((c i).yaw + d)).symm.neg
    rwa [show -((c i).yaw + d) = -(c i).yaw + -d by ring] at this
  simp only [bicycle, DynamicsModel.ofSingle, bicycleUpdate]
  rw [hspeed, e1, e2, hx, hy, vx, vy, hcos, hsin]
  simp only [neg_mul, mul_neg]
  have hh := hyaw ((bicyclePhysical P (a i).data).steering * (√((c i).velX ^ 2 + (c i).velY ^ 2) * P.dt +
    0.5 * (bicyclePhysical P (a i).data).accel * P.dt ^ 2))
  obtain ⟨k1, k2⟩ := flip_heading hh
  refine ⟨?_, ?_, hh, by simp only [(hc i).valid, hv]⟩
  · exact Prod.ext rfl (by simp only [flip2]; ring)
  · simp only [flip2, Prod.mk.injEq]
    rw [k1, k2]
    exact ⟨rfl, by ring⟩

end

/-! ### Transitions -/

section
variable {n T : Nat} {D : Type} {s s' : SimState ℝ n T}

/-- `reset`. -/
theorem C169_reset (cfg : EnvConfig) (h : Flipped s s') : Both Flipped (reset cfg s) (reset cfg s') := by
  rw [reset_eq, reset_eq]
  split
  · split
    · refine .ok ⟨?_, h.log, h.objects, rfl, h.lights, h.paths, h.roadgraph⟩
      intro i t
      simp only
      split
      · exact h.log i t
      · exact invalid_flipped
    · exact .error
  · exact .error

/-- The new point of one object. -/
theorem updatedPt_flipped {u u' : Upd ℝ} {cur cur' ref ref' : Pt ℝ} {inj c : Bool}
    (hu : cur.valid = true → UpdFlipped u u') (hc : PtFlipped cur cur') (hr : PtFlipped ref ref')
    (hent : inj = true → c = true → ref.valid = true → cur.valid = true) :
    PtFlipped (updatedPt false inj c u cur ref) (updatedPt false inj c u' cur' ref') := by
  have hcv : (updatedPt false inj c u cur ref).valid = true → c = true → cur.valid = true := by
    intro h hct
    change nextValid inj c cur.valid ref.valid = true at h
    cases hcur : cur.valid
    · rw [hcur, hct] at h
      cases hi : inj
      · rw [hi] at h; simp [nextValid] at h
      · rw [hi] at h
        have := hent hi hct (by simpa [nextValid] using h)
        rw [hcur] at this; cases this
    · rfl
  have hrv : (updatedPt false inj c u cur ref).valid = true → c = false → ref.valid = true := by
    intro h hct
    change nextValid inj c cur.valid ref.valid = true at h
    rw [hct] at h
    cases inj <;> simp [nextValid] at h
    · exact h.2
    · exact h
  refine ⟨?_, hc.z, hr.time, hc.length, hc.width, hc.height, fun h => ?_, fun h => ?_, fun h => ?_⟩
  · change nextValid inj c cur'.valid ref'.valid = nextValid inj c cur.valid ref.valid
    rw [hc.valid, hr.valid]
  all_goals
    cases hct : c
    · rw [hct] at hrv h
      simp only [updatedPt, newField, Bool.false_eq_true, if_false]
      first
        | exact hr.position (hrv h rfl)
        | exact hr.velocity (hrv h rfl)
        | exact hr.yaw (hrv h rfl)
    · rw [hct] at hcv h
      simp only [updatedPt, newField, Bool.false_eq_true, if_false, if_true]
      first
        | exact (hu (hcv h rfl)).position
        | exact (hu (hcv h rfl)).velocity
        | exact (hu (hcv h rfl)).yaw

variable [NeZero T]

theorem mask_flipped {cfg : EnvConfig} (h : Flipped s s') : envControlMask cfg s' = envControlMask cfg s := by
  unfold envControlMask
  rw [h.objects]
  simp only [fun i t => (h.sim i t).valid]

/-- One step, as long as no controlled object enters in this step. -/
theorem C169_step_partial {rel : D → D → Prop} {d : DynamicsModel ℝ D n} (hd : MirrorFree rel d) {cfg : EnvConfig}
    (h : Flipped s s') {a a' : Fin n → Act D} (ha : ActsMoved rel a a')
    (hent : ∀ c, envControlMask cfg s = .ok c → cfg.allowNewObjectsAfterWarmup = true → ∀ i, c i = true →
      (dynIndex (s.logTrajectory i) (s.timestep + 1)).valid = true → (dynIndex (s.simTrajectory i) s.timestep).valid = true) :
    Both Flipped (step d cfg s a) (step d cfg s' a') := by
  unfold step
  rw [mask_flipped h]
  cases hm : envControlMask cfg s with
  | error e => exact .error
  | ok c =>
    refine .ok ⟨?_, h.log, h.objects, by simp only [h.clock], h.lights, h.paths, h.roadgraph⟩
    intro i t
    simp only
    unfold DynamicsModel.forward applyTrajectoryUpdate
    simp only [h.clock]
    unfold dynUpdateSlice
    split
    · refine updatedPt_flipped (fun hv => hd _ _ _ _ ha (fun j => h.sim j _) i hv) (h.sim i _) (h.log i _)
        (fun h1 h2 => hent c hm h1 i h2)
    · exact h.sim i t

/-- Whole episodes of any length in which no controlled object enters after the warm-up. -/
theorem C169_episode_partial {rel : D → D → Prop} {d : DynamicsModel ℝ D n} (hd : MirrorFree rel d) {cfg : EnvConfig}
    (h1 : 1 ≤ cfg.initSteps) {as as' : List (Fin n → Act D)} (ha : List.Forall₂ (ActsMoved rel) as as')
    (hT : cfg.initSteps + as.length ≤ T) (h : Flipped s s') (hno : ∀ s0, reset cfg s = .ok s0 → NoControlledEntry cfg s0) :
    Both Flipped (reset cfg s >>= fun s0 => stepMany d cfg s0 as) (reset cfg s' >>= fun s0 => stepMany d cfg s0 as') := by
  -- the invariant: a controlled object the log still holds is present
  have key : ∀ (as as' : List (Fin n → Act D)), List.Forall₂ (ActsMoved rel) as as' → ∀ s s' : SimState ℝ n T, Flipped s s' →
      (cfg.initSteps : Int) ≤ s.timestep + 1 → s.timestep + as.length < T →
      (cfg.allowNewObjectsAfterWarmup = true → ∀ i, IsControlled cfg s i → ∀ t : Fin T, cfg.initSteps ≤ t.val →
        (s.logTrajectory i t).valid = true → (dynIndex (s.simTrajectory i) s.timestep).valid = true) →
      Both Flipped (stepMany d cfg s as) (stepMany d cfg s' as') := by
    intro as as' haa
    induction haa with
    | nil => exact fun _ _ h _ _ _ => .ok h
    | @cons a a' as as' ha _ ih =>
      intro s s' h hlo hhi hinv
      rw [List.length_cons] at hhi
      obtain ⟨t, ht⟩ : ∃ t : Fin T, (t : Int) = s.timestep := ⟨⟨s.timestep.toNat, by omega⟩, by simp only; omega⟩
      obtain ⟨t', ht'⟩ : ∃ t : Fin T, (t : Int) = s.timestep + 1 := ⟨⟨(s.timestep + 1).toNat, by omega⟩, by simp only; omega⟩
      have hst := C169_step_partial hd h ha (cfg := cfg) (by
        intro c hm hal i hci hl
        rw [dynIndex_of_eq _ ht'] at hl
        exact hinv hal i ((envControlMask_iff hm h1 (by omega) i).1 hci) t' (by omega) hl)
      unfold stepMany
      cases hx : step d cfg s a with
      | error e =>
        rw [hx] at hst
        rw [(hst.iff.1 e).1 rfl]
        exact .error
      | ok s1 =>
        rw [hx] at hst
        obtain ⟨s1', hs1', hmv⟩ := hst.iff.2.1 s1 rfl
        rw [hs1']
        obtain ⟨c, hm, rfl⟩ := step_ok hx
        refine ih _ s1' hmv (by simp only; omega) (by simp only; omega) ?_
        intro hal i hci u hu hlu
        simp only at hci hlu ⊢
        have hci' : IsControlled cfg s i := by
          refine (isControlled_congr (s := s) (s' := { s with
            simTrajectory := d.forward a s.simTrajectory s.logTrajectory c s.timestep cfg.allowNewObjectsAfterWarmup
            timestep := s.timestep + 1 }) rfl ?_ i).1 hci
          intro j u hu
          simp only
          rw [forward_apply d _ _ _ c _ ht ht', if_neg]
          intro hh
          rw [hh] at hu; omega
        have hcur := hinv hal i hci' u hu hlu
        have hct := (envControlMask_iff hm h1 (by omega) i).2 hci'
        rw [dynIndex_of_eq _ ht'] 
        rw [forward_apply d _ _ _ c _ ht ht', if_pos rfl]
        rw [dynIndex_of_eq _ ht] at hcur
        change nextValid _ (c i) (s.simTrajectory i t).valid _ = true
        rw [hct, hcur]
        simp [nextValid]
  have hr := C169_reset cfg h
  cases hx : reset cfg s with
  | error e =>
    rw [hx] at hr
    rw [(hr.iff.1 e).1 rfl]
    exact .error
  | ok s0 =>
    rw [hx] at hr
    obtain ⟨s0', hs0', h0⟩ := hr.iff.2.1 s0 rfl
    rw [hs0']
    have hn := hno s0 hx
    rw [reset_eq] at hx
    split at hx
    · rw [if_pos (by omega)] at hx
      have he := Except.ok.inj hx
      refine key as as' ha s0 s0' h0 (by rw [← he]; simp only; omega) (by rw [← he]; simp only; omega) ?_
      intro hal i hci t ht hl
      have hpos : 0 < T := by omega
      have h0t := hn hal i hci t ⟨cfg.initSteps - 1, by omega⟩ ht (by simp only; omega) hl
      rw [← he] at h0t ⊢
      simp only at h0t ⊢
      rw [dynIndex_of_eq _ (t := (⟨cfg.initSteps - 1, by omega⟩ : Fin T)) (by simp only; omega)]
      rw [if_pos (by simp only; omega)]
      exact h0t
    · cases hx

/-- Setting the state: also while controlled objects enter. -/
theorem C169_state_step {cfg : EnvConfig} (h : Flipped s s') {a a' : Fin n → Act (StateRow ℝ)} (ha : ActsMoved (StateFlipped) a a') :
    Both Flipped (step stateDynamics cfg s a) (step stateDynamics cfg s' a') := by
  unfold step
  rw [mask_flipped h]
  cases hm : envControlMask cfg s with
  | error e => exact .error
  | ok c =>
    refine .ok ⟨?_, h.log, h.objects, by simp only [h.clock], h.lights, h.paths, h.roadgraph⟩
    intro i t
    simp only
    unfold DynamicsModel.forward applyTrajectoryUpdate
    simp only [h.clock]
    unfold dynUpdateSlice
    split
    · have hc := h.sim i
      have hr := h.log i
      obtain ⟨hu, -⟩ := ha i
      refine ⟨?_, (hc _).z, (hr _).time, (hc _).length, (hc _).width, (hc _).height, fun hv => ?_, fun hv => ?_, fun hv => ?_⟩
      · change nextValid _ _ _ _ = nextValid _ _ _ _
        exact congrArg₂ (nextValid _ _) (hc _).valid (hr _).valid
      all_goals
        change nextValid _ (c i) _ _ = true at hv
        simp only [updatedPt, newField, Bool.false_eq_true, if_false]
        cases hct : c i
        · have hrv : (dynIndex (s.logTrajectory i) (s.timestep + 1)).valid = true := by
            rw [hct] at hv
            cases hal : cfg.allowNewObjectsAfterWarmup
            · rw [hal] at hv
              simp only [nextValid, Bool.false_eq_true, if_false, false_and, Bool.and_eq_true] at hv
              exact hv.2
            · rw [hal] at hv
              simpa [nextValid] using hv
          simp only [Bool.false_eq_true, if_false]
          first
            | exact (hr _).position hrv
            | exact (hr _).velocity hrv
            | exact (hr _).yaw hrv
        · simp only [if_true]
          first
            | exact hu.position
            | exact hu.velocity
            | exact hu.yaw
    · exact h.sim i t

/-- Setting the state: whole episodes of any length, also while controlled objects enter. -/
theorem C169_state_episode {cfg : EnvConfig} {as as' : List (Fin n → Act (StateRow ℝ))}
    (ha : List.Forall₂ (ActsMoved (StateFlipped)) as as') (h : Flipped s s') :
    Both Flipped (reset cfg s >>= fun s0 => stepMany stateDynamics cfg s0 as)
      (reset cfg s' >>= fun s0 => stepMany stateDynamics cfg s0 as') :=
  (C169_reset cfg h).bind fun s0 s0' h0 => by
    clear h
    induction ha generalizing s0 s0' with
    | nil => exact .ok h0
    | @cons a a' as as' ha _ ih =>
      unfold stepMany
      exact (C169_state_step h0 ha).bind ih

end

/-! ### A controlled object that enters -/

/-- C169, full expectation: displacements to the other side drive the mirrored scenario. -/
def MirrorHasNoInfluence (n T : Nat) [NeZero T] : Prop :=
  ∀ (P : DeltaParams) (cfg : EnvConfig) (s s' : SimState ℝ n T) (as as' : List (Fin n → Act Delta3)),
    1 ≤ cfg.initSteps → cfg.initSteps + as.length ≤ T → Flipped s s' → List.Forall₂ (ActsMoved DeltaFlipped) as as' →
    Both Flipped (reset cfg s >>= fun s0 => stepMany (deltaGlobal P) cfg s0 as)
      (reset cfg s' >>= fun s0 => stepMany (deltaGlobal P) cfg s0 as')

/-- The object of C142 that the log holds from step 1 on enters on the axis of the mirror: it is its own mirror image. -/
theorem entrant_flipped : Flipped (entrantScen 0) (entrantScen 0) := by
  refine ⟨fun i t => invalid_flipped, fun i t => ?_, rfl, rfl, rfl, rfl, rfl⟩
  simp only [entrantScen]
  split
  · exact invalid_flipped
  · refine ⟨rfl, rfl, rfl, rfl, rfl, rfl, fun _ => ?_, fun _ => ?_, fun _ => ?_⟩
    · simp [ptAt, flip2]
    · simp [ptAt, flip2]
    · simp only [ptAt, neg_zero]; exact AnglesAgree.refl _

theorem entrant_run_y (a : Fin 1 → Act Delta3) : ∃ s1 : SimState ℝ 1 2,
    (reset entrantCfg (entrantScen 0) >>= fun s0 => stepMany (deltaGlobal {}) entrantCfg s0 [a]) = .ok s1 ∧
    (s1.simTrajectory 0 1).valid = true ∧ (s1.simTrajectory 0 1).y = -1 + (a 0).data.dy := by
  have hr := reset_eq entrantCfg (entrantScen 0)
  rw [if_pos (by decide), if_pos (by decide)] at hr
  rw [hr]
  obtain ⟨s1, h1⟩ := step_exists (deltaGlobal {}) entrantCfg
    { entrantScen 0 with
      timestep := (entrantCfg.initSteps : Int) - 1
      simTrajectory := fun i t => if t.val < entrantCfg.initSteps then (entrantScen 0).logTrajectory i t else invalidPt } a (by decide)
  refine ⟨s1, ?_, ?_⟩
  · change stepMany (deltaGlobal {}) entrantCfg _ [a] = _
    unfold stepMany
    rw [h1]; rfl
  · obtain ⟨c, hm, rfl⟩ := step_ok h1
    have hc : c 0 = true := by
      refine (envControlMask_iff hm (by decide) (by decide) 0).2 ?_
      change (soloMeta (n := 1) 0).isSdc = true
      rfl
    simp only
    have hf := forward_apply (deltaGlobal {}) a
      (fun i t => if t.val < entrantCfg.initSteps then (entrantScen 0).logTrajectory i t else invalidPt) (entrantScen 0).logTrajectory c
      entrantCfg.allowNewObjectsAfterWarmup (t := (0 : Fin 2)) (t' := (1 : Fin 2)) (k := (entrantCfg.initSteps : Int) - 1)
      (by decide) (by decide) 0 1
    rw [if_pos rfl] at hf
    rw [hf]
    constructor
    · simp only [updatedPt, hc]
      simp [nextValid, entrantCfg, entrantScen, ptAt, invalidPt]
    · simp only [updatedPt, newField, hc, Bool.false_eq_true, if_false, if_true, deltaGlobal, DynamicsModel.ofSingle, deltaGlobalUpdate]
      simp [entrantCfg, entrantScen, invalidPt, ScalarOps.invalid]

/-- C169: it fails for a controlled object that enters: the displacement is applied to the placeholder -1, which is the same number in the
mirror. A scenario that is its own mirror image ends in a state that is not. -/
theorem C169_violated : ¬ MirrorHasNoInfluence 1 2 := by
  intro h
  let a : Fin 1 → Act Delta3 := fun _ => ⟨⟨0, 0, 0⟩, true⟩
  have ha : ActsMoved DeltaFlipped a a := fun i => ⟨⟨by simp [a, flip2], by simp [a]⟩, rfl⟩
  have hb := h {} entrantCfg _ _ [a] [a] (by decide) (by decide) entrant_flipped (.cons ha .nil)
  obtain ⟨s1, h1, v1, y1⟩ := entrant_run_y a
  rw [h1] at hb
  cases hb with
  | ok hm =>
    have hp := ((hm.sim 0 1).xy v1).2
    rw [y1] at hp
    norm_num [a] at hp

/-! ### Examples -/

/-- The drive of `driveScen` on a curve to the right instead of the left. -/
noncomputable def mirrorScen : SimState ℝ 1 4 :=
  { driveScen with logTrajectory := fun _ t => ptAt t 0 (-(3 * t)) 10 0 }

theorem mirror_flipped : Flipped driveScen mirrorScen := by
  refine ⟨fun i t => ?_, fun i t => ?_, rfl, rfl, rfl, rfl, rfl⟩
  all_goals
    refine ⟨rfl, rfl, rfl, rfl, rfl, rfl, fun _ => ?_, fun _ => ?_, fun _ => ?_⟩
    · simp [driveScen, mirrorScen, ptAt, flip2]
    · simp [driveScen, mirrorScen, ptAt, flip2]
    · simp only [driveScen, mirrorScen, ptAt]
      exact ⟨0, by simp⟩

/-- Three steps with the bicycle model, steering to the left in one and to the right in the other: the final states are mirror images. -/
example (acc st : ℝ) : ∃ s1 s1',
    (reset driveCfg driveScen >>= fun s0 => stepMany (bicycle {}) driveCfg s0 (List.replicate 3 fun _ => ⟨⟨acc, st⟩, true⟩)) = .ok s1 ∧
    (reset driveCfg mirrorScen >>= fun s0 => stepMany (bicycle {}) driveCfg s0 (List.replicate 3 fun _ => ⟨⟨acc, -st⟩, true⟩)) = .ok s1' ∧
    Flipped s1 s1' := by
  have hr : reset driveCfg driveScen = .ok { driveScen with
      timestep := 0, simTrajectory := fun i t => if t.val < 1 then driveScen.logTrajectory i t else invalidPt } := by
    rw [reset_eq, if_pos (by decide), if_pos (by decide)]; rfl
  have haa : ActsMoved SteerFlipped (fun _ : Fin 1 => (⟨⟨acc, st⟩, true⟩ : Act AccelSteer)) (fun _ => ⟨⟨acc, -st⟩, true⟩) :=
    fun i => ⟨⟨rfl, rfl⟩, rfl⟩
  have hb := C169_episode_partial (C169_bicycle (P := {}) (by norm_num)) (cfg := driveCfg) (by decide)
    (as := List.replicate 3 fun _ => ⟨⟨acc, st⟩, true⟩) (as' := List.replicate 3 fun _ => ⟨⟨acc, -st⟩, true⟩)
    (.cons haa (.cons haa (.cons haa .nil))) (le_refl 4) mirror_flipped (fun _ _ h => by cases h)
  obtain ⟨s0, s1, E⟩ := episode_exists (bicycle {}) driveCfg driveScen (List.replicate 3 fun _ => ⟨⟨acc, st⟩, true⟩) (by decide) (by decide) (le_refl 4) (by decide)
  have h0 := E.start
  rw [hr] at h0
  cases h0
  have hx : (reset driveCfg driveScen >>= fun s0 => stepMany (bicycle {}) driveCfg s0 (List.replicate 3 fun _ => ⟨⟨acc, st⟩, true⟩)) = .ok s1 := by
    rw [hr]; exact E.run
  rw [hx] at hb
  obtain ⟨s1', h1', hm⟩ := hb.iff.2.1 s1 rfl
  exact ⟨s1, s1', hx, h1', hm⟩

end Waymax
