import Verif.Spec.Motion
import Verif.Props.Padding
/-
C142: the map frame has no influence on the simulation (real arithmetic).
-/

namespace Waymax

open Real

/-! ### Frames -/

theorem AnglesAgree.refl (a : ℝ) : AnglesAgree a a := ⟨0, by simp⟩

theorem AnglesAgree.trans {a b c : ℝ} (h : AnglesAgree a b) (h' : AnglesAgree b c) : AnglesAgree a c := by
  obtain ⟨k, rfl⟩ := h
  obtain ⟨l, rfl⟩ := h'
  exact ⟨k + l, by push_cast; ring⟩

theorem AnglesAgree.add {a b : ℝ} (h : AnglesAgree a b) (c : ℝ) : AnglesAgree (a + c) (b + c) := by
  obtain ⟨k, rfl⟩ := h
  exact ⟨k, by ring⟩

theorem AnglesAgree.cos {a b : ℝ} (h : AnglesAgree a b) : Real.cos a = Real.cos b := by
  obtain ⟨k, rfl⟩ := h; exact Real.cos_add_int_mul_two_pi _ _

theorem AnglesAgree.sin {a b : ℝ} (h : AnglesAgree a b) : Real.sin a = Real.sin b := by
  obtain ⟨k, rfl⟩ := h; exact Real.sin_add_int_mul_two_pi _ _

theorem AnglesAgree.symm {a b : ℝ} (h : AnglesAgree a b) : AnglesAgree b a := by
  obtain ⟨k, rfl⟩ := h
  exact ⟨-k, by push_cast; ring⟩

namespace Motion
variable (g : Motion)

theorem vec_add (v w : ℝ × ℝ) : g.vec (v.1 + w.1, v.2 + w.2) = ((g.vec v).1 + (g.vec w).1, (g.vec v).2 + (g.vec w).2) := by
  simp only [vec, Prod.mk.injEq]; constructor <;> ring

theorem vec_sub (v w : ℝ × ℝ) : g.vec (v.1 - w.1, v.2 - w.2) = ((g.vec v).1 - (g.vec w).1, (g.vec v).2 - (g.vec w).2) := by
  simp only [vec, Prod.mk.injEq]; constructor <;> ring

theorem vec_div (v : ℝ × ℝ) (c : ℝ) : g.vec (v.1 / c, v.2 / c) = ((g.vec v).1 / c, (g.vec v).2 / c) := by
  simp only [vec, Prod.mk.injEq]; constructor <;> ring

theorem vec_sq (v : ℝ × ℝ) : (g.vec v).1 ^ 2 + (g.vec v).2 ^ 2 = v.1 ^ 2 + v.2 ^ 2 := by
  simp only [vec]
  have h := Real.sin_sq_add_cos_sq g.angle
  have : (Real.cos g.angle * v.1 - Real.sin g.angle * v.2) ^ 2 + (Real.sin g.angle * v.1 + Real.cos g.angle * v.2) ^ 2 =
    (Real.sin g.angle ^ 2 + Real.cos g.angle ^ 2) * (v.1 ^ 2 + v.2 ^ 2) := by ring
  rw [this, h, one_mul]

/-- Differences of moved points are turned. -/
theorem point_sub (p q : ℝ × ℝ) : ((g.point p).1 - (g.point q).1, (g.point p).2 - (g.point q).2) = g.vec (p.1 - q.1, p.2 - q.2) := by
  simp only [point, vec, Prod.mk.injEq]; constructor <;> ring

theorem point_inj {p q : ℝ × ℝ} (h : g.point p = g.point q) : p = q := by
  have h1 := congrArg Prod.fst h
  have h2 := congrArg Prod.snd h
  have hs := g.vec_sq (p.1 - q.1, p.2 - q.2)
  rw [← g.point_sub, h1, h2] at hs
  simp only [sub_self] at hs
  have hx : p.1 - q.1 = 0 := by nlinarith [sq_nonneg (p.1 - q.1), sq_nonneg (p.2 - q.2)]
  have hy : p.2 - q.2 = 0 := by nlinarith [sq_nonneg (p.1 - q.1), sq_nonneg (p.2 - q.2)]
  exact Prod.ext (by linarith) (by linarith)

/-- The heading vector of a turned object. -/
theorem vec_heading {yaw yaw' : ℝ} (h : AnglesAgree yaw' (yaw + g.angle)) (r : ℝ) :
    g.vec (r * Real.cos yaw, r * Real.sin yaw) = (r * Real.cos yaw', r * Real.sin yaw') := by
  rw [h.cos, h.sin, Real.cos_add, Real.sin_add]
  simp only [vec, Prod.mk.injEq]
  constructor <;> ring

/-- Distances do not change. -/
theorem hypot_point (p q : ℝ × ℝ) : hypot ((g.point p).1 - (g.point q).1) ((g.point p).2 - (g.point q).2) =
    hypot (p.1 - q.1) (p.2 - q.2) := by
  have := g.point_sub p q
  rw [Prod.ext_iff] at this
  simp only at this
  unfold hypot
  rw [this.1, this.2, g.vec_sq]

end Motion

theorem invalid_moved (g : Motion) : PtMoved g invalidPt invalidPt :=
  ⟨rfl, rfl, rfl, rfl, rfl, rfl, (fun h => by cases h), (fun h => by cases h), (fun h => by cases h)⟩

/-! ### Dynamics models -/

section
variable {n : Nat} (g : Motion)

/-- Setting the state: the poses to set are moved. -/
theorem C142_state : FrameFree g (StateMoved g) (stateDynamics (n := n)) := by
  intro a a' c c' ha _ i _
  obtain ⟨h, hv⟩ := ha i
  exact ⟨h.position, h.velocity, h.yaw, hv⟩

/-- Displacements in map axes: they are turned. -/
theorem C142_deltaGlobal (P : DeltaParams) : FrameFree g (DeltaMoved g) (deltaGlobal P (n := n)) := by
  intro a a' c c' ha hc i hi
  obtain ⟨h, hv⟩ := ha i
  have hp := (hc i).position hi
  have hy := (hc i).yaw hi
  have hs := h.shift
  rw [Prod.ext_iff] at hp hs
  simp only at hp hs
  refine ⟨?_, ?_, ?_, ?_⟩ <;> simp only [deltaGlobal, DynamicsModel.ofSingle, deltaGlobalUpdate]
  · rw [hp.1, hp.2, hs.1, hs.2]
    simp only [Motion.point, Motion.vec, Prod.mk.injEq]; constructor <;> ring
  · rw [hs.1, hs.2, ← g.vec_div]
  · rw [h.turn]
    obtain ⟨k, hk⟩ := hy
    exact ⟨k, by rw [hk]; ring⟩
  · rw [(hc i).valid, hv]

/-- Displacements in the vehicle's axes: they stay. -/
theorem C142_deltaLocal (P : DeltaParams) : FrameFree g Eq (deltaLocal P (n := n)) := by
  intro a a' c c' ha hc i hi
  obtain ⟨h, hv⟩ := ha i
  have hp := (hc i).position hi
  have hy := (hc i).yaw hi
  have hcos := hy.cos
  have hsin := hy.sin
  rw [Real.cos_add] at hcos
  rw [Real.sin_add] at hsin
  rw [Prod.ext_iff] at hp
  simp only at hp
  refine ⟨?_, ?_, ?_, ?_⟩ <;>
    simp only [deltaLocal, DynamicsModel.ofSingle, deltaLocalUpdate, deltaGlobalUpdate, rotatePoints, rotationMatrix2d,
      Matrix.cons_val', Matrix.cons_val_zero, Matrix.cons_val_one, Matrix.of_apply, Matrix.cons_val_fin_one]
  · rw [hp.1, hp.2, ← h, hcos, hsin]
    simp only [Motion.point, Motion.vec, Prod.mk.injEq]; constructor <;> ring
  · rw [← h, hcos, hsin]
    simp only [Motion.vec, Prod.mk.injEq]; constructor <;> ring
  · rw [← h]
    obtain ⟨k, hk⟩ := hy
    exact ⟨k, by rw [hk]; ring⟩
  · rw [(hc i).valid, hv]

/-- Speed does not change. -/
theorem PtMoved.speed {g : Motion} {p p' : Pt ℝ} (h : PtMoved g p p') (hv : p.valid = true) :
    √(p'.velX ^ 2 + p'.velY ^ 2) = √(p.velX ^ 2 + p.velY ^ 2) := by
  have hh := h.velocity hv
  rw [Prod.ext_iff] at hh
  simp only at hh
  rw [hh.1, hh.2, g.vec_sq]

/-- Pedal and steering commands: they stay. -/
theorem C142_bicycle (P : BicycleParams) : FrameFree g Eq (bicycle P (n := n)) := by
  intro a a' c c' ha hc i hi
  obtain ⟨h, hv⟩ := ha i
  have hp := (hc i).position hi
  have hvel := (hc i).velocity hi
  have hy := (hc i).yaw hi
  have hspeed := (hc i).speed hi
  have hhead := fun r => g.vec_heading hy r
  rw [Prod.ext_iff] at hp hvel
  simp only at hp hvel
  have hyaw : ∀ d, AnglesAgree (wrapYaws ((c' i).yaw + d)) (wrapYaws ((c i).yaw + d) + g.angle) := by
    intro d
    refine (wrap_agrees _).trans ?_
    refine (hy.add d).trans ?_
    have := ((wrap_agrees ((c i).yaw + d)).symm).add g.angle
    rwa [show (c i).yaw + d + g.angle = (c i).yaw + g.angle + d by ring] at this
  simp only [bicycle, DynamicsModel.ofSingle, bicycleUpdate]
  rw [hspeed, ← h]
  generalize bicyclePhysical P (a i).data = u
  refine ⟨?_, ?_, hyaw _, by simp only [(hc i).valid, hv]⟩
  · simp only
    have e := hhead (0.5 * u.accel)
    rw [Prod.ext_iff] at e
    simp only at e
    rw [hp.1, hp.2, hvel.1, hvel.2, ← e.1, ← e.2]
    simp only [Motion.point, Motion.vec, Prod.mk.injEq]; constructor <;> ring
  · exact (g.vec_heading (hyaw _) _).symm

end

/-! ### Transitions -/

section
variable {n T : Nat} {D : Type} {g : Motion} {s s' : SimState ℝ n T}

/-- `reset`. -/
theorem C142_reset (cfg : EnvConfig) (h : Moved g s s') : Both (Moved g) (reset cfg s) (reset cfg s') := by
  rw [reset_eq, reset_eq]
  split
  · split
    · refine .ok ⟨?_, h.log, h.objects, rfl, h.lights, h.paths, h.roadgraph⟩
      intro i t
      simp only
      split
      · exact h.log i t
      · exact invalid_moved g
    · exact .error
  · exact .error

/-- The new point of one object. -/
theorem updatedPt_moved {u u' : Upd ℝ} {cur cur' ref ref' : Pt ℝ} {inj c : Bool}
    (hu : cur.valid = true → UpdMoved g u u') (hc : PtMoved g cur cur') (hr : PtMoved g ref ref')
    (hent : inj = true → c = true → ref.valid = true → cur.valid = true) :
    PtMoved g (updatedPt false inj c u cur ref) (updatedPt false inj c u' cur' ref') := by
  have hcv : (updatedPt false inj c u cur ref).valid = true → c = true → cur.valid = true := by
    intro h hct
    change nextValid inj c cur.valid ref.valid = true at h
    cases hcur : cur.valid
    · rw [hcur, hct] at h
      cases hi : inj
      · rw [hi] at h; simp [nextValid] at h
      · rw [hi] at h
        have := hent hi hct (by simpa [nextValid] using h)
        rw [hcur] at this; cases this
    · rfl
  have hrv : (updatedPt false inj c u cur ref).valid = true → c = false → ref.valid = true := by
    intro h hct
    change nextValid inj c cur.valid ref.valid = true at h
    rw [hct] at h
    cases inj <;> simp [nextValid] at h
    · exact h.2
    · exact h
  refine ⟨?_, hc.z, hr.time, hc.length, hc.width, hc.height, fun h => ?_, fun h => ?_, fun h => ?_⟩
  · change nextValid inj c cur'.valid ref'.valid = nextValid inj c cur.valid ref.valid
    rw [hc.valid, hr.valid]
  all_goals
    cases hct : c
    · rw [hct] at hrv h
      simp only [updatedPt, newField, Bool.false_eq_true, if_false]
      first
        | exact hr.position (hrv h rfl)
        | exact hr.velocity (hrv h rfl)
        | exact hr.yaw (hrv h rfl)
    · rw [hct] at hcv h
      simp only [updatedPt, newField, Bool.false_eq_true, if_false, if_true]
      first
        | exact (hu (hcv h rfl)).position
        | exact (hu (hcv h rfl)).velocity
        | exact (hu (hcv h rfl)).yaw

variable [NeZero T]

theorem mask_moved {cfg : EnvConfig} (h : Moved g s s') : envControlMask cfg s' = envControlMask cfg s := by
  unfold envControlMask
  rw [h.objects]
  simp only [fun i t => (h.sim i t).valid]

/-- One step, as long as no controlled object enters in this step. -/
theorem C142_step_partial {rel : D → D → Prop} {d : DynamicsModel ℝ D n} (hd : FrameFree g rel d) {cfg : EnvConfig}
    (h : Moved g s s') {a a' : Fin n → Act D} (ha : ActsMoved rel a a')
    (hent : ∀ c, envControlMask cfg s = .ok c → cfg.allowNewObjectsAfterWarmup = true → ∀ i, c i = true →
      (dynIndex (s.logTrajectory i) (s.timestep + 1)).valid = true → (dynIndex (s.simTrajectory i) s.timestep).valid = true) :
    Both (Moved g) (step d cfg s a) (step d cfg s' a') := by
  unfold step
  rw [mask_moved h]
  cases hm : envControlMask cfg s with
  | error e => exact .error
  | ok c =>
    refine .ok ⟨?_, h.log, h.objects, by simp only [h.clock], h.lights, h.paths, h.roadgraph⟩
    intro i t
    simp only
    unfold DynamicsModel.forward applyTrajectoryUpdate
    simp only [h.clock]
    unfold dynUpdateSlice
    split
    · refine updatedPt_moved (fun hv => hd _ _ _ _ ha (fun j => h.sim j _) i hv) (h.sim i _) (h.log i _)
        (fun h1 h2 => hent c hm h1 i h2)
    · exact h.sim i t

/-- Whole episodes of any length in which no controlled object enters after the warm-up. -/
theorem C142_episode_partial {rel : D → D → Prop} {d : DynamicsModel ℝ D n} (hd : FrameFree g rel d) {cfg : EnvConfig}
    (h1 : 1 ≤ cfg.initSteps) {as as' : List (Fin n → Act D)} (ha : List.Forall₂ (ActsMoved rel) as as')
    (hT : cfg.initSteps + as.length ≤ T) (h : Moved g s s') (hno : ∀ s0, reset cfg s = .ok s0 → NoControlledEntry cfg s0) :
    Both (Moved g) (reset cfg s >>= fun s0 => stepMany d cfg s0 as) (reset cfg s' >>= fun s0 => stepMany d cfg s0 as') := by
  -- the invariant: a controlled object the log still holds is present
  have key : ∀ (as as' : List (Fin n → Act D)), List.Forall₂ (ActsMoved rel) as as' → ∀ s s' : SimState ℝ n T, Moved g s s' →
      (cfg.initSteps : Int) ≤ s.timestep + 1 → s.timestep + as.length < T →
      (cfg.allowNewObjectsAfterWarmup = true → ∀ i, IsControlled cfg s i → ∀ t : Fin T, cfg.initSteps ≤ t.val →
        (s.logTrajectory i t).valid = true → (dynIndex (s.simTrajectory i) s.timestep).valid = true) →
      Both (Moved g) (stepMany d cfg s as) (stepMany d cfg s' as') := by
    intro as as' haa
    induction haa with
    | nil => exact fun _ _ h _ _ _ => .ok h
    | @cons a a' as as' ha _ ih =>
      intro s s' h hlo hhi hinv
      rw [List.length_cons] at hhi
      obtain ⟨t, ht⟩ : ∃ t : Fin T, (t : Int) = s.timestep := ⟨⟨s.timestep.toNat, by omega⟩, by simp only; omega⟩
      obtain ⟨t', ht'⟩ : ∃ t : Fin T, (t : Int) = s.timestep + 1 := ⟨⟨(s.timestep + 1).toNat, by omega⟩, by simp only; omega⟩
      have hst := C142_step_partial hd h ha (cfg := cfg) (by
        intro c hm hal i hci hl
        rw [dynIndex_of_eq _ ht'] at hl
        exact hinv hal i ((envControlMask_iff hm h1 (by omega) i).1 hci) t' (by omega) hl)
      unfold stepMany
      cases hx : step d cfg s a with
      | error e =>
        rw [hx] at hst
        rw [(hst.iff.1 e).1 rfl]
        exact .error
      | ok s1 =>
        rw [hx] at hst
        obtain ⟨s1', hs1', hmv⟩ := hst.iff.2.1 s1 rfl
        rw [hs1']
        obtain ⟨c, hm, rfl⟩ := step_ok hx
        refine ih _ s1' hmv (by simp only; omega) (by simp only; omega) ?_
        intro hal i hci u hu hlu
        simp only at hci hlu ⊢
        have hci' : IsControlled cfg s i := by
          refine (isControlled_congr (s := s) (s' := { s with
            simTrajectory := d.forward a s.simTrajectory s.logTrajectory c s.timestep cfg.allowNewObjectsAfterWarmup
            timestep := s.timestep + 1 }) rfl ?_ i).1 hci
          intro j u hu
          simp only
          rw [forward_apply d _ _ _ c _ ht ht', if_neg]
          intro hh
          rw [hh] at hu; omega
        have hcur := hinv hal i hci' u hu hlu
        have hct := (envControlMask_iff hm h1 (by omega) i).2 hci'
        rw [dynIndex_of_eq _ ht'] 
        rw [forward_apply d _ _ _ c _ ht ht', if_pos rfl]
        rw [dynIndex_of_eq _ ht] at hcur
        change nextValid _ (c i) (s.simTrajectory i t).valid _ = true
        rw [hct, hcur]
        simp [nextValid]
  have hr := C142_reset cfg h
  cases hx : reset cfg s with
  | error e =>
    rw [hx] at hr
    rw [(hr.iff.1 e).1 rfl]
    exact .error
  | ok s0 =>
    rw [hx] at hr
    obtain ⟨s0', hs0', h0⟩ := hr.iff.2.1 s0 rfl
    rw [hs0']
    have hn := hno s0 hx
    rw [reset_eq] at hx
    split at hx
    · rw [if_pos (by omega)] at hx
      have he := Except.ok.inj hx
      refine key as as' ha s0 s0' h0 (by rw [← he]; simp only; omega) (by rw [← he]; simp only; omega) ?_
      intro hal i hci t ht hl
      have hpos : 0 < T := by omega
      have h0t := hn hal i hci t ⟨cfg.initSteps - 1, by omega⟩ ht (by simp only; omega) hl
      rw [← he] at h0t ⊢
      simp only at h0t ⊢
      rw [dynIndex_of_eq _ (t := (⟨cfg.initSteps - 1, by omega⟩ : Fin T)) (by simp only; omega)]
      rw [if_pos (by simp only; omega)]
      exact h0t
    · cases hx

/-- Setting the state: also while controlled objects enter. -/
theorem C142_state_step {cfg : EnvConfig} (h : Moved g s s') {a a' : Fin n → Act (StateRow ℝ)} (ha : ActsMoved (StateMoved g) a a') :
    Both (Moved g) (step stateDynamics cfg s a) (step stateDynamics cfg s' a') := by
  unfold step
  rw [mask_moved h]
  cases hm : envControlMask cfg s with
  | error e => exact .error
  | ok c =>
    refine .ok ⟨?_, h.log, h.objects, by simp only [h.clock], h.lights, h.paths, h.roadgraph⟩
    intro i t
    simp only
    unfold DynamicsModel.forward applyTrajectoryUpdate
    simp only [h.clock]
    unfold dynUpdateSlice
    split
    · have hc := h.sim i
      have hr := h.log i
      obtain ⟨hu, -⟩ := ha i
      refine ⟨?_, (hc _).z, (hr _).time, (hc _).length, (hc _).width, (hc _).height, fun hv => ?_, fun hv => ?_, fun hv => ?_⟩
      · change nextValid _ _ _ _ = nextValid _ _ _ _
        exact congrArg₂ (nextValid _ _) (hc _).valid (hr _).valid
      all_goals
        change nextValid _ (c i) _ _ = true at hv
        simp only [updatedPt, newField, Bool.false_eq_true, if_false]
        cases hct : c i
        · have hrv : (dynIndex (s.logTrajectory i) (s.timestep + 1)).valid = true := by
            rw [hct] at hv
            cases hal : cfg.allowNewObjectsAfterWarmup
            · rw [hal] at hv
              simp only [nextValid, Bool.false_eq_true, if_false, false_and, Bool.and_eq_true] at hv
              exact hv.2
            · rw [hal] at hv
              simpa [nextValid] using hv
          simp only [Bool.false_eq_true, if_false]
          first
            | exact (hr _).position hrv
            | exact (hr _).velocity hrv
            | exact (hr _).yaw hrv
        · simp only [if_true]
          first
            | exact hu.position
            | exact hu.velocity
            | exact hu.yaw
    · exact h.sim i t

/-- Setting the state: whole episodes of any length, also while controlled objects enter. -/
theorem C142_state_episode {cfg : EnvConfig} {as as' : List (Fin n → Act (StateRow ℝ))}
    (ha : List.Forall₂ (ActsMoved (StateMoved g)) as as') (h : Moved g s s') :
    Both (Moved g) (reset cfg s >>= fun s0 => stepMany stateDynamics cfg s0 as)
      (reset cfg s' >>= fun s0 => stepMany stateDynamics cfg s0 as') :=
  (C142_reset cfg h).bind fun s0 s0' h0 => by
    clear h
    induction ha generalizing s0 s0' with
    | nil => exact .ok h0
    | @cons a a' as as' ha _ ih =>
      unfold stepMany
      exact (C142_state_step h0 ha).bind ih

end

/-! ### A controlled object that enters -/

/-- C142, full expectation: for dynamics that do not care about the frame, no episode does. -/
def FrameHasNoInfluence (n T : Nat) [NeZero T] : Prop :=
  ∀ (g : Motion) (P : DeltaParams) (cfg : EnvConfig) (s s' : SimState ℝ n T) (as as' : List (Fin n → Act Delta3)),
    1 ≤ cfg.initSteps → cfg.initSteps + as.length ≤ T → Moved g s s' → List.Forall₂ (ActsMoved (DeltaMoved g)) as as' →
    Both (Moved g) (reset cfg s >>= fun s0 => stepMany (deltaGlobal P) cfg s0 as)
      (reset cfg s' >>= fun s0 => stepMany (deltaGlobal P) cfg s0 as')

/-- One object that the log holds from step 1 on, at `(x, 0)`. -/
noncomputable def entrantScen (x : ℝ) : SimState ℝ 1 2 :=
  { simTrajectory := fun _ _ => invalidPt, logTrajectory := fun _ t => if t = 0 then invalidPt else ptAt x 0 0 0 0
    logTrafficLight := [], objectMetadata := soloMeta, timestep := 0, sdcPaths := none, roadgraphPoints := none }

def entrantCfg : EnvConfig :=
  { maxNumObjects := 1, initSteps := 1, controlledObject := .SDC, allowNewObjectsAfterWarmup := true }

/-- A shift by 10. -/
def shift10 : Motion := ⟨0, 10, 0⟩

theorem enter_moved : Moved shift10 (entrantScen 0) (entrantScen 10) := by
  refine ⟨fun i t => invalid_moved _, fun i t => ?_, rfl, rfl, rfl, rfl, rfl⟩
  simp only [entrantScen]
  split
  · exact invalid_moved _
  · refine ⟨rfl, rfl, rfl, rfl, rfl, rfl, fun _ => ?_, fun _ => ?_, fun _ => ?_⟩
    · simp [ptAt, Motion.point, Motion.vec, shift10]
    · simp [ptAt, Motion.vec, shift10]
    · simp only [ptAt, shift10, add_zero]; exact AnglesAgree.refl _

theorem enter_run (x : ℝ) (a : Fin 1 → Act Delta3) : ∃ s1 : SimState ℝ 1 2,
    (reset entrantCfg (entrantScen x) >>= fun s0 => stepMany (deltaGlobal {}) entrantCfg s0 [a]) = .ok s1 ∧
    (s1.simTrajectory 0 1).valid = true ∧ (s1.simTrajectory 0 1).x = -1 + (a 0).data.dx := by
  have hr := reset_eq entrantCfg (entrantScen x)
  rw [if_pos (by decide), if_pos (by decide)] at hr
  rw [hr]
  obtain ⟨s1, h1⟩ := step_exists (deltaGlobal {}) entrantCfg
    { entrantScen x with
      timestep := (entrantCfg.initSteps : Int) - 1
      simTrajectory := fun i t => if t.val < entrantCfg.initSteps then (entrantScen x).logTrajectory i t else invalidPt } a (by decide)
  refine ⟨s1, ?_, ?_⟩
  · change stepMany (deltaGlobal {}) entrantCfg _ [a] = _
    unfold stepMany
    rw [h1]; rfl
  · obtain ⟨c, hm, rfl⟩ := step_ok h1
    have hc : c 0 = true := by
      refine (envControlMask_iff hm (by decide) (by decide) 0).2 ?_
      change (soloMeta (n := 1) 0).isSdc = true
      rfl
    simp only
    have hf := forward_apply (deltaGlobal {}) a
      (fun i t => if t.val < entrantCfg.initSteps then (entrantScen x).logTrajectory i t else invalidPt) (entrantScen x).logTrajectory c
      entrantCfg.allowNewObjectsAfterWarmup (t := (0 : Fin 2)) (t' := (1 : Fin 2)) (k := (entrantCfg.initSteps : Int) - 1)
      (by decide) (by decide) 0 1
    rw [if_pos rfl] at hf
    rw [hf]
    constructor
    · simp only [updatedPt, hc]
      simp [nextValid, entrantCfg, entrantScen, ptAt, invalidPt]
    · simp only [updatedPt, newField, hc, Bool.false_eq_true, if_false, if_true, deltaGlobal, DynamicsModel.ofSingle, deltaGlobalUpdate]
      simp [entrantCfg, entrantScen, invalidPt, ScalarOps.invalid]

/-- C142: it does matter for a controlled object that enters: the displacement is applied to the placeholder `-1`, which is the
same point of every frame. Here the whole scenario is shifted by 10 and the object appears at `(-1, -1)` in both. -/
theorem C142_violated : ¬ FrameHasNoInfluence 1 2 := by
  intro h
  let a : Fin 1 → Act Delta3 := fun _ => ⟨⟨0, 0, 0⟩, true⟩
  have ha : ActsMoved (DeltaMoved shift10) a a := fun i => ⟨⟨by simp [a, Motion.vec], rfl⟩, rfl⟩
  have hb := h shift10 {} entrantCfg _ _ [a] [a] (by decide) (by decide) enter_moved (.cons ha .nil)
  obtain ⟨s1, h1, v1, x1⟩ := enter_run 0 a
  obtain ⟨s2, h2, v2, x2⟩ := enter_run 10 a
  rw [h1, h2] at hb
  cases hb with
  | ok hm =>
    have hp := congrArg Prod.fst ((hm.sim 0 1).position v1)
    simp only at hp
    rw [x1, x2] at hp
    simp [a, Motion.point, Motion.vec, shift10, x1] at hp

/-! ### Examples -/

/-- A quarter turn and a shift. -/
noncomputable def quarterTurn : Motion := ⟨π / 2, 3, 4⟩

/-- The drive of `driveScen`, along the second axis instead of the first. -/
noncomputable def turnedScen : SimState ℝ 1 4 :=
  { driveScen with simTrajectory := fun _ _ => ptAt 3 4 (π / 2) 0 0, logTrajectory := fun _ t => ptAt 3 (4 + t) (3 * t + π / 2) 0 10 }

theorem turned_moved : Moved quarterTurn driveScen turnedScen := by
  refine ⟨fun i t => ?_, fun i t => ?_, rfl, rfl, rfl, rfl, rfl⟩
  all_goals
    refine ⟨rfl, rfl, rfl, rfl, rfl, rfl, fun _ => ?_, fun _ => ?_, fun _ => ?_⟩
    · simp [driveScen, turnedScen, quarterTurn, ptAt, Motion.point, Motion.vec, add_comm]
    · simp [driveScen, turnedScen, quarterTurn, ptAt, Motion.vec]
    · simp only [driveScen, turnedScen, quarterTurn, ptAt]
      exact ⟨0, by simp⟩

/-- Three steps with the bicycle model, the same pedal and steering commands in both frames: both episodes run and end in states
that only differ by the turn and shift. -/
example (a : Fin 1 → Act AccelSteer) : ∃ s1 s1', Episode (bicycle {}) driveCfg driveScen
      { driveScen with timestep := 0, simTrajectory := fun i t => if t.val < 1 then driveScen.logTrajectory i t else invalidPt } [a, a, a] s1 ∧
    (reset driveCfg turnedScen >>= fun s0 => stepMany (bicycle {}) driveCfg s0 [a, a, a]) = .ok s1' ∧ Moved quarterTurn s1 s1' := by
  have hr : reset driveCfg driveScen = .ok { driveScen with
      timestep := 0, simTrajectory := fun i t => if t.val < 1 then driveScen.logTrajectory i t else invalidPt } := by
    rw [reset_eq, if_pos (by decide), if_pos (by decide)]; rfl
  have haa : ActsMoved Eq a a := fun i => ⟨rfl, rfl⟩
  have hb := C142_episode_partial (C142_bicycle quarterTurn {}) (cfg := driveCfg) (by decide) (as := [a, a, a]) (as' := [a, a, a])
    (.cons haa (.cons haa (.cons haa .nil))) (le_refl 4) turned_moved (fun _ _ h => by cases h)
  obtain ⟨s0, s1, E⟩ := episode_exists (bicycle {}) driveCfg driveScen [a, a, a] (by decide) (by decide) (le_refl 4) (by decide)
  have h0 := E.start
  rw [hr] at h0
  cases h0
  have hx : (reset driveCfg driveScen >>= fun s0 => stepMany (bicycle {}) driveCfg s0 [a, a, a]) = .ok s1 := by
    rw [hr]; exact E.run
  rw [hx] at hb
  obtain ⟨s1', h1', hm⟩ := hb.iff.2.1 s1 rfl
  exact ⟨s1, s1', E, h1', hm⟩

end Waymax
