import Verif.Props.Episode
/-
C09, C11, C12, C16: expectations that the code does not meet. For each: the full expectation as a definition, its negation for
a concrete run of the model, the exact behaviour, and the part that does hold (suffix `_partial`).
-/

namespace Waymax

section
variable {α D : Type} [ScalarOps α] {n T : Nat} [NeZero T]

/-! ### C09: an object that appears starts at its logged pose -/

/-- The expectation: along every episode, an object that becomes valid at the current step (it was not valid one step
before) has its logged pose at that step. -/
def AppearsAtLoggedPose (T : Nat) [NeZero T] (d : DynamicsModel α D n) (cfg : EnvConfig) : Prop :=
  ∀ (scen s0 s1 : SimState α n T) (acts : List (Fin n → Act D)), Episode d cfg scen s0 acts s1 →
    ∀ (i : Fin n) (t t' : Fin T), t.val + 1 = t'.val → (t' : Int) = s1.timestep → cfg.initSteps ≤ t'.val →
      (s1.simTrajectory i t).valid = false → (s1.simTrajectory i t').valid = true →
      (s1.simTrajectory i t').x = (scen.logTrajectory i t').x ∧
      (s1.simTrajectory i t').y = (scen.logTrajectory i t').y ∧
      (s1.simTrajectory i t').yaw = (scen.logTrajectory i t').yaw

/-- It holds for objects that are not controlled. Missing: controlled objects, see `C09_violated`. -/
theorem C09_appears_at_logged_pose_partial {d : DynamicsModel α D n} {cfg : EnvConfig}
    {scen s0 s1 : SimState α n T} {acts : List (Fin n → Act D)} (E : Episode d cfg scen s0 acts s1)
    (i : Fin n) (hi : ¬ IsControlled cfg s0 i) {t' : Fin T} (ht' : (t' : Int) ≤ s1.timestep)
    (hw : cfg.initSteps ≤ t'.val) :
    (s1.simTrajectory i t').x = (scen.logTrajectory i t').x ∧
    (s1.simTrajectory i t').y = (scen.logTrajectory i t').y ∧
    (s1.simTrajectory i t').yaw = (scen.logTrajectory i t').yaw := by
  have hts := E.timestep_eq
  have hw1 := E.warm
  have hf := E.fits
  obtain ⟨c, hc, hrec⟩ := E.recurrence (k := t'.val - cfg.initSteps) (by omega) (t := ⟨t'.val - 1, by omega⟩) (t' := t')
    (by simp only; omega) (by omega) i
  have hcf : c = false := by
    cases hcc : c with
    | false => rfl
    | true => exact absurd (hc.1 hcc) hi
  rw [hrec, hcf]
  simp [updatedPt, newField]

/-- Two scenario objects are controlled; object 1 is logged from step 2 on only. -/
def exCfgModeled : EnvConfig := { exCfg with controlledObject := .MODELED }

/-- A controlled object that appears is placed wherever the dynamics put it: here at x = 101 instead of the logged 12. -/
theorem C09_violated :
    ¬ AppearsAtLoggedPose 4 (stateDynamics (α := Int) (n := 2)) exCfgModeled := by
  intro h
  have E : Episode (stateDynamics (α := Int) (n := 2)) exCfgModeled exScen _ [exAct true, exAct true] _ :=
    ⟨rfl, rfl, by decide, by decide⟩
  have := (h _ _ _ _ E 1 1 2 rfl rfl (by decide) rfl rfl).1
  revert this
  decide

/-! ### C11: actions marked invalid fall back -/

/-- The expectation stated in the documentation of `step`: the data of an action whose `valid` is False is not used. -/
def InvalidActionsFallBack (T : Nat) [NeZero T] (d : DynamicsModel α D n) (cfg : EnvConfig) : Prop :=
  ∀ (s : SimState α n T) (a a' : Fin n → Act D), (∀ i, (a i).valid = (a' i).valid) →
    (∀ i, (a i).valid = true → a i = a' i) → step d cfg s a = step d cfg s a'

/-- Exact behaviour: if the numbers computed by the dynamics do not depend on the validity bits (true of every built-in
model), the next state does not depend on them at all. -/
theorem C11_validity_is_ignored (d : DynamicsModel α D n) (cfg : EnvConfig) (s : SimState α n T)
    (a a' : Fin n → Act D) (hdata : ∀ i, (a i).data = (a' i).data)
    (hd : ∀ (b b' : Fin n → Act D) (cur : Fin n → Pt α) (i : Fin n), (∀ j, (b j).data = (b' j).data) →
      (d.computeUpdate b cur i).x = (d.computeUpdate b' cur i).x ∧
      (d.computeUpdate b cur i).y = (d.computeUpdate b' cur i).y ∧
      (d.computeUpdate b cur i).yaw = (d.computeUpdate b' cur i).yaw ∧
      (d.computeUpdate b cur i).velX = (d.computeUpdate b' cur i).velX ∧
      (d.computeUpdate b cur i).velY = (d.computeUpdate b' cur i).velY) :
    step d cfg s a = step d cfg s a' := by
  unfold step
  cases envControlMask cfg s with
  | error e => rfl
  | ok m =>
    have : d.forward a s.simTrajectory s.logTrajectory m s.timestep cfg.allowNewObjectsAfterWarmup =
        d.forward a' s.simTrajectory s.logTrajectory m s.timestep cfg.allowNewObjectsAfterWarmup := by
      funext i
      unfold DynamicsModel.forward applyTrajectoryUpdate
      simp only
      obtain ⟨h1, h2, h3, h4, h5⟩ := hd a a' (fun i => dynIndex (s.simTrajectory i) s.timestep) i hdata
      have : ∀ (c : Bool) (cur ref : Pt α),
          updatedPt false cfg.allowNewObjectsAfterWarmup c
            (d.computeUpdate a (fun i => dynIndex (s.simTrajectory i) s.timestep) i) cur ref =
          updatedPt false cfg.allowNewObjectsAfterWarmup c
            (d.computeUpdate a' (fun i => dynIndex (s.simTrajectory i) s.timestep) i) cur ref := by
        intro c cur ref
        simp [updatedPt, newField, h1, h2, h3, h4, h5]
      simp only [this]
    simp only [bind, Except.bind, this]

/-- The state dynamics meets the hypothesis of `C11_validity_is_ignored`. -/
example (b b' : Fin n → Act (StateRow α)) (cur : Fin n → Pt α) (i : Fin n) (h : ∀ j, (b j).data = (b' j).data) :
    stateDynamics.computeUpdate b cur i =
      { stateDynamics.computeUpdate b' cur i with valid := (b i).valid } := by
  simp [stateDynamics, stateUpdate, h i]

/-- The documented fallback does not happen: an invalid action moves the SDC of the example scenario. -/
theorem C11_violated :
    ¬ InvalidActionsFallBack 4 (stateDynamics (α := Int) (n := 2)) exCfg := by
  intro h
  have := h { exScen with timestep := 0 } (exAct false)
    (fun i => { data := { x := 0, y := 0, yaw := 0, velX := 0, velY := 0 }, valid := false })
    (fun _ => rfl) (fun _ h => by simp [exAct] at h)
  have h2 := congrArg (fun e => match e with
    | Except.ok s => (s.simTrajectory 0 1).x
    | Except.error _ => 0) this
  revert h2
  decide

/-- What holds: `apply_trajectory_update_to_state(use_fallback=True)`, which no environment uses, gives a controlled object
with an invalid update the constant-velocity pose, at the next step inside the horizon. Missing: `forward`, hence `step`,
never passes `use_fallback=True`. -/
theorem C11_fallback_partial (upd : Fin n → Upd α) (sim ref : Traj α n T) (m : Fin n → Bool) (k : Int) (inj : Bool)
    {t t' : Fin T} (ht : (t : Int) = k) (ht' : (t' : Int) = k + 1) (i : Fin n)
    (hc : m i = true) (hinv : (upd i).valid = false) :
    let p := applyTrajectoryUpdate upd sim ref m k inj true i t'
    let c := sim i t
    p.x = ScalarOps.add c.x (ScalarOps.mul c.velX ScalarOps.dt) ∧
    p.y = ScalarOps.add c.y (ScalarOps.mul c.velY ScalarOps.dt) ∧
    p.yaw = ScalarOps.arctan2 c.velY c.velX ∧ p.velX = c.velX ∧ p.velY = c.velY := by
  simp only
  unfold applyTrajectoryUpdate
  simp only [dynIndex_of_eq _ ht, dynIndex_of_eq _ ht']
  rw [dynUpdateSlice_one _ _ ht' t', if_pos rfl]
  simp [dynSlice, updatedPt, newField, fallbackPt, hc, hinv]

/-- What holds for `step`: the actions of objects that are not controlled are not used, provided the dynamics treats objects
separately. -/
theorem C11_uncontrolled_actions_unused_partial (d : DynamicsModel α D n) (cfg : EnvConfig) (s : SimState α n T)
    (hw : 1 ≤ cfg.initSteps) (hT : cfg.initSteps ≤ T)
    (hd : ∀ (b b' : Fin n → Act D) (cur : Fin n → Pt α) (i : Fin n), b i = b' i →
      d.computeUpdate b cur i = d.computeUpdate b' cur i)
    (a a' : Fin n → Act D) (ha : ∀ i, IsControlled cfg s i → a i = a' i) :
    step d cfg s a = step d cfg s a' := by
  unfold step
  cases hm : envControlMask cfg s with
  | error e => rfl
  | ok m =>
    have : d.forward a s.simTrajectory s.logTrajectory m s.timestep cfg.allowNewObjectsAfterWarmup =
        d.forward a' s.simTrajectory s.logTrajectory m s.timestep cfg.allowNewObjectsAfterWarmup := by
      funext i
      unfold DynamicsModel.forward applyTrajectoryUpdate
      simp only
      cases hmi : m i with
      | true =>
        rw [hd a a' _ i (ha i ((envControlMask_iff hm hw hT i).1 hmi))]
      | false => simp [updatedPt, newField]
    simp only [bind, Except.bind, this]

/-! ### C12: uncontrolled objects replay every logged field -/

/-- The expectation: with injection, an uncontrolled object that is present equals its log in every field. -/
def UncontrolledEqualsLog (T : Nat) [NeZero T] (d : DynamicsModel α D n) (cfg : EnvConfig) : Prop :=
  ∀ (scen s0 s1 : SimState α n T) (acts : List (Fin n → Act D)), Episode d cfg scen s0 acts s1 →
    ∀ (i : Fin n) (t : Fin T), ¬ IsControlled cfg s0 i → (t : Int) ≤ s1.timestep →
      (s1.simTrajectory i t).valid = true → s1.simTrajectory i t = scen.logTrajectory i t

/-- Exact behaviour: z, length, width and height are never updated; at every simulated step, for controlled and uncontrolled
objects alike, they are the logged values of the last warm-up step. -/
theorem C12_z_and_size_frozen {d : DynamicsModel α D n} {cfg : EnvConfig} {scen s0 s1 : SimState α n T}
    {acts : List (Fin n → Act D)} (E : Episode d cfg scen s0 acts s1) (i : Fin n)
    {t0 t : Fin T} (ht0 : t0.val + 1 = cfg.initSteps) (hle : t0 ≤ t) (ht : (t : Int) ≤ s1.timestep) :
    (s1.simTrajectory i t).z = (scen.logTrajectory i t0).z ∧
    (s1.simTrajectory i t).length = (scen.logTrajectory i t0).length ∧
    (s1.simTrajectory i t).width = (scen.logTrajectory i t0).width ∧
    (s1.simTrajectory i t).height = (scen.logTrajectory i t0).height := by
  have hts := E.timestep_eq
  have hw := E.warm
  have hf := E.fits
  have hbase : s1.simTrajectory i t0 = scen.logTrajectory i t0 := by
    rw [stepMany_frame E.run (by rw [E.reset_data]; simp only; omega)
      (by rw [E.reset_data]; simp only; omega) i t0 (Or.inl (by rw [E.reset_data]; simp only; omega))]
    exact (C01_reset_spec E.start).2.1 i t0 (by omega)
  obtain ⟨k, hk⟩ : ∃ k, t.val = t0.val + k := ⟨t.val - t0.val, by have : t0.val ≤ t.val := hle; omega⟩
  induction k generalizing t with
  | zero =>
    have : t = t0 := Fin.ext (by omega)
    subst this
    rw [hbase]; exact ⟨rfl, rfl, rfl, rfl⟩
  | succ k ih =>
    have hlt : t0.val + k < T := by omega
    have ihk := ih (t := ⟨t0.val + k, hlt⟩) (by simp [Fin.le_def]) (by simp only; omega) rfl
    obtain ⟨c, hc, hrec⟩ := E.recurrence (k := k) (by omega) (t := ⟨t0.val + k, hlt⟩) (t' := t)
      (by simp only; omega) (by omega) i
    rw [hrec]
    exact ihk

/-- The log of the example changes its z coordinate, the simulation does not follow. -/
theorem C12_violated : ¬ UncontrolledEqualsLog 4 (stateDynamics (α := Int) (n := 2)) exCfg := by
  intro h
  have E : Episode (stateDynamics (α := Int) (n := 2)) exCfg exScen _ [exAct true, exAct true] _ :=
    ⟨rfl, rfl, by decide, by decide⟩
  have := h _ _ _ _ E 1 2 (by simp [IsControlled, exCfg, exScen, exMeta]) (by decide) rfl
  have := congrArg Pt.z this
  revert this
  decide

/-- What holds: with injection, the complete record of an uncontrolled object equals the log whenever the log keeps the
object's z and box size at their values of the last warm-up step. Missing: logs with varying z or size
(`C12_z_and_size_frozen`). -/
theorem C12_full_replay_partial {d : DynamicsModel α D n} {cfg : EnvConfig} {scen s0 s1 : SimState α n T}
    {acts : List (Fin n → Act D)} (E : Episode d cfg scen s0 acts s1)
    (hinj : cfg.allowNewObjectsAfterWarmup = true) (i : Fin n) (hi : ¬ IsControlled cfg s0 i)
    {t0 t : Fin T} (ht0 : t0.val + 1 = cfg.initSteps) (ht : (t : Int) ≤ s1.timestep)
    (hz : (scen.logTrajectory i t).z = (scen.logTrajectory i t0).z)
    (hl : (scen.logTrajectory i t).length = (scen.logTrajectory i t0).length)
    (hwd : (scen.logTrajectory i t).width = (scen.logTrajectory i t0).width)
    (hh : (scen.logTrajectory i t).height = (scen.logTrajectory i t0).height) :
    s1.simTrajectory i t = scen.logTrajectory i t := by
  have hts := E.timestep_eq
  have hw := E.warm
  have hf := E.fits
  by_cases htt : t.val < cfg.initSteps
  · rw [stepMany_frame E.run (by rw [E.reset_data]; simp only; omega)
      (by rw [E.reset_data]; simp only; omega) i t (Or.inl (by rw [E.reset_data]; simp only; omega))]
    exact (C01_reset_spec E.start).2.1 i t htt
  · have hfz := C12_z_and_size_frozen E i ht0 (t := t) (by simp only [Fin.le_def]; omega) ht
    obtain ⟨c, hc, hrec⟩ := E.recurrence (k := t.val - cfg.initSteps) (by omega) (t := ⟨t.val - 1, by omega⟩) (t' := t)
      (by simp only; omega) (by omega) i
    have hcf : c = false := by
      cases hcc : c with
      | false => rfl
      | true => exact absurd (hc.1 hcc) hi
    subst hcf
    rw [hinj] at hrec
    rw [← hz, ← hl, ← hwd, ← hh] at hfz
    obtain ⟨f1, f2, f3, f4⟩ := hfz
    rw [hrec] at f1 f2 f3 f4 ⊢
    revert f1 f2 f3 f4
    cases scen.logTrajectory i t
    simp only [updatedPt, newField, nextValid]
    intro f1 f2 f3 f4
    simp [f1, f2, f3, f4]

/-! ### C16: stepping past the end -/

/-- The expectation: stepping a finished episode leaves the recorded trajectory alone. -/
def StepWhenDoneKeepsTrajectory (T : Nat) [NeZero T] (d : DynamicsModel α D n) (cfg : EnvConfig) : Prop :=
  ∀ (s s' : SimState α n T) (a : Fin n → Act D), s.isDone = true → step d cfg s a = .ok s' →
    s'.simTrajectory = s.simTrajectory

omit [ScalarOps α] in
theorem dynIndex_past_end {β : Type} (x : Fin T → β) {i : Int} (h : (T : Int) - 1 ≤ i) (last : Fin T)
    (hl : last.val + 1 = T) : dynIndex x i = x last := by
  unfold dynIndex dynSlice
  congr 1
  apply Fin.ext
  simp only [startIdx]
  split <;> simp <;> omega

/-- Exact behaviour: a step of a finished episode rewrites the last recorded step (and only that one) with the update computed
from that very step, for controlled objects, and with the last logged step for the others; the clock still advances. -/
theorem C16_step_past_end_partial {d : DynamicsModel α D n} {cfg : EnvConfig} {s s' : SimState α n T}
    {a : Fin n → Act D} (hdone : s.isDone = true) (h : step d cfg s a = .ok s')
    (hw : 1 ≤ cfg.initSteps) (hT : cfg.initSteps ≤ T) {last : Fin T} (hl : last.val + 1 = T) (i : Fin n) :
    s'.timestep = s.timestep + 1 ∧
    (∀ t : Fin T, t ≠ last → s'.simTrajectory i t = s.simTrajectory i t) ∧
    (IsControlled cfg s i →
      (s'.simTrajectory i last).x = (d.computeUpdate a (fun j => s.simTrajectory j last) i).x ∧
      (s'.simTrajectory i last).y = (d.computeUpdate a (fun j => s.simTrajectory j last) i).y) ∧
    (¬ IsControlled cfg s i →
      (s'.simTrajectory i last).x = (s.logTrajectory i last).x ∧
      (s'.simTrajectory i last).y = (s.logTrajectory i last).y) := by
  have hd : (T : Int) ≤ s.timestep + 1 := by simpa [SimState.isDone] using hdone
  obtain ⟨m, hm, rfl⟩ := step_ok h
  have hc := envControlMask_iff hm hw hT i
  have hfw : ∀ u : Fin T, d.forward a s.simTrajectory s.logTrajectory m s.timestep cfg.allowNewObjectsAfterWarmup i u =
      if u = last then updatedPt false cfg.allowNewObjectsAfterWarmup (m i)
        (d.computeUpdate a (fun j => s.simTrajectory j last) i) (s.simTrajectory i last) (s.logTrajectory i last)
      else s.simTrajectory i u := by
    intro u
    unfold DynamicsModel.forward applyTrajectoryUpdate
    simp only [dynIndex_past_end _ (show (T : Int) - 1 ≤ s.timestep by omega) last hl,
      dynIndex_past_end _ (show (T : Int) - 1 ≤ s.timestep + 1 by omega) last hl]
    unfold dynUpdateSlice
    have hs : startIdx T 1 (s.timestep + 1) = last.val := by
      unfold startIdx; simp only; split <;> omega
    simp only [hs]
    by_cases hu : u = last
    · subst hu; rw [dif_pos (by omega), if_pos rfl]; rfl
    · have : u.val ≠ last.val := fun hh => hu (Fin.ext hh)
      rw [dif_neg (by omega), if_neg hu]
  simp only [hfw]
  refine ⟨trivial, ?_, ?_, ?_⟩
  · intro t ht; simp [ht]
  · intro hi; simp [updatedPt, newField, hc.2 hi]
  · intro hi
    have : m i = false := by
      cases hmi : m i with
      | false => rfl
      | true => exact absurd (hc.1 hmi) hi
    simp [updatedPt, newField, this]

/-- The last recorded step of a finished episode is overwritten. -/
theorem C16_violated : ¬ StepWhenDoneKeepsTrajectory 4 (stateDynamics (α := Int) (n := 2)) exCfg := by
  intro h
  have := h exScen _ (exAct true) (by decide) rfl
  have := congrArg (fun tr => (tr 0 3).x) this
  revert this
  decide

end

end Waymax
