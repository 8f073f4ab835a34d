import Verif.Examples
/-
C01 - C12, C16: reset, step and episodes of `BaseEnvironment`.

All theorems hold for an arbitrary scalar type and an arbitrary dynamics model unless stated otherwise.
-/

namespace Waymax

section
variable {α D : Type} [ScalarOps α] {n T : Nat}

/-! ### C01: reset starts from the log alone -/

/-- Every entry of the state returned by `reset`. -/
theorem C01_reset_spec {cfg : EnvConfig} {s s' : SimState α n T} (h : reset cfg s = .ok s') :
    s'.timestep = (cfg.initSteps : Int) - 1 ∧
    (∀ i t, t.val < cfg.initSteps → s'.simTrajectory i t = s.logTrajectory i t) ∧
    (∀ i t, cfg.initSteps ≤ t.val → IsPlaceholder (s'.simTrajectory i t)) ∧
    SameScenario s s' := by
  rw [reset_eq] at h
  split at h
  · split at h
    · have h := (Except.ok.inj h).symm
      subst h
      refine ⟨rfl, ?_, ?_, ⟨rfl, rfl, rfl, rfl, rfl⟩⟩
      · intro i t ht; simp [ht]
      · intro i t ht
        have : ¬ t.val < cfg.initSteps := by omega
        simp [this, IsPlaceholder, invalidPt]
    · cases h
  · cases h

/-- `reset` does not look at the simulated trajectory or the time step of its input. -/
theorem C01_reset_forgets_simulation (cfg : EnvConfig) {s₁ s₂ : SimState α n T} (h : SameScenario s₁ s₂) :
    reset cfg s₁ = reset cfg s₂ := by
  obtain ⟨sim₁, log₁, tl₁, m₁, t₁, p₁, r₁⟩ := s₁
  obtain ⟨sim₂, log₂, tl₂, m₂, t₂, p₂, r₂⟩ := s₂
  obtain ⟨h1, h2, h3, h4, h5⟩ := h
  simp only at h1 h2 h3 h4 h5
  subst h1 h2 h3 h4 h5
  rw [reset_eq, reset_eq]

/-- Resetting a freshly reset state changes nothing. -/
theorem C01_reset_idempotent {cfg : EnvConfig} {s s' : SimState α n T} (h : reset cfg s = .ok s') :
    reset cfg s' = .ok s' := by
  rw [← C01_reset_forgets_simulation cfg (C01_reset_spec h).2.2.2, h]

/-- Resetting in the middle of (or after) any run gives the start state again. -/
theorem C01_reset_restarts_episode [NeZero T] {d : DynamicsModel α D n} {cfg : EnvConfig}
    {s s0 s1 : SimState α n T} {acts : List (Fin n → Act D)}
    (h : reset cfg s = .ok s0) (hr : stepMany d cfg s0 acts = .ok s1) : reset cfg s1 = .ok s0 := by
  rw [← C01_reset_forgets_simulation cfg (stepMany_same hr), C01_reset_idempotent h]

example : ∃ s', reset exCfg exScen = .ok s' := ⟨_, rfl⟩

/-! ### C02: when reset fails -/

/-- `reset` succeeds exactly on scenarios of the configured object count with at least `init_steps` logged steps. -/
theorem C02_reset_ok_iff (cfg : EnvConfig) (s : SimState α n T) :
    (∃ s', reset cfg s = .ok s') ↔ cfg.maxNumObjects = n ∧ cfg.initSteps ≤ T := by
  rw [reset_eq]
  constructor
  · rintro ⟨s', h⟩
    split at h
    · split at h
      · exact ⟨by assumption, by assumption⟩
      · cases h
    · cases h
  · rintro ⟨h1, h2⟩
    rw [if_pos h1, if_pos h2]
    exact ⟨_, rfl⟩

/-- Which error: a wrong object count fails the assertion, otherwise too many warm-up steps are a shape error. -/
theorem C02_reset_error (cfg : EnvConfig) (s : SimState α n T) :
    (cfg.maxNumObjects ≠ n → reset cfg s = .error .assertion) ∧
    (cfg.maxNumObjects = n → T < cfg.initSteps → reset cfg s = .error .typeError) := by
  rw [reset_eq]
  constructor
  · intro h; rw [if_neg h]
  · intro h h2; rw [if_pos h, if_neg (by omega)]

example : reset { exCfg with initSteps := 5 } exScen = .error .typeError := rfl
example : reset { exCfg with maxNumObjects := 3 } exScen = .error .assertion := rfl

variable [NeZero T]

/-! ### C03: simulated history is never rewritten -/

/-- One step inside the horizon changes the simulated trajectory only at `timestep + 1`. -/
theorem C03_step_writes_only_next {d : DynamicsModel α D n} {cfg : EnvConfig} {s s' : SimState α n T}
    {a : Fin n → Act D} (h : step d cfg s a = .ok s') (h0 : 0 ≤ s.timestep) (hnd : s.isDone = false)
    (i : Fin n) (t : Fin T) (ht : (t : Int) ≠ s.timestep + 1) :
    s'.simTrajectory i t = s.simTrajectory i t := by
  have hd : s.timestep + 1 < T := by simpa [SimState.isDone] using hnd
  have hr : stepMany d cfg s [a] = .ok s' := by unfold stepMany; rw [h]; rfl
  have := stepMany_frame hr h0 (by simpa using hd) i t
  simp only [List.length_cons, List.length_nil] at this
  exact this (by omega)

/-- After any further actions, everything recorded up to an earlier time step is unchanged, and everything after the
current time step is still the placeholder. -/
theorem C03_history_immutable {d : DynamicsModel α D n} {cfg : EnvConfig} {scen s0 sm s1 : SimState α n T}
    {as bs : List (Fin n → Act D)} (E : Episode d cfg scen s0 (as ++ bs) s1)
    (hm : stepMany d cfg s0 as = .ok sm) :
    (∀ i (t : Fin T), (t : Int) ≤ sm.timestep → s1.simTrajectory i t = sm.simTrajectory i t) ∧
    (∀ i (t : Fin T), s1.timestep < (t : Int) → IsPlaceholder (s1.simTrajectory i t)) := by
  have hw := E.warm
  have hf := E.fits
  have h1 := E.timestep_eq
  have hd := E.reset_data
  obtain ⟨sm', Em, hb⟩ := E.prefix
  have : sm' = sm := by have := Em.run; rw [hm] at this; exact (Except.ok.inj this).symm
  subst this
  have ht := Em.timestep_eq
  simp only [List.length_append] at hf h1
  constructor
  · intro i t htt
    exact stepMany_frame hb (by omega) (by omega) i t (Or.inl htt)
  · intro i t htt
    rw [stepMany_frame E.run (by rw [hd]; simp only; omega) (by rw [hd]; simp only [List.length_append]; omega) i t
      (Or.inr (by rw [hd]; simp only [List.length_append]; omega))]
    exact (C01_reset_spec E.start).2.2.1 i t (by omega)

example : ∃ s0 s1 sm, Episode stateDynamics exCfg exScen s0 ([exAct true] ++ [exAct false, exAct true]) s1 ∧
    stepMany stateDynamics exCfg s0 [exAct true] = .ok sm := by
  obtain ⟨s0, s1, E⟩ := exEpisode exCfg rfl rfl (by decide)
  have E' : Episode stateDynamics exCfg exScen s0 ([exAct true] ++ [exAct false, exAct true]) s1 := E
  obtain ⟨sm, Em, -⟩ := E'.prefix
  exact ⟨s0, s1, sm, E', Em.run⟩

/-! ### C04: log, metadata and map are immutable -/

/-- No run, inside or beyond the horizon, changes the scenario. -/
theorem C04_scenario_immutable {d : DynamicsModel α D n} {cfg : EnvConfig} {s s' : SimState α n T}
    {acts : List (Fin n → Act D)} (h : stepMany d cfg s acts = .ok s') : SameScenario s s' :=
  stepMany_same h

example : ∃ s', stepMany stateDynamics exCfg exScen [exAct true, exAct true] = .ok s' := ⟨_, rfl⟩

/-! ### C05: time advances by exactly one -/

/-- After `k` steps of any run, `timestep` has grown by `k` and `remaining_timesteps` shrunk by `k`. -/
theorem C05_time_advances {d : DynamicsModel α D n} {cfg : EnvConfig} {s s' : SimState α n T}
    {acts : List (Fin n → Act D)} (h : stepMany d cfg s acts = .ok s') :
    s'.timestep = s.timestep + acts.length ∧ s'.remainingTimesteps = s.remainingTimesteps - acts.length := by
  have := stepMany_timestep h
  refine ⟨this, ?_⟩
  simp only [SimState.remainingTimesteps, this]; omega

/-- After reset and `k` steps (not limited to the horizon): time step, remaining steps, and done exactly when
`k ≥ T - init_steps`. -/
theorem C05_episode_clock {d : DynamicsModel α D n} {cfg : EnvConfig} {scen s0 s1 : SimState α n T}
    {acts : List (Fin n → Act D)} (h0 : reset cfg scen = .ok s0) (h : stepMany d cfg s0 acts = .ok s1) :
    s1.timestep = (cfg.initSteps : Int) - 1 + acts.length ∧
    s1.remainingTimesteps = (T : Int) - cfg.initSteps - acts.length ∧
    (s1.isDone = true ↔ T ≤ cfg.initSteps + acts.length) := by
  have h1 := (C01_reset_spec h0).1
  have h2 := C05_time_advances h
  rw [h1] at h2
  refine ⟨h2.1, ?_, ?_⟩
  · simp only [SimState.remainingTimesteps, h2.1]; omega
  · simp only [SimState.isDone, h2.1, decide_eq_true_eq]; omega

omit [ScalarOps α] [NeZero T] in
/-- `is_done`, `truncation` and `remaining_timesteps < 1` agree in every state, and nothing is ever terminated. -/
theorem C05_done_iff_truncated (s : SimState α n T) :
    (s.isDone = true ↔ s.remainingTimesteps < 1) ∧ (truncation s = s.isDone) ∧ termination s = false := by
  refine ⟨?_, ?_, rfl⟩
  · simp only [SimState.isDone, SimState.remainingTimesteps, decide_eq_true_eq]; omega
  · unfold truncation SimState.isDone SimState.remainingTimesteps
    exact decide_eq_decide.2 (by omega)

example : ∃ s0 s1, reset exCfg exScen = .ok s0 ∧
    stepMany stateDynamics exCfg s0 [exAct true, exAct true, exAct true] = .ok s1 ∧ s1.isDone = true :=
  ⟨_, _, rfl, rfl, rfl⟩

/-! ### C06: controlled objects obey the dynamics, all others follow the log -/

/-- The five controllable fields and the time stamp after one step inside the horizon. `t` is the current step, `t'` the
next. -/
theorem C06_step_moves {d : DynamicsModel α D n} {cfg : EnvConfig} {s s' : SimState α n T}
    {a : Fin n → Act D} (h : step d cfg s a = .ok s') (hw : 1 ≤ cfg.initSteps) (hT : cfg.initSteps ≤ T)
    {t t' : Fin T} (ht : (t : Int) = s.timestep) (ht' : (t' : Int) = s.timestep + 1) (i : Fin n) :
    let p := s'.simTrajectory i t'
    let u := d.computeUpdate a (fun j => s.simTrajectory j t) i
    let l := s.logTrajectory i t'
    s'.timestep = s.timestep + 1 ∧
    p.timestampMicros = l.timestampMicros ∧
    (IsControlled cfg s i → p.x = u.x ∧ p.y = u.y ∧ p.yaw = u.yaw ∧ p.velX = u.velX ∧ p.velY = u.velY) ∧
    (¬ IsControlled cfg s i → p.x = l.x ∧ p.y = l.y ∧ p.yaw = l.yaw ∧ p.velX = l.velX ∧ p.velY = l.velY) := by
  obtain ⟨m, hm, rfl⟩ := step_ok h
  have hc := envControlMask_iff hm hw hT i
  simp only
  rw [forward_apply d a _ _ m _ ht ht', if_pos rfl]
  refine ⟨trivial, rfl, ?_, ?_⟩
  · intro hi
    have := hc.2 hi
    simp [updatedPt, newField, this]
  · intro hi
    have : m i = false := by
      cases hmi : m i with
      | false => rfl
      | true => exact absurd (hc.1 hmi) hi
    simp [updatedPt, newField, this]

example : ∃ s0 s', reset exCfg exScen = .ok s0 ∧ step stateDynamics exCfg s0 (exAct true) = .ok s' ∧
    IsControlled exCfg s0 0 ∧ ¬ IsControlled exCfg s0 1 :=
  ⟨_, _, rfl, rfl, by simp [IsControlled, exCfg, exScen, exMeta], by simp [IsControlled, exCfg, exScen, exMeta]⟩

/-! ### C10: the set of controlled objects is fixed for the episode -/

/-- The mask that `step` uses at any point of an episode is the set of objects controlled at its start. -/
theorem C10_control_mask_constant {d : DynamicsModel α D n} {cfg : EnvConfig} {scen s0 s1 : SimState α n T}
    {acts : List (Fin n → Act D)} (E : Episode d cfg scen s0 acts s1) {m : Fin n → Bool}
    (h : envControlMask cfg s1 = .ok m) (i : Fin n) : m i = true ↔ IsControlled cfg s0 i := by
  have hf := E.fits
  rw [envControlMask_iff h E.warm (by omega), E.isControlled_iff]

/-- In terms of the scenario alone: the mask is the `is_sdc`, `is_modeled` or `is_valid` flag, or, when all valid objects
are controlled and none may appear, validity in the log at the last warm-up step. -/
theorem C10_control_mask_from_scenario {d : DynamicsModel α D n} {cfg : EnvConfig} {scen s0 s1 : SimState α n T}
    {acts : List (Fin n → Act D)} (E : Episode d cfg scen s0 acts s1) {m : Fin n → Bool}
    (h : envControlMask cfg s1 = .ok m) (i : Fin n) :
    (cfg.controlledObject = .SDC → m i = (scen.objectMetadata i).isSdc) ∧
    (cfg.controlledObject = .MODELED → m i = (scen.objectMetadata i).isModeled) ∧
    (cfg.controlledObject = .VALID → cfg.allowNewObjectsAfterWarmup = true →
      m i = (scen.objectMetadata i).isValid) ∧
    (cfg.controlledObject = .VALID → cfg.allowNewObjectsAfterWarmup = false →
      ∀ t : Fin T, t.val + 1 = cfg.initSteps → m i = (scen.logTrajectory i t).valid) := by
  have hc := C10_control_mask_constant E h i
  have hd := E.reset_data
  have hb : ∀ b : Bool, (IsControlled cfg s0 i ↔ b = true) → m i = b := by
    intro b hb
    have := hc.trans hb
    cases hm : m i <;> cases b <;> simp_all
  refine ⟨?_, ?_, ?_, ?_⟩
  · intro ht; apply hb; simp [IsControlled, ht, hd]
  · intro ht; apply hb; simp [IsControlled, ht, hd]
  · intro ht ha; apply hb; simp [IsControlled, ht, hd, ha]
  · intro ht ha t htt
    apply hb
    simp only [IsControlled, ht, ha, hd]
    simp only [Bool.false_eq_true, if_false]
    constructor
    · rintro ⟨u, hu, hv⟩
      have : u = t := Fin.ext (by omega)
      subst this
      rw [if_pos (by omega)] at hv; exact hv
    · intro hv
      exact ⟨t, htt, by rw [if_pos (by omega)]; exact hv⟩

example (cfg : EnvConfig) (h : cfg = { exCfg with controlledObject := .VALID, allowNewObjectsAfterWarmup := false }) :
    ∃ s0 s1 m, Episode stateDynamics cfg exScen s0 [exAct true, exAct false, exAct true] s1 ∧
      envControlMask cfg s1 = .ok m := by
  obtain ⟨s0, s1, E⟩ := exEpisode cfg (by rw [h]; rfl) (by rw [h]; rfl) (by rw [h]; decide)
  obtain ⟨m, hm⟩ := envControlMask_exists cfg s1 (by rw [h]; decide)
  exact ⟨s0, s1, m, E, hm⟩

/-! ### C07: without injection nothing appears and controlled objects never vanish -/

/-- Validity along an episode without object injection. `t0` is the last warm-up step and `t` any later simulated step. -/
theorem C07_validity_without_injection {d : DynamicsModel α D n} {cfg : EnvConfig} {scen s0 s1 : SimState α n T}
    {acts : List (Fin n → Act D)} (E : Episode d cfg scen s0 acts s1)
    (hinj : cfg.allowNewObjectsAfterWarmup = false) (i : Fin n)
    {t0 t : Fin T} (ht0 : t0.val + 1 = cfg.initSteps) (hle : t0 ≤ t) (ht : (t : Int) ≤ s1.timestep) :
    (IsControlled cfg s0 i →
      (s1.simTrajectory i t).valid = (scen.logTrajectory i t0).valid) ∧
    (¬ IsControlled cfg s0 i →
      ((s1.simTrajectory i t).valid = true ↔
        ∀ u : Fin T, t0 ≤ u → u ≤ t → (scen.logTrajectory i u).valid = true)) := by
  have hts := E.timestep_eq
  have hw := E.warm
  have hf := E.fits
  have hbase : s1.simTrajectory i t0 = scen.logTrajectory i t0 := by
    rw [stepMany_frame E.run (by rw [E.reset_data]; simp only; omega)
      (by rw [E.reset_data]; simp only; omega) i t0 (Or.inl (by rw [E.reset_data]; simp only; omega))]
    exact (C01_reset_spec E.start).2.1 i t0 (by omega)
  obtain ⟨k, hk⟩ : ∃ k, t.val = t0.val + k := ⟨t.val - t0.val, by have : t0.val ≤ t.val := hle; omega⟩
  induction k generalizing t with
  | zero =>
    have : t = t0 := Fin.ext (by omega)
    subst this
    rw [hbase]
    refine ⟨fun _ => rfl, fun _ => ⟨?_, fun h => h t (Fin.le_refl t) (Fin.le_refl t)⟩⟩
    intro hv u hu1 hu2
    have : u = t := Fin.le_antisymm hu2 hu1
    rwa [this]
  | succ k ih =>
    have hlt : t0.val + k < T := by omega
    have ihk := ih (t := ⟨t0.val + k, hlt⟩) (by simp [Fin.le_def]) (by simp only; omega) rfl
    obtain ⟨c, hc, hrec⟩ := E.recurrence (k := k) (by omega) (t := ⟨t0.val + k, hlt⟩) (t' := t)
      (by simp only; omega) (by omega) i
    have hv : (s1.simTrajectory i t).valid =
        nextValid false c (s1.simTrajectory i ⟨t0.val + k, hlt⟩).valid (scen.logTrajectory i t).valid := by
      rw [hrec, hinj]; rfl
    constructor
    · intro hi
      have hct := hc.2 hi
      have ih1 := ihk.1 hi
      rw [hv, hct, ← ih1]
      cases (s1.simTrajectory i ⟨t0.val + k, hlt⟩).valid <;> simp [nextValid]
    · intro hi
      have hcf : c = false := by
        cases hcc : c with
        | false => rfl
        | true => exact absurd (hc.1 hcc) hi
      have ih2 := ihk.2 hi
      rw [hv, hcf]
      simp only [nextValid, Bool.false_and, Bool.false_eq_true, if_false, Bool.and_eq_true]
      rw [ih2]
      constructor
      · rintro ⟨h1, h2⟩ u hu1 hu2
        by_cases hut : u = t
        · rw [hut]; exact h2
        · have : u.val ≠ t.val := fun hh => hut (Fin.ext hh)
          exact h1 u hu1 (by simp only [Fin.le_def] at *; omega)
      · intro h
        refine ⟨fun u hu1 hu2 => h u hu1 (by simp only [Fin.le_def] at *; omega), h t ?_ (Fin.le_refl t)⟩
        simp only [Fin.le_def] at *; omega

/-- Consequences in the words of the documentation: nothing ever appears, and a controlled object that is valid at the end
of the warm-up is valid at every later simulated step. -/
theorem C07_nothing_appears {d : DynamicsModel α D n} {cfg : EnvConfig} {scen s0 s1 : SimState α n T}
    {acts : List (Fin n → Act D)} (E : Episode d cfg scen s0 acts s1)
    (hinj : cfg.allowNewObjectsAfterWarmup = false) (i : Fin n)
    {t0 t t' : Fin T} (ht0 : t0.val + 1 = cfg.initSteps) (hle : t0 ≤ t) (hle' : t ≤ t')
    (ht : (t' : Int) ≤ s1.timestep) :
    ((s1.simTrajectory i t').valid = true → (s1.simTrajectory i t).valid = true) ∧
    (IsControlled cfg s0 i → (s1.simTrajectory i t).valid = true → (s1.simTrajectory i t').valid = true) := by
  have hle2 : t0 ≤ t' := Nat.le_trans hle hle'
  have h2 : (t : Int) ≤ s1.timestep := by simp only [Fin.le_def] at *; omega
  have a := C07_validity_without_injection E hinj i ht0 hle h2
  have b := C07_validity_without_injection E hinj i ht0 hle2 ht
  constructor
  · intro hv
    by_cases hi : IsControlled cfg s0 i
    · rw [a.1 hi, ← b.1 hi]; exact hv
    · rw [a.2 hi]
      exact fun u h1 h3 => (b.2 hi).1 hv u h1 (Nat.le_trans h3 hle')
  · intro hi hv
    rw [b.1 hi, ← a.1 hi]; exact hv

example : ∃ cfg s0 s1, Episode stateDynamics cfg exScen s0 [exAct true, exAct false, exAct true] s1 ∧
    cfg.allowNewObjectsAfterWarmup = false ∧ (3 : Int) ≤ s1.timestep := by
  obtain ⟨s0, s1, E⟩ := exEpisode { exCfg with allowNewObjectsAfterWarmup := false } rfl rfl (by decide)
  exact ⟨_, s0, s1, E, rfl, by rw [E.timestep_eq]; decide⟩

/-! ### C08: with injection, presence follows the log -/

/-- With injection: after any step inside the horizon an uncontrolled object is valid iff it is logged as valid, an object
that was not present takes its validity from the log even if controlled, and a present controlled object stays. -/
theorem C08_step_validity_with_injection {d : DynamicsModel α D n} {cfg : EnvConfig} {s s' : SimState α n T}
    {a : Fin n → Act D} (h : step d cfg s a = .ok s') (hw : 1 ≤ cfg.initSteps) (hT : cfg.initSteps ≤ T)
    (hinj : cfg.allowNewObjectsAfterWarmup = true)
    {t t' : Fin T} (ht : (t : Int) = s.timestep) (ht' : (t' : Int) = s.timestep + 1) (i : Fin n) :
    (¬ IsControlled cfg s i → (s'.simTrajectory i t').valid = (s.logTrajectory i t').valid) ∧
    ((s.simTrajectory i t).valid = false → (s'.simTrajectory i t').valid = (s.logTrajectory i t').valid) ∧
    (IsControlled cfg s i → (s.simTrajectory i t).valid = true → (s'.simTrajectory i t').valid = true) := by
  obtain ⟨m, hm, rfl⟩ := step_ok h
  have hc := envControlMask_iff hm hw hT i
  simp only
  rw [forward_apply d a _ _ m _ ht ht', if_pos rfl, hinj]
  have hv : ∀ u : Upd α, (updatedPt false true (m i) u (s.simTrajectory i t) (s.logTrajectory i t')).valid =
      nextValid true (m i) (s.simTrajectory i t).valid (s.logTrajectory i t').valid := fun _ => rfl
  rw [hv]
  refine ⟨?_, ?_, ?_⟩
  · intro hi
    have : m i = false := by
      cases hmi : m i with
      | false => rfl
      | true => exact absurd (hc.1 hmi) hi
    simp [nextValid, this]
  · intro hcur; simp [nextValid, hcur]
  · intro hi hcur; simp [nextValid, hcur, hc.2 hi]

/-- Over a whole episode with injection, an uncontrolled object is present at every simulated step exactly when the log
says so. -/
theorem C08_uncontrolled_presence_is_logged {d : DynamicsModel α D n} {cfg : EnvConfig}
    {scen s0 s1 : SimState α n T} {acts : List (Fin n → Act D)} (E : Episode d cfg scen s0 acts s1)
    (hinj : cfg.allowNewObjectsAfterWarmup = true) (i : Fin n) (hi : ¬ IsControlled cfg s0 i)
    {t : Fin T} (ht : (t : Int) ≤ s1.timestep) :
    (s1.simTrajectory i t).valid = (scen.logTrajectory i t).valid := by
  have hts := E.timestep_eq
  have hw := E.warm
  have hf := E.fits
  by_cases htt : t.val < cfg.initSteps
  · rw [stepMany_frame E.run (by rw [E.reset_data]; simp only; omega)
      (by rw [E.reset_data]; simp only; omega) i t (Or.inl (by rw [E.reset_data]; simp only; omega))]
    rw [(C01_reset_spec E.start).2.1 i t htt]
  · obtain ⟨c, hc, hrec⟩ := E.recurrence (k := t.val - cfg.initSteps) (by omega) (t := ⟨t.val - 1, by omega⟩) (t' := t)
      (by simp only; omega) (by omega) i
    have hcf : c = false := by
      cases hcc : c with
      | false => rfl
      | true => exact absurd (hc.1 hcc) hi
    rw [hrec, hinj, hcf]
    simp [updatedPt, nextValid]

example : ∃ s0 s1, Episode stateDynamics exCfg exScen s0 [exAct true, exAct false, exAct true] s1 ∧
    ¬ IsControlled exCfg s0 1 ∧ (3 : Int) ≤ s1.timestep := by
  obtain ⟨s0, s1, E⟩ := exEpisode exCfg rfl rfl (by decide)
  exact ⟨s0, s1, E, by rw [E.reset_data]; simp [IsControlled, exCfg, exScen, exMeta], by rw [E.timestep_eq]; decide⟩

end

end Waymax
