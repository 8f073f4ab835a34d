import Verif.Spec.Resume
import Verif.Spec.Padding
import Verif.Props.Episode
import Verif.Props.Delta
import Verif.Model.Reward
import Mathlib.Tactic.ByContra

/-! C176: An episode can be saved as a log and resumed. -/

namespace Waymax
section
variable {α D : Type} [ScalarOps α] {n T : Nat} [NeZero T]

/-- Resetting the recorded episode, with all its steps as warm-up steps, gives the state that was recorded: nothing that was simulated is
lost. -/
theorem C176_reset {d : DynamicsModel α D n} {cfg : EnvConfig} {scen s0 s1 : SimState α n T} {acts : List (Fin n → Act D)}
    (E : Episode d cfg scen s0 acts s1) : reset (cfg.resumeAt s1.timestep) s1.recorded = .ok s1.recorded := by
  have ht := E.timestep_eq
  have hw := E.warm
  have hf := E.fits
  have hn : cfg.maxNumObjects = n := by
    have := E.start
    rw [reset_eq] at this
    by_contra hc
    rw [if_neg hc] at this
    cases this
  have hk : (cfg.resumeAt s1.timestep).initSteps = cfg.initSteps + acts.length := by
    simp only [EnvConfig.resumeAt]
    omega
  rw [reset_eq, if_pos (show (cfg.resumeAt s1.timestep).maxNumObjects = n from hn), if_pos (by rw [hk]; exact hf), hk]
  have h0 : s0.timestep = (cfg.initSteps : Int) - 1 := by rw [E.reset_data]
  have hsim : (fun (i : Fin n) (t : Fin T) => if t.val < cfg.initSteps + acts.length then s1.recorded.logTrajectory i t else invalidPt) =
      s1.simTrajectory := by
    funext i t
    by_cases h : t.val < cfg.initSteps + acts.length
    · rw [if_pos h]
      simp only [SimState.recorded]
      rw [if_pos (by omega)]
    · rw [if_neg h, stepMany_frame E.run (by omega) (by omega) i t (Or.inr (by omega)), E.reset_data]
      simp only
      rw [if_neg (by omega)]
  rw [hsim]
  have he : ((cfg.initSteps + acts.length : Nat) : Int) - 1 = s1.timestep := by omega
  rw [he]
  rfl

omit [ScalarOps α] in
/-- The control masks of the episode and of the resumed episode agree as long as the sim trajectory is the same at the two steps that are
looked up. -/
theorem resumeMask {cfg : EnvConfig} {now : Int} {t0 t1 : Fin T} (h0 : t0.val + 1 = cfg.initSteps) (h1 : (t1 : Int) = now)
    {s r : SimState α n T} (hR : SameUpToLog now s r)
    (hv : cfg.controlledObject = .VALID → cfg.allowNewObjectsAfterWarmup = false →
      ∀ i, (s.simTrajectory i t1).valid = (s.simTrajectory i t0).valid) :
    envControlMask (cfg.resumeAt now) r = envControlMask cfg s := by
  unfold envControlMask
  by_cases hc : cfg.controlledObject = .VALID ∧ cfg.allowNewObjectsAfterWarmup = false
  · rw [if_pos hc, if_pos (show (cfg.resumeAt now).controlledObject = .VALID ∧ (cfg.resumeAt now).allowNewObjectsAfterWarmup = false from hc)]
    simp only [EnvConfig.resumeAt]
    congr 1
    funext i
    rw [dynIndex_of_eq _ (t := t1) (by omega), dynIndex_of_eq _ (t := t0) (by omega), hR.sim]
    exact hv hc.1 hc.2 i
  · rw [if_neg hc, if_neg (show ¬ ((cfg.resumeAt now).controlledObject = .VALID ∧ (cfg.resumeAt now).allowNewObjectsAfterWarmup = false) from hc),
      hR.objects]
    rfl

/-- Without object injection the valid objects at the end of an episode are the controlled ones. -/
theorem valid_now {d : DynamicsModel α D n} {cfg : EnvConfig} {scen s0 s1 : SimState α n T} {acts : List (Fin n → Act D)}
    (E : Episode d cfg scen s0 acts s1) (hc : cfg.controlledObject = .VALID) (hinj : cfg.allowNewObjectsAfterWarmup = false)
    {t0 t1 : Fin T} (h0 : t0.val + 1 = cfg.initSteps) (h1 : (t1 : Int) = s1.timestep) (i : Fin n) :
    (s1.simTrajectory i t1).valid = (s1.simTrajectory i t0).valid := by
  have ht := E.timestep_eq
  have hle : t0 ≤ t1 := by
    simp only [Fin.le_def]
    omega
  have a := C07_validity_without_injection E hinj i h0 hle (by omega)
  have b := C07_validity_without_injection E hinj i h0 (le_refl t0) (by simp only [Fin.le_def] at hle; omega)
  by_cases hi : IsControlled cfg s0 i
  · rw [a.1 hi, b.1 hi]
  · have hz : (scen.logTrajectory i t0).valid = false := by
      by_contra hne
      apply hi
      have hs : s0.simTrajectory i t0 = scen.logTrajectory i t0 := (C01_reset_spec E.start).2.1 i t0 (by omega)
      simp only [IsControlled, hc, hinj, Bool.false_eq_true, if_false]
      exact ⟨t0, h0, by rw [hs]; simpa using hne⟩
    have ha : ¬ (s1.simTrajectory i t1).valid = true := fun hh => by
      have := (a.2 hi).1 hh t0 (le_refl _) hle
      rw [hz] at this
      cases this
    have hb : ¬ (s1.simTrajectory i t0).valid = true := fun hh => by
      have := (b.2 hi).1 hh t0 (le_refl _) (le_refl _)
      rw [hz] at this
      cases this
    rw [Bool.not_eq_true] at ha hb
    rw [ha, hb]

theorem resume_steps {d : DynamicsModel α D n} {cfg : EnvConfig} {now : Int} {t0 t1 : Fin T} (h0 : t0.val + 1 = cfg.initSteps)
    (h1 : (t1 : Int) = now) (h01 : t0 ≤ t1) (bs : List (Fin n → Act D)) :
    ∀ {s r : SimState α n T}, SameUpToLog now s r → now ≤ s.timestep → s.timestep + bs.length < T →
    (cfg.controlledObject = .VALID → cfg.allowNewObjectsAfterWarmup = false →
      ∀ i, (s.simTrajectory i t1).valid = (s.simTrajectory i t0).valid) →
    Both (SameUpToLog now) (stepMany d cfg s bs) (stepMany d (cfg.resumeAt now) r bs) := by
  induction bs with
  | nil => exact fun hR _ _ _ => .ok hR
  | cons b bs ih =>
    intro s r hR hle hT hv
    simp only [List.length_cons] at hT
    have hm := resumeMask h0 h1 hR hv
    unfold stepMany step
    rw [hm]
    cases hmask : envControlMask cfg s with
    | error e => exact .error
    | ok m =>
      simp only [bind, Except.bind, pure, Except.pure]
      have hb : 0 ≤ now := by omega
      have hf : d.forward b r.simTrajectory r.logTrajectory m r.timestep (cfg.resumeAt now).allowNewObjectsAfterWarmup =
          d.forward b s.simTrajectory s.logTrajectory m s.timestep cfg.allowNewObjectsAfterWarmup := by
        funext i u
        rw [hR.sim, hR.time]
        rw [forward_apply d b _ _ m _ (t := ⟨s.timestep.toNat, by omega⟩) (t' := ⟨s.timestep.toNat + 1, by omega⟩)
            (by simp only; omega) (by simp only; omega),
          forward_apply d b _ _ m _ (t := ⟨s.timestep.toNat, by omega⟩) (t' := ⟨s.timestep.toNat + 1, by omega⟩)
            (by simp only; omega) (by simp only; omega), hR.log i _ (by simp only; omega)]
        rfl
      apply ih
      · exact ⟨by simp only [hR.time], hf, hR.log, hR.lights, hR.objects, hR.paths, hR.roads⟩
      · simp only; omega
      · simp only; omega
      · intro hc hinj i
        simp only
        simp only [Fin.le_def] at h01
        rw [forward_apply d b _ _ m _ (t := ⟨s.timestep.toNat, by omega⟩) (t' := ⟨s.timestep.toNat + 1, by omega⟩)
            (by simp only; omega) (by simp only; omega), if_neg (fun h => by have := congrArg Fin.val h; simp only at this; omega),
          forward_apply d b _ _ m _ (t := ⟨s.timestep.toNat, by omega⟩) (t' := ⟨s.timestep.toNat + 1, by omega⟩)
            (by simp only; omega) (by simp only; omega), if_neg (fun h => by have := congrArg Fin.val h; simp only at this; omega)]
        exact hv hc hinj i

/-- Resuming a recorded episode: for every further sequence of actions the resumed episode goes through the same states as the original
one, with every dynamics model and every configuration; if one of them raises an error, so does the other. -/
theorem C176_resume {d : DynamicsModel α D n} {cfg : EnvConfig} {scen s0 s1 : SimState α n T} {acts : List (Fin n → Act D)}
    (E : Episode d cfg scen s0 acts s1) (bs : List (Fin n → Act D)) (hfits : cfg.initSteps + acts.length + bs.length ≤ T) :
    Both (SameUpToLog s1.timestep) (stepMany d cfg s1 bs)
      (reset (cfg.resumeAt s1.timestep) s1.recorded >>= fun r => stepMany d (cfg.resumeAt s1.timestep) r bs) := by
  have ht := E.timestep_eq
  have hw := E.warm
  have hf := E.fits
  rw [C176_reset E]
  refine resume_steps (t0 := ⟨cfg.initSteps - 1, by omega⟩) (t1 := ⟨cfg.initSteps + acts.length - 1, by omega⟩) (by simp only; omega)
    (by simp only; omega) (by simp only [Fin.mk_le_mk]; omega) bs ?_ (le_refl _) (by omega) ?_
  · refine ⟨rfl, rfl, fun i t h => ?_, rfl, rfl, rfl, rfl⟩
    simp only [SimState.recorded]
    rw [if_neg (by omega)]
  · intro hc hinj i
    exact valid_now E hc hinj (by simp only; omega) (by simp only; omega) i

end

section
variable {D : Type} {n T : Nat} [NeZero T]

theorem metrics_same {s r : SimState ℝ n T} (ht : r.timestep = s.timestep) (hsim : r.simTrajectory = s.simTrajectory)
    (hlog : ∀ i, dynIndex (r.logTrajectory i) r.timestep = dynIndex (s.logTrajectory i) s.timestep)
    (hfirst : ∀ i, r.logTrajectory i ⟨0, Nat.pos_of_ne_zero (NeZero.ne T)⟩ = s.logTrajectory i ⟨0, Nat.pos_of_ne_zero (NeZero.ne T)⟩)
    (hlast : ∀ i, r.logTrajectory i ⟨T - 1, Nat.sub_lt (Nat.pos_of_ne_zero (NeZero.ne T)) one_pos⟩ =
      s.logTrajectory i ⟨T - 1, Nat.sub_lt (Nat.pos_of_ne_zero (NeZero.ne T)) one_pos⟩)
    (ho : r.objectMetadata = s.objectMetadata) (hp : r.sdcPaths = s.sdcPaths) (hrg : r.roadgraphPoints = s.roadgraphPoints) :
    ∀ e ∈ builtinMetrics (n := n) (T := T), e.2 r = e.2 s := by
  have hxy : sdcXyCurrent r = sdcXyCurrent s := by simp only [sdcXyCurrent, ht, hsim, ho]
  have hv : sdcValidCurrent r = sdcValidCurrent s := by simp only [sdcValidCurrent, ht, hsim, ho]
  have h0 : sdcXyLog r ⟨0, Nat.pos_of_ne_zero (NeZero.ne T)⟩ = sdcXyLog s ⟨0, Nat.pos_of_ne_zero (NeZero.ne T)⟩ := by
    simp only [sdcXyLog, hfirst, ho]
  have hl : sdcXyLog r ⟨T - 1, Nat.sub_lt (Nat.pos_of_ne_zero (NeZero.ne T)) one_pos⟩ =
      sdcXyLog s ⟨T - 1, Nat.sub_lt (Nat.pos_of_ne_zero (NeZero.ne T)) one_pos⟩ := by
    simp only [sdcXyLog, hlast, ho]
  have m1 : logDivergenceMetric r = logDivergenceMetric s := by
    funext i
    unfold logDivergenceMetric
    rw [hlog i, hsim, ht]
  have m2 : overlapMetric r = overlapMetric s := by simp only [overlapMetric, hsim, ht]
  have m3 : offroadMetric r = offroadMetric s := by unfold offroadMetric; rw [hrg, hsim, ht]
  have m4 : kinematicsInfeasibilityMetric {} r = kinematicsInfeasibilityMetric {} s := by
    funext i
    simp only [kinematicsInfeasibilityMetric, hsim, ht]
  have m5 : wrongWayMetric r = wrongWayMetric s := by simp only [wrongWayMetric, hxy, hp]
  have m6 : progressionMetric r = progressionMetric s := by simp only [progressionMetric, hxy, hp, hv, h0, hl]
  have m7 : offRouteMetric r = offRouteMetric s := by simp only [offRouteMetric, hxy, hp, hv]
  intro e he
  simp only [builtinMetrics, List.mem_cons, List.not_mem_nil, or_false] at he
  rcases he with rfl | rfl | rfl | rfl | rfl | rfl | rfl
  · simp only [m1]
  · simp only [m2]
  · simp only [m3]
  · simp only [m4]
  · simp only [m5]
  · simp only [m6]
  · simp only [m7]

/-- After at least one step the resumed episode is rated like the original one by every metric of the library. -/
theorem C176_metrics {d : DynamicsModel ℝ D n} {cfg : EnvConfig} {scen s0 s1 : SimState ℝ n T} {acts : List (Fin n → Act D)}
    (E : Episode d cfg scen s0 acts s1) {b : Fin n → Act D} {bs : List (Fin n → Act D)}
    (hfits : cfg.initSteps + acts.length + (b :: bs).length ≤ T) {s' r' : SimState ℝ n T} (hs : stepMany d cfg s1 (b :: bs) = .ok s')
    (hr : (reset (cfg.resumeAt s1.timestep) s1.recorded >>= fun r => stepMany d (cfg.resumeAt s1.timestep) r (b :: bs)) = .ok r') :
    ∀ e ∈ builtinMetrics (n := n) (T := T), e.2 r' = e.2 s' := by
  have hB := C176_resume E (b :: bs) hfits
  rw [hs, hr] at hB
  have hR : SameUpToLog s1.timestep s' r' := by cases hB with | ok h => exact h
  have ht := E.timestep_eq
  have hw := E.warm
  have hst := stepMany_timestep hs
  simp only [List.length_cons] at hfits hst
  have hpos : 0 < T := Nat.pos_of_ne_zero (NeZero.ne T)
  refine metrics_same hR.time hR.sim (fun i => ?_) (fun i => ?_) (fun i => hR.log i _ (by simp only; omega)) hR.objects hR.paths hR.roads
  · rw [hR.time, dynIndex_of_eq _ (t := ⟨s'.timestep.toNat, by omega⟩) (by simp only; omega),
      dynIndex_of_eq _ (t := ⟨s'.timestep.toNat, by omega⟩) (by simp only; omega)]
    exact hR.log i _ (by simp only; omega)
  · rw [C176_reset E] at hr
    have h0 : s0.timestep = (cfg.initSteps : Int) - 1 := by rw [E.reset_data]
    rw [(stepMany_same hs).log, (stepMany_same hr).log, (stepMany_same E.run).log]
    simp only [SimState.recorded]
    rw [if_pos (by omega), stepMany_frame E.run (by omega) (by omega) i _ (Or.inl (by simp only; omega)), E.reset_data]
    simp only
    rw [if_pos (by omega)]

/-- And it is rewarded like the original one. -/
theorem C176_rewards {d : DynamicsModel ℝ D n} {cfg : EnvConfig} {scen s0 s1 : SimState ℝ n T} {acts : List (Fin n → Act D)}
    (E : Episode d cfg scen s0 acts s1) {b : Fin n → Act D} {bs : List (Fin n → Act D)}
    (hfits : cfg.initSteps + acts.length + (b :: bs).length ≤ T) {s' r' : SimState ℝ n T} (hs : stepMany d cfg s1 (b :: bs) = .ok s')
    (hr : (reset (cfg.resumeAt s1.timestep) s1.recorded >>= fun r => stepMany d (cfg.resumeAt s1.timestep) r (b :: bs)) = .ok r')
    (computeReward : Bool) (rewards : Dict ℝ) (act : Fin n → Act D) :
    envReward builtinMetrics (cfg.resumeAt s1.timestep) computeReward rewards r' act =
      envReward builtinMetrics cfg computeReward rewards s' act := by
  have hm := C176_metrics E hfits hs hr
  have hB := C176_resume E (b :: bs) hfits
  rw [hs, hr] at hB
  have hR : SameUpToLog s1.timestep s' r' := by cases hB with | ok h => exact h
  have hget : ∀ name m, (builtinMetrics (n := n) (T := T)).get? name = some m → m r' = m s' := by
    intro name m h
    unfold Dict.get? at h
    obtain ⟨e, he, rfl⟩ := Option.map_eq_some_iff.1 h
    exact hm e (List.mem_of_find?_eq_some he)
  have hrun : ∀ names, runMetrics builtinMetrics r' names = runMetrics builtinMetrics s' names := by
    intro names
    unfold runMetrics
    congr 1
    funext results name
    cases h : (builtinMetrics (n := n) (T := T)).get? name with
    | none => rfl
    | some m => simp only [hget name m h]
  unfold envReward linearReward
  rw [hR.objects, hrun]
  rfl

omit [NeZero T] in
/-- From the step of the recording on, the expert with state actions advises the same in the resumed episode. -/
theorem C176_expert [NeZero T] {now : Int} {s r : SimState ℝ n T} (hR : SameUpToLog now s r) (h0 : 0 ≤ now) (hle : now ≤ s.timestep)
    (hT : s.timestep + 1 < T) :
    (stateDynamics (α := ℝ)).inverse r.logTrajectory r.objectMetadata r.timestep =
      (stateDynamics (α := ℝ)).inverse s.logTrajectory s.objectMetadata s.timestep := by
  funext i
  simp only [stateDynamics, stateInverse]
  rw [hR.time, dynIndex_of_eq _ (t := ⟨(s.timestep + 1).toNat, by omega⟩) (by simp only; omega),
    dynIndex_of_eq _ (t := ⟨(s.timestep + 1).toNat, by omega⟩) (by simp only; omega), hR.log i _ (by simp only; omega)]

/-- The hypotheses of the theorems on metrics and rewards are met: the moving scenario of C64 driven by displacements. -/
example : ∃ s0 s1 s' r', Episode (deltaGlobal {}) driveCfg driveScen s0 [fun _ => { data := ⟨1, 0, 0⟩, valid := true }] s1 ∧
    stepMany (deltaGlobal {}) driveCfg s1 [fun _ => { data := ⟨2, 1, 0⟩, valid := true }] = .ok s' ∧
    (reset (driveCfg.resumeAt s1.timestep) s1.recorded >>= fun r =>
      stepMany (deltaGlobal {}) (driveCfg.resumeAt s1.timestep) r [fun _ => { data := ⟨2, 1, 0⟩, valid := true }]) = .ok r' ∧
    ∀ e ∈ builtinMetrics (n := 1) (T := 4), e.2 r' = e.2 s' := by
  obtain ⟨s0, s1, E⟩ := episode_exists (deltaGlobal {}) driveCfg driveScen [fun _ => { data := ⟨1, 0, 0⟩, valid := true }] rfl (by decide)
    (by decide) (by decide)
  obtain ⟨s', hs⟩ := stepMany_exists (deltaGlobal {}) driveCfg s1 [fun _ => { data := ⟨2, 1, 0⟩, valid := true }] (by decide)
  have hB := C176_resume E [fun _ => { data := ⟨2, 1, 0⟩, valid := true }] (by decide)
  rw [hs] at hB
  generalize hr : (reset _ s1.recorded >>= fun r => stepMany (deltaGlobal {}) _ r _) = out at hB
  cases hB with
  | ok h => exact ⟨s0, s1, s', _, E, hs, hr, C176_metrics E (by decide) hs hr⟩

/-- The hypotheses are met: an episode of two steps under steering actions, saved, and resumed for one step, with every kind of control. -/
example (c : ObjectType) (hc : c ≠ .NON_SDC) (inj : Bool) :
    ∃ s0 s1 s' r', Episode stateDynamics { exCfg with controlledObject := c, allowNewObjectsAfterWarmup := inj } exScen s0
      [exAct true, exAct false] s1 ∧
    stepMany stateDynamics { exCfg with controlledObject := c, allowNewObjectsAfterWarmup := inj } s1 [exAct true] = .ok s' ∧
    (reset (EnvConfig.resumeAt { exCfg with controlledObject := c, allowNewObjectsAfterWarmup := inj } s1.timestep) s1.recorded >>= fun r =>
      stepMany stateDynamics (EnvConfig.resumeAt { exCfg with controlledObject := c, allowNewObjectsAfterWarmup := inj } s1.timestep) r
        [exAct true]) = .ok r' ∧ SameUpToLog 2 s' r' := by
  obtain ⟨s0, s1, E⟩ := episode_exists stateDynamics { exCfg with controlledObject := c, allowNewObjectsAfterWarmup := inj } exScen
    [exAct true, exAct false] rfl (by simp [exCfg]) (by simp [exCfg]) hc
  obtain ⟨s', hs⟩ := stepMany_exists stateDynamics { exCfg with controlledObject := c, allowNewObjectsAfterWarmup := inj } s1 [exAct true] hc
  have hB := C176_resume E [exAct true] (by simp [exCfg])
  have ht : s1.timestep = 2 := by rw [E.timestep_eq]; rfl
  rw [hs] at hB
  generalize hr : (reset _ s1.recorded >>= fun r => stepMany stateDynamics _ r [exAct true]) = out at hB
  cases hB with
  | ok h => exact ⟨s0, s1, s', _, E, hs, hr, ht ▸ h⟩

end
end Waymax
