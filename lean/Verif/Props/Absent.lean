import Verif.Spec.Absent
import Verif.Props.Influence
import Verif.Props.MotionMetrics
import Verif.Props.MotionPlanning
import Verif.Lemmas.RolloutRel
/-
C152: the numbers stored for absent objects have no influence.
-/

namespace Waymax

section
variable {α D : Type} {n T : Nat} {s s' : SimState α n T}

theorem SameIfPresent.refl (p : Pt α) : SameIfPresent p p := ⟨rfl, rfl, fun _ => rfl⟩

section
variable [ScalarOps α]

/-- `reset`. -/
theorem C152_reset (cfg : EnvConfig) (h : SamePresent s s') : Both SamePresent (reset cfg s) (reset cfg s') := by
  rw [reset_eq, reset_eq]
  split
  · split
    · refine .ok ⟨?_, h.log, h.objects, rfl, h.lights, h.paths, h.roadgraph⟩
      intro i t
      simp only
      split
      · exact h.log i t
      · exact .refl _
    · exact .error
  · exact .error

/-- The new entry of one object: if it is present, so was the old one. -/
theorem updatedPt_present {u u' : Upd α} {cur cur' ref ref' : Pt α} {inj c : Bool} (hu : cur.valid = true → u' = u)
    (hc : SameIfPresent cur cur') (hr : SameIfPresent ref ref') (hent : inj = true → ref.valid = true → cur.valid = true) :
    SameIfPresent (updatedPt false inj c u cur ref) (updatedPt false inj c u' cur' ref') := by
  refine ⟨?_, hr.time, fun h => ?_⟩
  · change nextValid inj c cur'.valid ref'.valid = nextValid inj c cur.valid ref.valid
    rw [hc.valid, hr.valid]
  · change nextValid inj c cur.valid ref.valid = true at h
    have hcur : cur.valid = true := by
      cases hv : cur.valid
      · exfalso
        rw [hv] at h hent
        cases hi : inj
        · rw [hi] at h; simp [nextValid] at h
        · rw [hi] at h
          have := hent hi (by simpa [nextValid] using h)
          cases this
      · rfl
    rw [hc.same hcur, hu hcur]
    cases hct : c
    · have hrv : ref.valid = true := by
        rw [hct] at h
        cases inj <;> simp [nextValid] at h
        · exact h.2
        · exact h
      rw [hr.same hrv]
    · have e1 : ref'.valid = ref.valid := hr.valid
      have e2 : ref'.timestampMicros = ref.timestampMicros := hr.time
      simp only [updatedPt, newField, e1, e2, if_true, Bool.false_eq_true, if_false]

variable [NeZero T]

omit [ScalarOps α] in
theorem mask_present {cfg : EnvConfig} (h : SamePresent s s') : envControlMask cfg s' = envControlMask cfg s := by
  unfold envControlMask
  rw [h.objects]
  simp only [fun i t => (h.sim i t).valid]

/-- One step with the same actions for the objects that are present, as long as no object enters in this step. -/
theorem C152_step_partial {d : DynamicsModel α D n} (hd : ObjectByObject d) {cfg : EnvConfig} (h : SamePresent s s')
    {a a' : Fin n → Act D} (ha : ∀ i, (dynIndex (s.simTrajectory i) s.timestep).valid = true → a' i = a i)
    (hent : cfg.allowNewObjectsAfterWarmup = true → ∀ i, (dynIndex (s.logTrajectory i) (s.timestep + 1)).valid = true →
      (dynIndex (s.simTrajectory i) s.timestep).valid = true) :
    Both SamePresent (step d cfg s a) (step d cfg s' a') := by
  unfold step
  rw [mask_present h]
  cases hm : envControlMask cfg s with
  | error e => exact .error
  | ok c =>
    refine .ok ⟨?_, h.log, h.objects, by simp only [h.clock], h.lights, h.paths, h.roadgraph⟩
    intro i t
    simp only
    unfold DynamicsModel.forward applyTrajectoryUpdate
    simp only [h.clock]
    unfold dynUpdateSlice
    split
    · exact updatedPt_present (fun hv => hd a a' _ _ i (ha i hv) ((h.sim i _).same hv)) (h.sim i _) (h.log i _) fun h1 => hent h1 i
    · exact h.sim i t

/-- Whole episodes of any length when new objects are not allowed. -/
theorem C152_steps_closed {d : DynamicsModel α D n} (hd : ObjectByObject d) {cfg : EnvConfig}
    (hcl : cfg.allowNewObjectsAfterWarmup = false) (as : List (Fin n → Act D)) (h : SamePresent s s') :
    Both SamePresent (stepMany d cfg s as) (stepMany d cfg s' as) := by
  induction as generalizing s s' with
  | nil => exact .ok h
  | cons a as ih =>
    exact (C152_step_partial hd h (fun _ _ => rfl) fun h1 => by rw [hcl] at h1; cases h1).bind fun _ _ h' => ih h'

/-- Whole episodes of any length in which nothing enters after the warm-up. -/
theorem C152_episode_partial {d : DynamicsModel α D n} (hd : ObjectByObject d) {cfg : EnvConfig} (h1 : 1 ≤ cfg.initSteps)
    (as : List (Fin n → Act D)) (hT : cfg.initSteps + as.length ≤ T) (h : SamePresent s s') (hno : NothingEnters cfg s) :
    Both SamePresent (reset cfg s >>= fun s0 => stepMany d cfg s0 as) (reset cfg s' >>= fun s0 => stepMany d cfg s0 as) := by
  by_cases hin : cfg.allowNewObjectsAfterWarmup = true
  swap
  · exact (C152_reset cfg h).bind fun _ _ h' => C152_steps_closed hd (by simpa using hin) as h'
  -- the invariant: what the log holds at the clock is present
  have key : ∀ (as : List (Fin n → Act D)) (s s' : SimState α n T), SamePresent s s' → (cfg.initSteps : Int) ≤ s.timestep + 1 →
      s.timestep + as.length < T → NothingEnters cfg s →
      (∀ i, (dynIndex (s.logTrajectory i) s.timestep).valid = true → (dynIndex (s.simTrajectory i) s.timestep).valid = true) →
      Both SamePresent (stepMany d cfg s as) (stepMany d cfg s' as) := by
    intro as
    induction as with
    | nil => exact fun s s' h _ _ _ _ => .ok h
    | cons a as ih =>
      intro s s' h hw hlt hno hinv
      simp only [List.length_cons] at hlt
      have hlt' : s.timestep + 1 < T := by omega
      have h0 : 0 ≤ s.timestep := by omega
      have hb : s.timestep.toNat < T := by omega
      have hb' : s.timestep.toNat + 1 < T := by omega
      have et : ((⟨s.timestep.toNat, hb⟩ : Fin T) : Int) = s.timestep := by simp only; omega
      have et' : ((⟨s.timestep.toNat + 1, hb'⟩ : Fin T) : Int) = s.timestep + 1 := by simp only; omega
      have hnow : ∀ i, (dynIndex (s.logTrajectory i) (s.timestep + 1)).valid = true →
          (dynIndex (s.simTrajectory i) s.timestep).valid = true := by
        intro i hi
        refine hinv i ?_
        rw [dynIndex_of_eq _ et'] at hi
        rw [dynIndex_of_eq _ et]
        exact hno hin i ⟨s.timestep.toNat, hb⟩ ⟨s.timestep.toNat + 1, hb'⟩ (by simp only; omega) rfl hi
      unfold stepMany
      have hs := C152_step_partial hd (cfg := cfg) h (a := a) (a' := a) (fun _ _ => rfl) fun _ => hnow
      cases hst : step d cfg s a with
      | error e =>
        rw [hst] at hs
        cases hst' : step d cfg s' a with
        | error e' => rw [hst'] at hs; cases hs; exact .error
        | ok t' => rw [hst'] at hs; cases hs
      | ok t =>
        rw [hst] at hs
        cases hst' : step d cfg s' a with
        | error e' => rw [hst'] at hs; cases hs
        | ok t' =>
          rw [hst'] at hs
          have hr : SamePresent t t' := by cases hs with | ok h => exact h
          obtain ⟨m, hm, ht⟩ := step_ok hst
          refine ih t t' hr (by rw [ht]; simp only; omega) (by rw [ht]; simp only; omega) (by rw [ht]; exact hno) ?_
          intro i hi
          rw [ht] at hi ⊢
          simp only at hi ⊢
          rw [dynIndex_of_eq _ et', forward_apply d a _ _ _ _ et et' i _, if_pos rfl]
          have hcur := hnow i hi
          rw [dynIndex_of_eq _ et] at hcur
          rw [dynIndex_of_eq _ et'] at hi
          change nextValid _ _ _ _ = true
          rw [hin, hcur, hi]
          cases m i <;> rfl
  cases hre : reset cfg s with
  | error e =>
    have hb := C152_reset cfg h
    rw [hre] at hb
    cases hre' : reset cfg s' with
    | error e' => rw [hre'] at hb; cases hb; exact .error
    | ok t' => rw [hre'] at hb; cases hb
  | ok s0 =>
    have hb := C152_reset cfg h
    rw [hre] at hb
    cases hre' : reset cfg s' with
    | error e' => rw [hre'] at hb; cases hb
    | ok s0' =>
      rw [hre'] at hb
      have hr : SamePresent s0 s0' := by cases hb with | ok h => exact h
      rw [reset_eq] at hre
      split at hre
      · split at hre
        · rw [Except.ok.injEq] at hre
          have hb0 : cfg.initSteps - 1 < T := by omega
          have e0 : ((⟨cfg.initSteps - 1, hb0⟩ : Fin T) : Int) = s0.timestep := by rw [← hre]; simp only; omega
          refine key as s0 s0' hr (by rw [← hre]; simp) (by rw [← hre]; simp only; omega) (by rw [← hre]; exact hno) ?_
          intro i hi
          rw [dynIndex_of_eq _ e0] at hi ⊢
          rw [← hre] at hi ⊢
          simp only at hi ⊢
          rw [if_pos (by omega)]
          exact hi
        · cases hre
      · cases hre

/-! #### Objects that enter

A recording read from the dataset has one size per object at all steps, absent or not (`trajectory_from_womd_dict` averages it). -/

omit [ScalarOps α] [NeZero T] in
theorem SameBody.refl (p : Pt α) : SameBody p p := ⟨rfl, rfl, rfl, rfl⟩

omit [NeZero T] in
/-- The new entry of one object that may enter: if it does, it follows the log, and altitude and size are the stored ones. -/
theorem updatedPt_entering {u u' : Upd α} {cur cur' ref ref' : Pt α} {inj c : Bool} (hu : cur.valid = true → u' = u)
    (hc : SameIfPresent cur cur') (hb : SameBody cur cur') (hr : SameIfPresent ref ref')
    (hent : c = true → inj = true → ref.valid = true → cur.valid = true) :
    SameIfPresent (updatedPt false inj c u cur ref) (updatedPt false inj c u' cur' ref') ∧
    SameBody (updatedPt false inj c u cur ref) (updatedPt false inj c u' cur' ref') := by
  refine ⟨?_, hb⟩
  by_cases hx : inj = true ∧ ref.valid = true ∧ cur.valid = false
  · obtain ⟨hi, hrv, hcv⟩ := hx
    have hcf : c = false := by
      cases hc' : c
      · rfl
      · have := hent hc' hi hrv; rw [hcv] at this; cases this
    obtain ⟨h1, h2, h3, h4⟩ := hb
    rw [hr.same hrv, hcf]
    refine ⟨?_, rfl, fun _ => ?_⟩
    · change nextValid inj false cur'.valid ref.valid = nextValid inj false cur.valid ref.valid
      rw [hc.valid]
    · simp only [updatedPt, newField, Bool.false_eq_true, if_false, h1, h2, h3, h4, hc.valid]
  · refine updatedPt_present hu hc hr fun h1 h2 => ?_
    cases hv : cur.valid
    · exact absurd ⟨h1, h2, hv⟩ hx
    · rfl

/-- One step in which objects may enter, except controlled ones, when altitude and size are the same also for absent entries. -/
theorem C152_entering_step_partial {d : DynamicsModel α D n} (hd : ObjectByObject d) {cfg : EnvConfig} (h : SamePresent s s')
    (hb : ∀ i t, SameBody (s.simTrajectory i t) (s'.simTrajectory i t)) {a a' : Fin n → Act D}
    (ha : ∀ i, (dynIndex (s.simTrajectory i) s.timestep).valid = true → a' i = a i)
    (hent : ∀ c, envControlMask cfg s = .ok c → ∀ i, c i = true → cfg.allowNewObjectsAfterWarmup = true →
      (dynIndex (s.logTrajectory i) (s.timestep + 1)).valid = true → (dynIndex (s.simTrajectory i) s.timestep).valid = true) :
    Both (fun r r' => SamePresent r r' ∧ ∀ i t, SameBody (r.simTrajectory i t) (r'.simTrajectory i t)) (step d cfg s a)
      (step d cfg s' a') := by
  unfold step
  rw [mask_present h]
  cases hm : envControlMask cfg s with
  | error e => exact .error
  | ok c =>
    have key : ∀ i t, SameIfPresent (d.forward a s.simTrajectory s.logTrajectory c s.timestep cfg.allowNewObjectsAfterWarmup i t)
        (d.forward a' s'.simTrajectory s'.logTrajectory c s'.timestep cfg.allowNewObjectsAfterWarmup i t) ∧
        SameBody (d.forward a s.simTrajectory s.logTrajectory c s.timestep cfg.allowNewObjectsAfterWarmup i t)
        (d.forward a' s'.simTrajectory s'.logTrajectory c s'.timestep cfg.allowNewObjectsAfterWarmup i t) := by
      intro i t
      unfold DynamicsModel.forward applyTrajectoryUpdate
      simp only [h.clock]
      unfold dynUpdateSlice
      split
      · exact updatedPt_entering (fun hv => hd a a' _ _ i (ha i hv) ((h.sim i _).same hv)) (h.sim i _) (hb i _) (h.log i _)
          fun hc => hent c hm i hc
      · exact ⟨h.sim i t, hb i t⟩
    exact .ok ⟨⟨fun i t => (key i t).1, h.log, h.objects, by simp only [h.clock], h.lights, h.paths, h.roadgraph⟩,
      fun i t => (key i t).2⟩

/-- Whole episodes of any length in which objects that are not controlled may enter, when altitude and size are the same also for
absent entries. -/
theorem C152_entering_episode_partial {d : DynamicsModel α D n} (hd : ObjectByObject d) {cfg : EnvConfig} (h1 : 1 ≤ cfg.initSteps)
    (hin : cfg.allowNewObjectsAfterWarmup = true) (as : List (Fin n → Act D)) (hT : cfg.initSteps + as.length ≤ T)
    (h : SamePresent s s') (hb : ∀ i t, SameBody (s.logTrajectory i t) (s'.logTrajectory i t)) (hno : NothingControlledEnters cfg s) :
    Both SamePresent (reset cfg s >>= fun s0 => stepMany d cfg s0 as) (reset cfg s' >>= fun s0 => stepMany d cfg s0 as) := by
  have key : ∀ (as : List (Fin n → Act D)) (s s' : SimState α n T), SamePresent s s' →
      (∀ i t, SameBody (s.simTrajectory i t) (s'.simTrajectory i t)) → (cfg.initSteps : Int) ≤ s.timestep + 1 →
      s.timestep + as.length < T → NothingControlledEnters cfg s →
      (∀ i, IsControlled cfg s i → (dynIndex (s.logTrajectory i) s.timestep).valid = true →
        (dynIndex (s.simTrajectory i) s.timestep).valid = true) →
      Both SamePresent (stepMany d cfg s as) (stepMany d cfg s' as) := by
    intro as
    induction as with
    | nil => exact fun s s' h _ _ _ _ _ => .ok h
    | cons a as ih =>
      intro s s' h hb hw hlt hno hinv
      simp only [List.length_cons] at hlt
      have hlt' : s.timestep + 1 < T := by omega
      have h0 : 0 ≤ s.timestep := by omega
      have hb0 : s.timestep.toNat < T := by omega
      have hb' : s.timestep.toNat + 1 < T := by omega
      have et : ((⟨s.timestep.toNat, hb0⟩ : Fin T) : Int) = s.timestep := by simp only; omega
      have et' : ((⟨s.timestep.toNat + 1, hb'⟩ : Fin T) : Int) = s.timestep + 1 := by simp only; omega
      have hnow : ∀ i, IsControlled cfg s i → (dynIndex (s.logTrajectory i) (s.timestep + 1)).valid = true →
          (dynIndex (s.simTrajectory i) s.timestep).valid = true := by
        intro i hci hi
        refine hinv i hci ?_
        rw [dynIndex_of_eq _ et'] at hi
        rw [dynIndex_of_eq _ et]
        exact hno i hci ⟨s.timestep.toNat, hb0⟩ ⟨s.timestep.toNat + 1, hb'⟩ (by simp only; omega) rfl hi
      unfold stepMany
      have hs := C152_entering_step_partial hd (cfg := cfg) h hb (a := a) (a' := a) (fun _ _ => rfl)
        fun c hc i hci _ => hnow i ((envControlMask_iff hc h1 (by omega) i).1 hci)
      cases hst : step d cfg s a with
      | error e =>
        rw [hst] at hs
        cases hst' : step d cfg s' a with
        | error e' => rw [hst'] at hs; cases hs; exact .error
        | ok t' => rw [hst'] at hs; cases hs
      | ok t =>
        rw [hst] at hs
        cases hst' : step d cfg s' a with
        | error e' => rw [hst'] at hs; cases hs
        | ok t' =>
          rw [hst'] at hs
          have hr : SamePresent t t' ∧ ∀ i k, SameBody (t.simTrajectory i k) (t'.simTrajectory i k) := by cases hs with | ok h => exact h
          obtain ⟨m, hm, ht⟩ := step_ok hst
          have hctl : ∀ i, IsControlled cfg t i ↔ IsControlled cfg s i := by
            intro i
            rw [ht]
            unfold IsControlled
            simp only [hin, if_true]
          refine ih t t' hr.1 hr.2 (by rw [ht]; simp only; omega) (by rw [ht]; simp only; omega) ?_ ?_
          · intro i hi
            rw [hctl] at hi
            rw [ht]
            exact hno i hi
          · intro i hci hi
            rw [hctl] at hci
            rw [ht] at hi ⊢
            simp only at hi ⊢
            rw [dynIndex_of_eq _ et', forward_apply d a _ _ _ _ et et' i _, if_pos rfl]
            have hcur := hnow i hci hi
            rw [dynIndex_of_eq _ et] at hcur
            rw [dynIndex_of_eq _ et'] at hi
            change nextValid _ _ _ _ = true
            rw [hin, hcur, hi]
            cases m i <;> rfl
  have hr := reset_eq cfg s
  have hr' := reset_eq cfg s'
  have hb2 := C152_reset cfg h
  rw [hr, hr'] at hb2 ⊢
  by_cases g1 : cfg.maxNumObjects = n
  swap
  · simp only [if_neg g1]; exact .error
  · simp only [if_pos g1] at hb2 ⊢
    by_cases g2 : cfg.initSteps ≤ T
    swap
    · simp only [if_neg g2]; exact .error
    · simp only [if_pos g2] at hb2 ⊢
      have hr0 := by cases hb2 with | ok h => exact h
      refine key as _ _ hr0 ?_ (by simp) (by simp only; omega) ?_ ?_
      · intro i t
        simp only
        split
        · exact hb i t
        · exact .refl _
      · intro i hi
        refine hno i ?_
        unfold IsControlled at hi ⊢
        simpa only [hin, if_true] using hi
      · intro i _ hi
        have hb0 : cfg.initSteps - 1 < T := by omega
        have e0 : ((⟨cfg.initSteps - 1, hb0⟩ : Fin T) : Int) = (cfg.initSteps : Int) - 1 := by simp only; omega
        simp only at hi ⊢
        rw [dynIndex_of_eq _ e0] at hi ⊢
        rw [if_pos (by simp only; omega)]
        exact hi

end

end

section
variable {n T : Nat} [NeZero T] {s s' : SimState ℝ n T}

theorem SamePresent.cur (h : SamePresent s s') (i : Fin n) :
    SameIfPresent (dynIndex (s.simTrajectory i) s.timestep) (dynIndex (s'.simTrajectory i) s'.timestep) := by
  rw [h.clock]; exact h.sim i _

theorem SamePresent.curLog (h : SamePresent s s') (i : Fin n) :
    SameIfPresent (dynIndex (s.logTrajectory i) s.timestep) (dynIndex (s'.logTrajectory i) s'.timestep) := by
  rw [h.clock]; exact h.log i _

/-! ### Metrics -/

/-- `log_divergence`: a result that counts is the same. -/
theorem C152_log_divergence (h : SamePresent s s') (i : Fin n) : SameResult (logDivergenceMetric s i) (logDivergenceMetric s' i) := by
  refine ⟨by simp only [logDivergenceMetric, (h.cur i).valid, (h.curLog i).valid], fun hv => ?_⟩
  simp only [logDivergenceMetric, Bool.and_eq_true] at hv ⊢
  rw [(h.cur i).same hv.1, (h.curLog i).same hv.2]

open Classical in
/-- `overlap`: absent objects overlap with nobody, whatever their numbers say. -/
theorem C152_overlap (h : SamePresent s s') (j : Fin n) : SameResult (overlapMetric s j) (overlapMetric s' j) := by
  refine ⟨(h.cur j).valid, fun hv => ?_⟩
  change (dynIndex (s.simTrajectory j) s.timestep).valid = true at hv
  have hsum : ∀ i, (computePairwiseOverlaps (fun k => (dynIndex (s'.simTrajectory k) s'.timestep).box) i j ∧
      (dynIndex (s'.simTrajectory i) s'.timestep).valid = true) ↔
      (computePairwiseOverlaps (fun k => (dynIndex (s.simTrajectory k) s.timestep).box) i j ∧
      (dynIndex (s.simTrajectory i) s.timestep).valid = true) := by
    intro i
    rw [(C26_pairwise _ i j).1, (C26_pairwise _ i j).1, (h.cur i).valid]
    refine and_congr_left fun hi => ?_
    simp only [(h.cur i).same hi, (h.cur j).same hv]
  have hs := Finset.sum_congr rfl fun i (_ : i ∈ (Finset.univ : Finset (Fin n))) => if_congr (hsum i) (rfl : (1 : ℕ) = 1) (rfl : (0 : ℕ) = 0)
  simp only [overlapMetric, computeOverlap, hs]

theorem window2_present {x x' : Fin T → Pt ℝ} (h : ∀ t, SameIfPresent (x t) (x' t)) (k : Int) :
    SameIfPresent (window2 x k).1 (window2 x' k).1 ∧ SameIfPresent (window2 x k).2 (window2 x' k).2 := by
  unfold window2
  split
  · exact ⟨h _, h _⟩
  · exact ⟨h _, h _⟩

theorem computeInverse_present {x x' : Fin T → Pt ℝ} (h : ∀ t, SameIfPresent (x t) (x' t)) (k : Int) (dt : ℝ) :
    bicycleComputeInverse x' k dt = bicycleComputeInverse x k dt := by
  obtain ⟨h1, h2⟩ := window2_present h k
  unfold bicycleComputeInverse
  simp only [h1.valid, h2.valid]
  cases hv : (window2 x k).1.valid && (window2 x k).2.valid
  · rfl
  · rw [Bool.and_eq_true] at hv
    simp only [if_true, h1.same hv.1, h2.same hv.2]

/-- `kinematic_infeasibility`. -/
theorem C152_kinematics (K : KimParams) (h : SamePresent s s') (i : Fin n) :
    kinematicsInfeasibilityMetric K s' i = kinematicsInfeasibilityMetric K s i := by
  unfold kinematicsInfeasibilityMetric
  rw [h.clock, computeInverse_present (h.sim i)]

theorem sdcXy_present (h : SamePresent s s') {k : Fin n} (hk : IsTheSdc s k) (hv : (dynIndex (s.simTrajectory k) s.timestep).valid = true) :
    sdcXyCurrent s' = sdcXyCurrent s := by
  unfold sdcXyCurrent
  rw [h.objects]
  rw [selectByOnehot_eq _ _ k hk, selectByOnehot_eq _ _ k hk, selectByOnehot_eq _ _ k hk, selectByOnehot_eq _ _ k hk, (h.cur k).same hv]

theorem sdcValid_present (h : SamePresent s s') : sdcValidCurrent s' = sdcValidCurrent s := by
  unfold sdcValidCurrent
  rw [h.objects]
  simp only [fun i => (h.cur i).valid]

omit [NeZero T] in
theorem sdcLog_present (h : SamePresent s s') {k : Fin n} (hk : IsTheSdc s k) {t : Fin T} (hv : (s.logTrajectory k t).valid = true) :
    sdcXyLog s' t = sdcXyLog s t := by
  unfold sdcXyLog
  rw [h.objects]
  rw [selectByOnehot_eq _ _ k hk, selectByOnehot_eq _ _ k hk, selectByOnehot_eq _ _ k hk, selectByOnehot_eq _ _ k hk, (h.log k t).same hv]

/-- `sdc_wrongway`, when the SDC is present. -/
theorem C152_wrong_way_partial (h : SamePresent s s') {k : Fin n} (hk : IsTheSdc s k)
    (hv : (dynIndex (s.simTrajectory k) s.timestep).valid = true) : wrongWayMetric s' = wrongWayMetric s := by
  unfold wrongWayMetric
  rw [h.paths, sdcXy_present h hk hv]

theorem sdcValid_eq {k : Fin n} (hk : IsTheSdc s k) : sdcValidCurrent s = (dynIndex (s.simTrajectory k) s.timestep).valid := by
  unfold sdcValidCurrent
  exact selectByOnehotBool_eq _ _ k hk

/-- `sdc_off_route`, present or not. -/
theorem C152_off_route (h : SamePresent s s') {k : Fin n} (hk : IsTheSdc s k) : offRouteMetric s' = offRouteMetric s := by
  cases hv : (dynIndex (s.simTrajectory k) s.timestep).valid
  · unfold offRouteMetric
    rw [h.paths, sdcValid_present h, sdcValid_eq hk, hv]
    simp only [Bool.false_and, Bool.and_false, orInf, Bool.false_eq_true, if_false]
  · unfold offRouteMetric
    rw [h.paths, sdcXy_present h hk hv, sdcValid_present h]

/-- `sdc_progression`, when the SDC is present in the first and last step of the log. -/
theorem C152_progression_partial (h : SamePresent s s') {k : Fin n} (hk : IsTheSdc s k)
    (hv : (dynIndex (s.simTrajectory k) s.timestep).valid = true)
    (hfirst : ∀ t : Fin T, t.val = 0 → (s.logTrajectory k t).valid = true)
    (hlast : ∀ t : Fin T, t.val = T - 1 → (s.logTrajectory k t).valid = true) : progressionMetric s' = progressionMetric s := by
  unfold progressionMetric
  rw [h.paths, sdcXy_present h hk hv, sdcValid_present h, sdcLog_present h hk (hfirst ⟨0, _⟩ rfl), sdcLog_present h hk (hlast ⟨T - 1, _⟩ rfl)]

/-- `offroad`, for the objects that are present. -/
theorem C152_offroad_partial (h : SamePresent s s') :
    Both (fun r r' => ∀ i, (dynIndex (s.simTrajectory i) s.timestep).valid = true → r' i = r i) (offroadMetric s) (offroadMetric s') := by
  unfold offroadMetric
  rw [h.roadgraph]
  cases s.roadgraphPoints with
  | none => exact .error
  | some rg =>
    cases rg with
    | nil => exact .error
    | cons p rg => exact .ok fun i hi => by beta_reduce; rw [(h.cur i).same hi]

/-! ### The expert -/

theorem deltaGlobalInverse_present (P : DeltaParams) {x x' : Fin T → Pt ℝ} (h : ∀ t, SameIfPresent (x t) (x' t)) (k : Int) :
    deltaGlobalInverse P x' k = deltaGlobalInverse P x k := by
  obtain ⟨h1, h2⟩ := window2_present h k
  unfold deltaGlobalInverse
  simp only [h1.valid, h2.valid]
  cases hv : (window2 x k).1.valid && (window2 x k).2.valid
  · rfl
  · rw [Bool.and_eq_true] at hv
    simp only [if_true, h1.same hv.1, h2.same hv.2]

omit [NeZero T] in
theorem combined_present [NeZero T] (h : SamePresent s s') (i : Fin n) (t : Fin 2) :
    SameIfPresent (if t.val = 0 then dynIndex (s.simTrajectory i) s.timestep else dynIndex (s.logTrajectory i) (s.timestep + 1))
      (if t.val = 0 then dynIndex (s'.simTrajectory i) s'.timestep else dynIndex (s'.logTrajectory i) (s'.timestep + 1)) := by
  rw [h.clock]
  split
  · exact h.sim i _
  · exact h.log i _

/-- The expert's actions are the same for global displacements and for the bicycle model. -/
theorem C152_expert (h : SamePresent s s') : (∀ P, inferExpertAction s' (deltaGlobal P) = inferExpertAction s (deltaGlobal P)) ∧
    ∀ P, inferExpertAction s' (bicycle P) = inferExpertAction s (bicycle P) := by
  refine ⟨fun P => ?_, fun P => ?_⟩
  · funext i
    exact deltaGlobalInverse_present P (combined_present h i) 0
  · funext i
    simp only [inferExpertAction, bicycle, DynamicsModel.ofSingle, bicycleInverse]
    rw [computeInverse_present (combined_present h i) 0 P.dt]

/-- Local displacements: valid actions are the same, and those of the objects present now. -/
theorem C152_expert_local (P : DeltaParams) (h : SamePresent s s') (i : Fin n) :
    (inferExpertAction s' (deltaLocal P) i).valid = (inferExpertAction s (deltaLocal P) i).valid ∧
    ((dynIndex (s.simTrajectory i) s.timestep).valid = true →
      inferExpertAction s' (deltaLocal P) i = inferExpertAction s (deltaLocal P) i) := by
  simp only [inferExpertAction, deltaLocal, DynamicsModel.ofSingle, deltaLocalInverse]
  rw [deltaGlobalInverse_present P (combined_present h i) 0]
  have hc := h.cur i
  have h0 : ∀ f : Fin 2 → Pt ℝ, dynIndex f 0 = f 0 := fun f => dynIndex_of_eq f rfl
  simp only [h0, Fin.val_zero, if_true, hc.valid, true_and]
  exact fun hv => by rw [hc.same hv]

/-- State actions: the valid ones are the same. -/
theorem C152_expert_state (h : SamePresent s s') (i : Fin n) :
    (inferExpertAction s' stateDynamics i).valid = (inferExpertAction s stateDynamics i).valid ∧
    ((inferExpertAction s stateDynamics i).valid = true → inferExpertAction s' stateDynamics i = inferExpertAction s stateDynamics i) := by
  have hp := combined_present h i 1
  have h1 : ∀ f : Fin 2 → Pt ℝ, dynIndex f (0 + 1) = f 1 := fun f => dynIndex_of_eq f rfl
  simp only [inferExpertAction, stateDynamics, stateInverse, h1]
  exact ⟨hp.valid, fun hv => by rw [hp.same hv]⟩

/-! ### Rollouts -/

/-- Rollouts of an actor that does not look at the numbers of absent objects: what it records is the same up to those numbers, when
new objects are not allowed. `relM` and `relR` say what it means for metrics and rewards to be the same. -/
theorem C152_rollout_partial {D X K P M R : Type} {d : DynamicsModel ℝ D n} (hd : ObjectByObject d) {cfg : EnvConfig}
    (hcl : cfg.allowNewObjectsAfterWarmup = false) {relM : M → M → Prop} {relR : R → R → Prop}
    {metrics : SimState ℝ n T → Except Err M} (hmet : ∀ s s', SamePresent s s' → Both relM (metrics s) (metrics s'))
    {reward : SimState ℝ n T → (Fin n → Act D) → Except Err R}
    (hrew : ∀ s s' a, SamePresent s s' → Both relR (reward s a) (reward s' a))
    {A : Actor (SimState ℝ n T) (Fin n → Act D) X K P (Fin n → Bool)}
    (hinit : ∀ s s' k, SamePresent s s' → A.init k s' = A.init k s)
    (hsel : ∀ s s' p x k, SamePresent s s' → A.selectAction p s' x k = A.selectAction p s x k)
    (split : K → K × K) (params : P) (zeros : (Fin n → Act D) → Fin n → Act D) (h : SamePresent s s') (rng : K) (numSteps : Nat) :
    Both (List.Forall₂ fun e e' => e'.action = e.action ∧ SamePresent e.state e'.state ∧ SamePresent e.observation e'.observation ∧
        relM e.metrics e'.metrics ∧ relR e.reward e'.reward)
      (rollout (baseEnv d cfg metrics reward) A split params zeros s rng numSteps)
      (rollout (baseEnv d cfg metrics reward) A split params zeros s' rng numSteps) := by
  refine rollout_related (relS := SamePresent) (relA := fun a a' => a' = a) (relO := SamePresent) (relM := relM)
    (relR := relR) (relX := fun x x' => x' = x) (fun s s' k hs => hinit s s' k hs) (fun s s' x x' k hs hx => ?_)
    (C152_reset cfg h) (fun s s' a a' hs ha => ?_) (fun s s' hs => hs) hmet (fun s s' a a' hs ha => ?_)
    (fun a a' ha => congrArg zeros ha) split rng numSteps
  · subst hx
    rw [hsel s s' _ _ _ hs]
    exact ⟨rfl, rfl⟩
  · subst ha
    exact C152_step_partial hd hs (fun _ _ => rfl) fun h1 => by rw [hcl] at h1; cases h1
  · subst ha
    exact hrew s s' a' hs

/-- The expert of the bicycle model and of global displacements is such an actor. -/
theorem C152_expert_actor {K P : Type} {f : SimState ℝ n T → Fin n → Bool} (hf : ∀ s s', SamePresent s s' → f s' = f s)
    (h : SamePresent s s') (Q : DeltaParams) (B : BicycleParams) (p : P) (k : K) :
    (expertActor (K := K) (P := P) (deltaGlobal Q) f).selectAction p s' () k =
      (expertActor (K := K) (P := P) (deltaGlobal Q) f).selectAction p s () k ∧
    (expertActor (K := K) (P := P) (bicycle B) f).selectAction p s' () k =
      (expertActor (K := K) (P := P) (bicycle B) f).selectAction p s () k := by
  simp only [expertActor, (C152_expert h).1, (C152_expert h).2, hf s s' h, and_self]

/-! ### Observations -/

omit [NeZero T] in
theorem globalObservation_present (h : SamePresent s s') (K : Nat) :
    Both SameSeen (globalObservation s K) (globalObservation s' K) := by
  unfold globalObservation
  split
  · rw [h.roadgraph]
    cases s.roadgraphPoints with
    | none => exact .error
    | some rg =>
      refine .ok ⟨fun i t => ?_, ?_⟩
      · simp only [h.clock]
        exact h.sim i _
      · simp only [h.clock, h.objects, h.lights]
  · exact .error

omit [NeZero T] in
theorem SameSeen.roadgraph {K : Nat} {o o' : Obs n K} (h : SameSeen o o') : o'.roadgraph = o.roadgraph :=
  (congrArg Obs.roadgraph h.rest :)

omit [NeZero T] in
theorem withTopk_present {K : Nat} {o o' : Obs n K} (h : SameSeen o o') (e : Fin n → Bool) (ref : ℝ × ℝ) (k : Nat) :
    Both SameSeen (o.withTopk e ref k) (o'.withTopk e ref k) := by
  unfold Obs.withTopk
  rw [h.roadgraph]
  cases filterTopk o.roadgraph ref k with
  | error e => exact .error
  | ok rg =>
    refine .ok ⟨h.objects, ?_⟩
    have hr := h.rest
    cases o; cases o'
    simp only [Obs.mk.injEq] at hr ⊢
    simp [hr]

omit [NeZero T] in
theorem transform_present {K : Nat} {o o' : Obs n K} (h : SameSeen o o') (pose : Pose2D) :
    SameSeen (transformObservation o pose) (transformObservation o' pose) := by
  have hr := h.rest
  have ho := h.objects
  cases o; cases o'
  simp only [Obs.mk.injEq, true_and] at hr ho
  obtain ⟨rfl, rfl, rfl, rfl, rfl, rfl⟩ := hr
  refine ⟨fun i t => ⟨?_, (ho i t).time, fun hv => ?_⟩, rfl⟩
  · simp only [transformObservation, transformTrajectoryPt, (ho i t).valid]
  · simp only [transformObservation, transformTrajectoryPt, Bool.and_eq_true] at hv ⊢
    rw [(ho i t).same hv.1]

/-- What a present observer sees differs only in the numbers of absent objects, in the observer's frame, in the global frame, and
in the SDC's frame if the SDC is present. -/
theorem C152_observation_partial (h : SamePresent s s') (K topk : Nat) {i : Fin n} (hi : (s.currentSim i).valid = true) (frame : Frame)
    (hk : frame = .SDC → ∀ k, sdcIndex s.objectMetadata = .ok k → (s.currentSim k).valid = true) :
    Both SameSeen (observationFromState s K topk frame i) (observationFromState s' K topk frame i) := by
  have hc : s'.currentSim i = s.currentSim i := (h.cur i).same hi
  unfold observationFromState
  refine (globalObservation_present h K).bind fun g g' hg => ?_
  simp only [hc]
  refine (withTopk_present hg _ _ _).bind fun o o' ho => ?_
  cases frame with
  | OBJECT => exact .ok (transform_present ho _)
  | GLOBAL => exact .ok ho
  | SDC =>
    simp only [h.objects]
    cases hs : sdcIndex s.objectMetadata with
    | error e => exact .error
    | ok k =>
      have hck : s'.currentSim k = s.currentSim k := (h.cur k).same (hk rfl k hs)
      simp only [bind, Except.bind, hck]
      exact .ok (transform_present ho _)

/-- And what the SDC sees when it is present. -/
theorem C152_sdc_observation_partial (h : SamePresent s s') (K topk : Nat)
    (hk : ∀ k, sdcIndex s.objectMetadata = .ok k → (s.currentSim k).valid = true) (frame : Frame) :
    Both SameSeen (sdcObservationFromState s K topk frame) (sdcObservationFromState s' K topk frame) := by
  unfold sdcObservationFromState
  simp only [h.objects, h.paths]
  cases hs : sdcIndex s.objectMetadata with
  | error e => exact .error
  | ok k =>
    have hck : s'.currentSim k = s.currentSim k := (h.cur k).same (hk k hs)
    simp only [bind, Except.bind, hck]
    refine (globalObservation_present h K).bind fun g g' hg => ?_
    refine (withTopk_present hg _ _ _).bind fun o o' ho => ?_
    have ho' : ∀ p : Option (List (SdcPath ℝ)), SameSeen (match p with | none => o | some paths => { o with sdcPaths := some paths })
        (match p with | none => o' | some paths => { o' with sdcPaths := some paths }) := by
      intro p
      cases p with
      | none => exact ho
      | some ps =>
        refine ⟨ho.objects, ?_⟩
        have hr := ho.rest
        cases o; cases o'
        simp only [Obs.mk.injEq] at hr ⊢
        simp [hr]
    cases frame with
    | GLOBAL => exact .ok (ho' _)
    | OBJECT => exact .ok (transform_present (ho' _) _)
    | SDC => exact .ok (transform_present (ho' _) _)

end

/-! ### Where the numbers do have an influence -/

/-- C152, full expectation: for dynamics that treat the objects one by one, no episode depends on the numbers of absent objects. -/
def AbsentHaveNoInfluence : Prop :=
  ∀ (n T : Nat) [NeZero T] (cfg : EnvConfig) (s s' : SimState Int n T) (as : List (Fin n → Act (StateRow Int))),
    1 ≤ cfg.initSteps → cfg.initSteps + as.length ≤ T → SamePresent s s' →
    Both SamePresent (reset cfg s >>= fun s0 => stepMany stateDynamics cfg s0 as)
      (reset cfg s' >>= fun s0 => stepMany stateDynamics cfg s0 as)

/-- The scenario of the examples, whose object 1 arrives at step 2 and is 4 long; `l` is what is stored as its length before. -/
def arrival (l : Int) : SimState Int 2 4 :=
  { exScen with logTrajectory := fun i t => if i.val = 1 ∧ t.val < 2 then { exLog i t with length := l } else exLog i t }

theorem arrival_present (l : Int) : SamePresent (arrival 4) (arrival l) := by
  refine ⟨fun _ _ => .refl _, fun i t => ?_, rfl, rfl, rfl, rfl, rfl⟩
  simp only [arrival]
  split
  · rename_i h
    refine ⟨rfl, rfl, fun hv => ?_⟩
    exfalso
    simp only [exLog, exPt, decide_eq_true_eq] at hv
    omega
  · exact .refl _

/-- A new object that is not controlled gets its position from the log but keeps the length that was stored for it while it was
absent. -/
theorem C152_violated : ¬ AbsentHaveNoInfluence := by
  intro h
  have hb := h 2 4 exCfg (arrival 4) (arrival 9) [exAct true, exAct true] (by decide) (by decide) (arrival_present 9)
  have key : ∀ l, ∃ s1, (reset exCfg (arrival l) >>= fun s0 => stepMany stateDynamics exCfg s0 [exAct true, exAct true]) = .ok s1 ∧
      (s1.simTrajectory 1 2).valid = true ∧ (s1.simTrajectory 1 2).x = 12 ∧ (s1.simTrajectory 1 2).length = l :=
    fun l => ⟨_, rfl, rfl, rfl, rfl⟩
  obtain ⟨s1, h1, v1, -, l1⟩ := key 4
  obtain ⟨s2, h2, v2, -, l2⟩ := key 9
  rw [h1, h2] at hb
  cases hb with
  | ok hs =>
    have := congrArg Pt.length ((hs.sim 1 2).same v1)
    rw [l1, l2] at this
    exact absurd this (by decide)

/-- The scenario of the examples, with a recording of the SDC that ends after step 0; `x` is what is stored as its position after
that. -/
def departure (x : Int) : SimState Int 2 4 :=
  { exScen with logTrajectory := fun i t => if i.val = 0 ∧ 1 ≤ t.val then { exPt 0 false with x := x } else exLog i t }

/-- Even when new objects are not allowed, the expert of the state dynamics drives an object whose recording has ended to the
numbers stored for its absence, and it stays in the simulation there. -/
theorem C152_state_expert_leaks : SamePresent (departure 0) (departure 7) ∧
    ∀ x, ∃ s0 s1, reset { exCfg with allowNewObjectsAfterWarmup := false } (departure x) = .ok s0 ∧
      step stateDynamics { exCfg with allowNewObjectsAfterWarmup := false } s0 (inferExpertAction s0 stateDynamics) = .ok s1 ∧
      (s1.simTrajectory 0 1).valid = true ∧ (s1.simTrajectory 0 1).x = x := by
  refine ⟨⟨fun _ _ => .refl _, fun i t => ?_, rfl, rfl, rfl, rfl, rfl⟩, fun x => ⟨_, _, rfl, rfl, rfl, rfl⟩⟩
  simp only [departure]
  split
  · exact ⟨rfl, rfl, fun hv => by cases hv⟩
  · exact .refl _

/-- The hypotheses can be met: scenarios with other numbers for the absent object, in which nothing enters after two more warm-up
steps. -/
example : SamePresent (arrival 4) (arrival 9) ∧ (arrival 4).logTrajectory ≠ (arrival 9).logTrajectory ∧
    NothingEnters { exCfg with initSteps := 3 } (arrival 4) :=
  ⟨arrival_present 9, fun h => by have := congrArg (fun l => (l 1 0).length) h; revert this; decide, fun _ => by decide⟩

/-- And for an object that enters: other positions stored for its absence, the same altitude and size; only the SDC is controlled. -/
example : SamePresent exScen { exScen with logTrajectory := fun i t => { exLog i t with x := if (exLog i t).valid then (exLog i t).x else 50 } } ∧
    (∀ i t, SameBody (exScen.logTrajectory i t) { exLog i t with x := if (exLog i t).valid then (exLog i t).x else 50 }) ∧
    NothingControlledEnters exCfg exScen ∧ ¬ NothingEnters exCfg exScen :=
  ⟨⟨fun _ _ => .refl _, fun i t => ⟨rfl, rfl, fun hv => by
      change (exLog i t).valid = true at hv
      change ({ exLog i t with x := if (exLog i t).valid then (exLog i t).x else 50 } : Pt Int) = exLog i t
      rw [if_pos hv]⟩, rfl, rfl, rfl, rfl, rfl⟩, fun _ _ => ⟨rfl, rfl, rfl, rfl⟩,
    fun i hi t t' _ _ _ => by
      have h0 : i.val = 0 := by simpa [IsControlled, exCfg, exScen, exMeta] using hi
      simp [exScen, exLog, exPt, h0],
    fun h => by have := h rfl 1 1 2 (by decide) rfl (by decide); revert this; decide⟩

/-- And over the reals, for the metrics, the expert and the observations. -/
example : SamePresent { entrantScen 0 with timestep := 1 } { entrantScen 0 with
    timestep := 1, logTrajectory := fun _ t => if t = 0 then { invalidPt with x := 3 } else ptAt 0 0 0 0 0 } := by
  refine ⟨fun _ _ => .refl _, fun i t => ?_, rfl, rfl, rfl, rfl, rfl⟩
  simp only [entrantScen]
  split
  · exact ⟨rfl, rfl, fun hv => by cases hv⟩
  · exact .refl _

end Waymax
