import Verif.Spec.Window
import Verif.Props.Episode
import Verif.Props.Delta
import Verif.Props.Metrics

/-! C179: Cutting off the beginning and the end of the log has no influence on what is played. -/

namespace Waymax
section
variable {α D : Type} [ScalarOps α] {n T T' : Nat}

/-- Resetting the cut scenario gives the cut of the reset scenario. -/
theorem C179_reset {cfg : EnvConfig} (s : SimState α n T) {m : Nat} (h : m + T' ≤ T) (hm : m < cfg.initSteps)
    (hfits : cfg.initSteps ≤ m + T') :
    reset (cfg.startingAt m) (s.window m h) = (reset cfg s).map fun r => r.window m h := by
  rw [reset_eq, reset_eq]
  by_cases hn : cfg.maxNumObjects = n
  · rw [if_pos hn, if_pos (show (cfg.startingAt m).maxNumObjects = n from hn),
      if_pos (by simp only [EnvConfig.startingAt]; omega), if_pos (by omega)]
    have hk : (cfg.startingAt m).initSteps = cfg.initSteps - m := rfl
    simp only [Except.map, SimState.window, hk, Except.ok.injEq, SimState.mk.injEq, true_and, and_true]
    refine ⟨?_, by omega⟩
    funext i t
    by_cases ht : t.val < cfg.initSteps - m
    · rw [if_pos ht, if_pos (by omega)]
    · rw [if_neg ht, if_neg (by omega)]
  · rw [if_neg hn, if_neg (show ¬ (cfg.startingAt m).maxNumObjects = n from hn)]
    rfl

variable [NeZero T] [NeZero T']

omit [ScalarOps α] in
theorem windowMask {cfg : EnvConfig} (s : SimState α n T) {m : Nat} (h : m + T' ≤ T) (hm : m < cfg.initSteps)
    (hfits : cfg.initSteps ≤ m + T') : envControlMask (cfg.startingAt m) (s.window m h) = envControlMask cfg s := by
  unfold envControlMask
  by_cases hc : cfg.controlledObject = .VALID ∧ cfg.allowNewObjectsAfterWarmup = false
  · rw [if_pos hc, if_pos (show (cfg.startingAt m).controlledObject = .VALID ∧ (cfg.startingAt m).allowNewObjectsAfterWarmup = false from hc)]
    congr 1
    funext i
    rw [dynIndex_of_eq _ (t := ⟨cfg.initSteps - m - 1, by omega⟩) (by simp only [EnvConfig.startingAt]; omega),
      dynIndex_of_eq _ (t := ⟨cfg.initSteps - 1, by omega⟩) (by simp only; omega)]
    simp only [SimState.window]
    congr 3
    omega
  · rw [if_neg hc, if_neg (show ¬ ((cfg.startingAt m).controlledObject = .VALID ∧ (cfg.startingAt m).allowNewObjectsAfterWarmup = false) from hc)]
    rfl

/-- Any actions lead to the same states: stepping the cut scenario gives the cut of the stepped scenario, as long as the cut scenario
has further steps. -/
theorem C179_steps {d : DynamicsModel α D n} {cfg : EnvConfig} {m : Nat} (h : m + T' ≤ T) (hm : m < cfg.initSteps)
    (hfits : cfg.initSteps ≤ m + T') (acts : List (Fin n → Act D)) :
    ∀ s : SimState α n T, (m : Int) ≤ s.timestep → s.timestep + acts.length < m + T' →
      stepMany d (cfg.startingAt m) (s.window m h) acts = (stepMany d cfg s acts).map fun r => r.window m h := by
  induction acts with
  | nil => exact fun s _ _ => rfl
  | cons a acts ih =>
    intro s h0 hT
    simp only [List.length_cons] at hT
    unfold stepMany step
    rw [windowMask s h hm hfits]
    cases hmask : envControlMask cfg s with
    | error e => rfl
    | ok mask =>
      simp only [bind, Except.bind, pure, Except.pure]
      rw [← ih _ (by simp only; omega) (by simp only; omega)]
      congr 1
      simp only [SimState.window, SimState.mk.injEq, true_and, and_true]
      refine ⟨?_, by omega⟩
      funext i u
      rw [forward_apply d a _ _ mask _ (t := ⟨(s.timestep - m).toNat, by omega⟩) (t' := ⟨(s.timestep - m).toNat + 1, by omega⟩)
          (by simp only; omega) (by simp only; omega),
        forward_apply d a _ _ mask _ (t := ⟨s.timestep.toNat, by omega⟩) (t' := ⟨s.timestep.toNat + 1, by omega⟩)
          (by simp only; omega) (by simp only; omega)]
      have e1 : m + (s.timestep - m).toNat = s.timestep.toNat := by omega
      have e2 : m + ((s.timestep - m).toNat + 1) = s.timestep.toNat + 1 := by omega
      simp only [Fin.ext_iff, e1, e2]
      by_cases hu : u.val = (s.timestep - m).toNat + 1
      · rw [if_pos hu, if_pos (by omega)]
        rfl
      · rw [if_neg hu, if_neg (by omega)]

/-- Whole episodes: reset and any actions. -/
theorem C179_episode (d : DynamicsModel α D n) {cfg : EnvConfig} (s : SimState α n T) {m : Nat} (h : m + T' ≤ T) (hm : m < cfg.initSteps)
    (acts : List (Fin n → Act D)) (hfits : cfg.initSteps + acts.length ≤ m + T') :
    (reset (cfg.startingAt m) (s.window m h) >>= fun r => stepMany d (cfg.startingAt m) r acts) =
      (reset cfg s >>= fun r => stepMany d cfg r acts).map fun r => r.window m h := by
  rw [C179_reset s h hm (by omega)]
  cases hr : reset cfg s with
  | error e => rfl
  | ok r =>
    have ht : r.timestep = (cfg.initSteps : Int) - 1 := (C01_reset_spec hr).1
    exact C179_steps h hm (by omega) acts r (by omega) (by omega)

end

section
variable {n T T' : Nat} [NeZero T] [NeZero T']

theorem dynIndex_window {β : Type} (x : Fin T → β) {m : Nat} (h : m + T' ≤ T) {k : Int} (h0 : (m : Int) ≤ k) (h1 : k < m + T') :
    dynIndex (fun t : Fin T' => x ⟨m + t, by omega⟩) (k - m) = dynIndex x k := by
  rw [dynIndex_of_eq _ (t := ⟨(k - m).toNat, by omega⟩) (by simp only; omega),
    dynIndex_of_eq _ (t := ⟨k.toNat, by omega⟩) (by simp only; omega)]
  refine congrArg x (Fin.ext ?_)
  simp only
  omega

/-- The metrics of the current step are those of the whole scenario, except for the progress along the route. -/
theorem C179_metrics (s : SimState ℝ n T) {m : Nat} (h : m + T' ≤ T) (h0 : (m : Int) ≤ s.timestep) (h1 : s.timestep < m + T') :
    logDivergenceMetric (s.window m h) = logDivergenceMetric s ∧ overlapMetric (s.window m h) = overlapMetric s ∧
    offroadMetric (s.window m h) = offroadMetric s ∧ wrongWayMetric (s.window m h) = wrongWayMetric s ∧
    offRouteMetric (s.window m h) = offRouteMetric s := by
  have hs : ∀ i, dynIndex ((s.window m h).simTrajectory i) (s.window m h).timestep = dynIndex (s.simTrajectory i) s.timestep :=
    fun i => dynIndex_window _ h h0 h1
  have hl : ∀ i, dynIndex ((s.window m h).logTrajectory i) (s.window m h).timestep = dynIndex (s.logTrajectory i) s.timestep :=
    fun i => dynIndex_window _ h h0 h1
  have hxy : sdcXyCurrent (s.window m h) = sdcXyCurrent s := by simp only [sdcXyCurrent, hs]; rfl
  have hv : sdcValidCurrent (s.window m h) = sdcValidCurrent s := by simp only [sdcValidCurrent, hs]; rfl
  refine ⟨?_, ?_, ?_, ?_, ?_⟩
  · funext i
    simp only [logDivergenceMetric, hs, hl]
  · simp only [overlapMetric, hs]
  · have hr : (s.window m h).roadgraphPoints = s.roadgraphPoints := rfl
    unfold offroadMetric
    rw [hr]
    split
    · rfl
    · rfl
    · refine congrArg Except.ok (funext fun i => ?_)
      rw [hs i]
  · simp only [wrongWayMetric, hxy]
    rfl
  · simp only [offRouteMetric, hxy, hv]
    rfl

theorem window2_window {β : Type} (x : Fin T → β) {m : Nat} (h : m + T' ≤ T) {k : Int} (h0 : (m : Int) ≤ k) (h1 : k + 1 < m + T') :
    window2 (fun t : Fin T' => x ⟨m + t, by omega⟩) (k - m) = window2 x k := by
  unfold window2
  rw [dif_pos (by omega), dif_pos (by omega)]
  unfold dynSlice
  have a : startIdx T' 2 (k - m) = (k - m).toNat := startIdx_of_inRange (by omega) (by omega)
  have b : startIdx T 2 k = k.toNat := startIdx_of_inRange (by omega) (by omega)
  simp only [Prod.mk.injEq]
  constructor
  all_goals
    refine congrArg x (Fin.ext ?_)
    simp only [a, b]
    omega

/-- So is the kinematic infeasibility, once the preceding step is in the cut scenario too. -/
theorem C179_kinematic (K : KimParams) (s : SimState ℝ n T) {m : Nat} (h : m + T' ≤ T) (h0 : (m : Int) + 1 ≤ s.timestep)
    (h1 : s.timestep < m + T') : kinematicsInfeasibilityMetric K (s.window m h) = kinematicsInfeasibilityMetric K s := by
  funext i
  have a : bicycleComputeInverse ((s.window m h).simTrajectory i) ((s.window m h).timestep - 1) K.dt =
      bicycleComputeInverse (s.simTrajectory i) (s.timestep - 1) K.dt := by
    have hw := window2_window (s.simTrajectory i) h (k := s.timestep - 1) (by omega) (by omega)
    have e : (s.window m h).timestep - 1 = s.timestep - 1 - m := by
      simp only [SimState.window]
      omega
    unfold bicycleComputeInverse
    rw [e]
    simp only [SimState.window, hw]
  simp only [kinematicsInfeasibilityMetric, a]

/-- The progress is the same where the cut scenario begins and ends at the same logged positions. Missing: all other cuts, see
`C179_progression_violated`. -/
theorem C179_progression_partial (s : SimState ℝ n T) {m : Nat} (h : m + T' ≤ T) (h0 : (m : Int) ≤ s.timestep) (h1 : s.timestep < m + T')
    {a a' z z' : Fin T} (ha : a.val = 0) (ha' : a'.val = m) (hz : z.val + 1 = T) (hz' : z'.val + 1 = m + T')
    (hfirst : ∀ i, (s.logTrajectory i a').x = (s.logTrajectory i a).x ∧ (s.logTrajectory i a').y = (s.logTrajectory i a).y)
    (hlast : ∀ i, (s.logTrajectory i z').x = (s.logTrajectory i z).x ∧ (s.logTrajectory i z').y = (s.logTrajectory i z).y) :
    progressionMetric (s.window m h) = progressionMetric s := by
  have hs : ∀ i, dynIndex ((s.window m h).simTrajectory i) (s.window m h).timestep = dynIndex (s.simTrajectory i) s.timestep :=
    fun i => dynIndex_window _ h h0 h1
  have hxy : sdcXyCurrent (s.window m h) = sdcXyCurrent s := by simp only [sdcXyCurrent, hs]; rfl
  have hv : sdcValidCurrent (s.window m h) = sdcValidCurrent s := by simp only [sdcValidCurrent, hs]; rfl
  have hpos : 0 < T' := Nat.pos_of_ne_zero (NeZero.ne T')
  have e0 : sdcXyLog (s.window m h) ⟨0, Nat.pos_of_ne_zero (NeZero.ne T')⟩ = sdcXyLog s ⟨0, Nat.pos_of_ne_zero (NeZero.ne T)⟩ := by
    have k1 : (⟨0, Nat.pos_of_ne_zero (NeZero.ne T)⟩ : Fin T) = a := Fin.ext ha.symm
    have k2 : ∀ p, (⟨m + 0, p⟩ : Fin T) = a' := fun p => Fin.ext ha'.symm
    simp only [sdcXyLog, SimState.window, k1, k2, hfirst]
  have e1 : sdcXyLog (s.window m h) ⟨T' - 1, Nat.sub_lt (Nat.pos_of_ne_zero (NeZero.ne T')) one_pos⟩ =
      sdcXyLog s ⟨T - 1, Nat.sub_lt (Nat.pos_of_ne_zero (NeZero.ne T)) one_pos⟩ := by
    have k1 : (⟨T - 1, Nat.sub_lt (Nat.pos_of_ne_zero (NeZero.ne T)) one_pos⟩ : Fin T) = z := Fin.ext (by simp only; omega)
    have k2 : ∀ p, (⟨m + (T' - 1), p⟩ : Fin T) = z' := fun p => Fin.ext (by simp only; omega)
    simp only [sdcXyLog, SimState.window, k1, k2, hlast]
  unfold progressionMetric
  rw [hxy, hv, e0, e1]
  rfl

end

/-- The SDC drives 10 m per step along `exPath` and is at the second of three steps. -/
def progressScen : SimState ℝ 1 3 :=
  { simTrajectory := fun _ t => parked (10 * (t.val : ℝ)) 0 true
    logTrajectory := fun _ t => parked (10 * (t.val : ℝ)) 0 true
    logTrafficLight := []
    objectMetadata := fun _ => ⟨0, 1, true, true, true, false, false⟩
    timestep := 1, sdcPaths := some [exPath], roadgraphPoints := none }

/-- Halfway along its log, the SDC has made half of the progress; without the first step of the log it has made none. -/
theorem C179_progression_violated : ¬ ProgressOfWindow 1 3 2 := by
  intro H
  have e := H progressScen 1 (by omega) (by decide) (by decide)
  have hk : IsTheSdc progressScen 0 := fun i => by simp [progressScen, Fin.eq_zero]
  have hk' : IsTheSdc (progressScen.window 1 (T' := 2) (by omega)) 0 := fun i => by simp [progressScen, SimState.window, Fin.eq_zero]
  have hne : ∃ path ∈ [exPath], path.points ≠ [] := ⟨exPath, by simp, by simp [exPath]⟩
  obtain ⟨r, hr, hv, -, hval⟩ := C39_progression_exact hk (t := 1) rfl rfl hne (first := 0) (last := 2) rfl rfl
  have hvalid : r.valid = true := hv.2 ⟨rfl, _, exPath, by simp, rfl, ⟨0, 0, 0, 1, true, 0⟩, by simp [exPath], rfl, rfl⟩
  obtain ⟨path, pc, ps, pe, ⟨k, d, hkk, -⟩, hc, hs, he, hrv⟩ := hval hvalid
  have hpath : path = exPath := by simpa using List.mem_of_getElem? hkk
  subst hpath
  have e0 := exPath_nearest 0
  have e1 := exPath_nearest 1
  have e2 := exPath_nearest 2
  norm_num at e0 e1 e2
  have hs' := hs.unique (q := ⟨0, 0, 0, 1, true, 0⟩) (by simpa [progressScen, parked] using e0)
  have hc' := hc.unique (q := ⟨10, 0, 0, 1, true, 10⟩) (by simpa [progressScen, parked] using e1)
  have he' := he.unique (q := ⟨20, 0, 0, 1, true, 20⟩) (by norm_num [progressScen, parked]; exact e2)
  subst hc' hs' he'
  rw [hr] at e
  have := (C39_start_and_end hk' (t := 0) rfl rfl hne (first := 0) (last := 1) rfl rfl e hvalid).2 rfl rfl
  rw [hrv] at this
  norm_num at this

/-- The hypotheses are met: the moving scenario of C64, without its first step. -/
example : ∃ r, (reset { driveCfg with initSteps := 2 } driveScen >>= fun r => stepMany (deltaGlobal {}) { driveCfg with initSteps := 2 } r
      [fun _ => { data := ⟨1, 0, 0⟩, valid := true }]) = .ok r ∧
    (reset { driveCfg with initSteps := 1 } (driveScen.window 1 (T' := 3) (by omega)) >>= fun r =>
      stepMany (deltaGlobal {}) { driveCfg with initSteps := 1 } r [fun _ => { data := ⟨1, 0, 0⟩, valid := true }]) =
      .ok (r.window 1 (by omega)) := by
  have h := C179_episode (deltaGlobal {}) (cfg := { driveCfg with initSteps := 2 }) driveScen (m := 1) (T' := 3) (by omega) (by decide)
    [fun _ => { data := ⟨1, 0, 0⟩, valid := true }] (by decide)
  obtain ⟨s0, h0⟩ : ∃ s0, reset { driveCfg with initSteps := 2 } driveScen = .ok s0 := ⟨_, rfl⟩
  obtain ⟨r, hr⟩ := stepMany_exists (deltaGlobal {}) { driveCfg with initSteps := 2 } s0 [fun _ => { data := ⟨1, 0, 0⟩, valid := true }]
    (by decide)
  refine ⟨r, by rw [h0]; exact hr, h.trans ?_⟩
  rw [h0]
  change (stepMany _ _ s0 _).map _ = _
  rw [hr]
  rfl

end Waymax
