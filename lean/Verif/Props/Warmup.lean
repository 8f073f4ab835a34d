import Verif.Spec.Warmup
import Verif.Props.Rollout
import Verif.Examples
/-
C188: a longer warm-up against replaying the same steps with the expert.
-/

namespace Waymax

section
variable {α D : Type} [ScalarOps α] {n T : Nat}

/-- The state after a warm-up of `w` steps. -/
def warmedUp (w : Nat) (s : SimState α n T) : SimState α n T :=
  { s with timestep := (w : Int) - 1, simTrajectory := fun i t => if t.val < w then s.logTrajectory i t else invalidPt }

theorem reset_warmedUp {cfg : EnvConfig} (hc : cfg.maxNumObjects = n) (hT : cfg.initSteps ≤ T) (s : SimState α n T) :
    reset cfg s = .ok (warmedUp cfg.initSteps s) := by
  rw [reset_eq, if_pos hc, if_pos hT]; rfl

variable [NeZero T]

omit [ScalarOps α] in
/-- Expert actions move every object, controlled or not, to its logged pose. -/
theorem expert_updatedPt [ScalarOps α] (s : SimState α n T) {t t' : Fin T} (ht' : (t' : Int) = s.timestep + 1)
    (inj c : Bool) (i : Fin n) :
    updatedPt false inj c (stateDynamics.computeUpdate (inferExpertAction s stateDynamics) (fun j => s.simTrajectory j t) i)
      (s.simTrajectory i t) (s.logTrajectory i t') =
    { s.logTrajectory i t' with
      z := (s.simTrajectory i t).z, length := (s.simTrajectory i t).length, width := (s.simTrajectory i t).width,
      height := (s.simTrajectory i t).height
      valid := nextValid inj c (s.simTrajectory i t).valid (s.logTrajectory i t').valid } := by
  have h := expert_update s i
  rw [dynIndex_of_eq _ ht'] at h
  change updatedPt false inj c (stateUpdate (inferExpertAction s stateDynamics i)) _ _ = _
  rw [h]
  unfold updatedPt newField
  simp

/-- What one expert step does. -/
theorem expert_step {cfg : EnvConfig} {s s' : SimState α n T}
    (h : step stateDynamics cfg s (inferExpertAction s stateDynamics) = .ok s') {t t' : Fin T} (ht : (t : Int) = s.timestep)
    (ht' : (t' : Int) = s.timestep + 1) : ∃ m : Fin n → Bool, s' = { s with
      timestep := s.timestep + 1
      simTrajectory := fun i u => if u = t' then { s.logTrajectory i t' with
        z := (s.simTrajectory i t).z, length := (s.simTrajectory i t).length, width := (s.simTrajectory i t).width,
        height := (s.simTrajectory i t).height
        valid := nextValid cfg.allowNewObjectsAfterWarmup (m i) (s.simTrajectory i t).valid (s.logTrajectory i t').valid }
        else s.simTrajectory i u } := by
  obtain ⟨m, -, rfl⟩ := step_ok h
  refine ⟨m, ?_⟩
  congr 1
  funext i u
  rw [forward_apply _ _ _ _ _ _ ht ht', expert_updatedPt s ht']

theorem step_nonSdc (d : DynamicsModel α D n) {cfg : EnvConfig} (hc : cfg.controlledObject ≠ .NON_SDC) (s : SimState α n T)
    (a : Fin n → Act D) : ∃ s', step d cfg s a = .ok s' := step_exists d cfg s a hc

/-- One expert step of a steady log is one more step of warm-up. -/
theorem expert_step_steady {cfg : EnvConfig} (hc : cfg.controlledObject ≠ .NON_SDC) {s : SimState α n T} {w : Nat} (hw : 1 ≤ w)
    (hT : w < T) (hs : SteadyLog s (w - 1) w) :
    step stateDynamics cfg (warmedUp w s) (inferExpertAction (warmedUp w s) stateDynamics) = .ok (warmedUp (w + 1) s) := by
  obtain ⟨s', hs'⟩ := step_nonSdc stateDynamics hc (warmedUp w s) (inferExpertAction (warmedUp w s) stateDynamics)
  rw [hs']
  obtain ⟨m, rfl⟩ := expert_step hs' (t := ⟨w - 1, by omega⟩) (t' := ⟨w, hT⟩) (by simp only [warmedUp]; omega)
    (by simp only [warmedUp]; omega)
  congr 1
  unfold warmedUp
  simp only [SimState.mk.injEq, true_and, and_true]
  refine ⟨?_, by omega⟩
  funext i u
  have hlt : w - 1 < w := by omega
  simp only [hlt, if_true]
  obtain ⟨h1, h2, h3, h4, h5⟩ := hs i ⟨w - 1, by omega⟩ ⟨w, hT⟩ rfl (by simp only; omega) (Nat.le_refl _)
  by_cases hu : u = ⟨w, hT⟩
  · rw [if_pos hu, if_pos (by rw [hu]; simp only; omega), hu]
    have hv : nextValid cfg.allowNewObjectsAfterWarmup (m i) (s.logTrajectory i ⟨w - 1, by omega⟩).valid
        (s.logTrajectory i ⟨w, hT⟩).valid = (s.logTrajectory i ⟨w, hT⟩).valid := by
      rw [h5]
      unfold nextValid
      cases cfg.allowNewObjectsAfterWarmup <;> cases m i <;> cases (s.logTrajectory i ⟨w - 1, by omega⟩).valid <;> rfl
    rw [hv, ← h1, ← h2, ← h3, ← h4]
  · rw [if_neg hu]
    have hne : u.val ≠ w := fun h => hu (Fin.ext h)
    by_cases hlt' : u.val < w
    · rw [if_pos hlt', if_pos (by omega)]
    · rw [if_neg hlt', if_neg (by omega)]

theorem expertRun_steady {cfg : EnvConfig} (hc : cfg.controlledObject ≠ .NON_SDC) {s : SimState α n T} (k : Nat) {w : Nat}
    (hw : 1 ≤ w) (hT : w + k ≤ T) (hs : SteadyLog s (w - 1) (w + k - 1)) :
    expertRun cfg k (warmedUp w s) = .ok (warmedUp (w + k) s) := by
  induction k generalizing w with
  | zero => rfl
  | succ k ih =>
    unfold expertRun
    rw [expert_step_steady hc hw (by omega) fun i t0 t h0 h1 h2 => hs i t0 t h0 h1 (by omega)]
    have := ih (w := w + 1) (by omega) (by omega) (by
      intro i t0 t h0 h1 h2
      have hb : w - 1 < T := by omega
      obtain ⟨a1, a2, a3, a4, a5⟩ := hs i ⟨w - 1, hb⟩ t rfl (by omega) (by omega)
      obtain ⟨b1, b2, b3, b4, b5⟩ := hs i ⟨w - 1, hb⟩ t0 rfl (by omega) (by omega)
      exact ⟨a1.trans b1.symm, a2.trans b2.symm, a3.trans b3.symm, a4.trans b4.symm, a5.trans b5.symm⟩)
    rw [show w + (k + 1) = w + 1 + k by omega]
    exact this

/-- What holds: if z, size and presence of all objects are logged unchanged over the extra steps, a longer warm-up gives exactly
the state that replaying gives. Missing: logs in which they change (`C188_violated`, `C188_presence_violated`). -/
theorem C188_warmup_partial {cfg : EnvConfig} (hn : cfg.maxNumObjects = n) (hc : cfg.controlledObject ≠ .NON_SDC)
    {s : SimState α n T} {k : Nat} (hw : 1 ≤ cfg.initSteps) (hT : cfg.initSteps + k ≤ T)
    (hs : SteadyLog s (cfg.initSteps - 1) (cfg.initSteps + k - 1)) :
    reset (cfg.warmedBy k) s = (reset cfg s >>= expertRun cfg k) := by
  rw [reset_warmedUp (cfg := cfg.warmedBy k) hn hT, reset_warmedUp hn (by omega)]
  exact (expertRun_steady hc k hw hT hs).symm

/-- And the episodes that follow are the same, for all actions, any dynamics model and any number of steps. -/
theorem C188_future_partial (d : DynamicsModel α D n) {cfg : EnvConfig} (hn : cfg.maxNumObjects = n)
    (hc : cfg.controlledObject ≠ .NON_SDC) {s : SimState α n T} {k : Nat} (hw : 1 ≤ cfg.initSteps)
    (hT : cfg.initSteps + k ≤ T) (hs : SteadyLog s (cfg.initSteps - 1) (cfg.initSteps + k - 1)) (as : List (Fin n → Act D))
    (hfit : cfg.initSteps + k + as.length ≤ T) :
    (reset (cfg.warmedBy k) s >>= fun s0 => stepMany d (cfg.warmedBy k) s0 as) =
      (reset cfg s >>= fun s0 => expertRun cfg k s0 >>= fun s1 => stepMany d cfg s1 as) := by
  rw [reset_warmedUp (cfg := cfg.warmedBy k) hn hT, reset_warmedUp hn (by omega)]
  change stepMany d (cfg.warmedBy k) (warmedUp (cfg.initSteps + k) s) as =
    (expertRun cfg k (warmedUp cfg.initSteps s) >>= fun s1 => stepMany d cfg s1 as)
  rw [expertRun_steady hc k hw hT hs]
  change stepMany d (cfg.warmedBy k) (warmedUp (cfg.initSteps + k) s) as = stepMany d cfg (warmedUp (cfg.initSteps + k) s) as
  -- in all later states the objects present at the two warm-up ends are the same
  have key : ∀ (as : List (Fin n → Act D)) (x : SimState α n T), (cfg.initSteps : Int) + k ≤ x.timestep + 1 →
      x.timestep + as.length < T →
      (∀ i (t : Fin T), t.val < cfg.initSteps + k → x.simTrajectory i t = s.logTrajectory i t) →
      stepMany d (cfg.warmedBy k) x as = stepMany d cfg x as := by
    intro as
    induction as with
    | nil => intro x _ _ _; rfl
    | cons a as ih =>
      intro x hx hfit hsim
      have hmask : envControlMask (cfg.warmedBy k) x = envControlMask cfg x := by
        unfold envControlMask
        change (if cfg.controlledObject = .VALID ∧ cfg.allowNewObjectsAfterWarmup = false then
          Except.ok (fun i => dynIndex (fun t => (x.simTrajectory i t).valid) (((cfg.initSteps + k : Nat) : Int) - 1))
          else getControlMask x.objectMetadata cfg.controlledObject) = _
        split
        · congr 1
          funext i
          rw [dynIndex_of_eq _ (t := ⟨cfg.initSteps + k - 1, by omega⟩) (by simp only; omega),
            dynIndex_of_eq _ (t := ⟨cfg.initSteps - 1, by omega⟩) (by simp only; omega),
            hsim i _ (by simp only; omega), hsim i _ (by simp only; omega)]
          exact (hs i ⟨cfg.initSteps - 1, by omega⟩ ⟨cfg.initSteps + k - 1, by omega⟩ rfl (by simp only; omega)
            (by simp only; omega)).2.2.2.2
        · rfl
      have hstep : step d (cfg.warmedBy k) x a = step d cfg x a := by
        unfold step
        rw [hmask]
        rfl
      unfold stepMany
      rw [hstep]
      cases h1 : step d cfg x a with
      | error e => rfl
      | ok x1 =>
        obtain ⟨m, -, rfl⟩ := step_ok h1
        simp only [List.length_cons] at hfit
        refine ih _ (by simp only; omega) (by simp only; push_cast at hfit; omega) ?_
        intro i t ht
        have h0 : 0 ≤ x.timestep := by omega
        obtain ⟨p, hp⟩ := Int.eq_ofNat_of_zero_le h0
        simp only
        rw [forward_apply d a _ _ m _ (k := x.timestep) (t := ⟨p, by omega⟩) (t' := ⟨p + 1, by omega⟩) (by simp only; omega)
          (by simp only; omega) i t, if_neg (by intro h; have := congrArg Fin.val h; simp only at this; omega)]
        exact hsim i t ht
  refine key as _ (by simp only [warmedUp]; omega) (by simp only [warmedUp]; omega) ?_
  intro i t ht
  simp only [warmedUp, if_pos ht]

/-- Without that assumption: replaying gives the poses, the velocities and the time stamps of the longer warm-up, at the same
clock; z and the sizes stay those of the last step of the short warm-up. -/
theorem C188_replay {cfg : EnvConfig} {s s1 s2 : SimState α n T} {k : Nat} (hw : 1 ≤ cfg.initSteps)
    (hT : cfg.initSteps + k ≤ T) (h1 : reset (cfg.warmedBy k) s = .ok s1) (h2 : (reset cfg s >>= expertRun cfg k) = .ok s2) :
    s2.timestep = s1.timestep ∧ s2.logTrajectory = s1.logTrajectory ∧ s2.objectMetadata = s1.objectMetadata ∧
    s2.roadgraphPoints = s1.roadgraphPoints ∧ s2.sdcPaths = s1.sdcPaths ∧ s2.logTrafficLight = s1.logTrafficLight ∧
    (∀ i t, SameReplay (s2.simTrajectory i t) (s1.simTrajectory i t)) ∧
    (∀ i (t : Fin T), t.val < cfg.initSteps ∨ cfg.initSteps + k ≤ t.val → s2.simTrajectory i t = s1.simTrajectory i t) ∧
    ∀ i (t0 t : Fin T), t0.val + 1 = cfg.initSteps → t0.val ≤ t.val → t.val < cfg.initSteps + k →
      (s2.simTrajectory i t).z = (s.logTrajectory i t0).z ∧ (s2.simTrajectory i t).length = (s.logTrajectory i t0).length ∧
      (s2.simTrajectory i t).width = (s.logTrajectory i t0).width ∧
      (s2.simTrajectory i t).height = (s.logTrajectory i t0).height := by
  have hn : cfg.maxNumObjects = n := by
    refine Decidable.byContradiction fun hne => ?_
    rw [reset_eq, if_neg (show ¬ (cfg.warmedBy k).maxNumObjects = n from hne)] at h1
    cases h1
  rw [reset_warmedUp (cfg := cfg.warmedBy k) hn hT] at h1
  cases h1
  rw [reset_warmedUp hn (by omega)] at h2
  change expertRun cfg k (warmedUp cfg.initSteps s) = .ok s2 at h2
  change s2.timestep = (warmedUp (cfg.initSteps + k) s).timestep ∧ s2.logTrajectory = s.logTrajectory ∧
    s2.objectMetadata = s.objectMetadata ∧ s2.roadgraphPoints = s.roadgraphPoints ∧ s2.sdcPaths = s.sdcPaths ∧
    s2.logTrafficLight = s.logTrafficLight ∧
    (∀ i t, SameReplay (s2.simTrajectory i t) ((warmedUp (cfg.initSteps + k) s).simTrajectory i t)) ∧
    (∀ i (t : Fin T), t.val < cfg.initSteps ∨ cfg.initSteps + k ≤ t.val →
      s2.simTrajectory i t = (warmedUp (cfg.initSteps + k) s).simTrajectory i t) ∧ _
  -- the invariant after `a` steps
  let Inv : Nat → SimState α n T → Prop := fun a x =>
    x.timestep = (warmedUp (cfg.initSteps + a) s).timestep ∧ x.logTrajectory = s.logTrajectory ∧
    x.objectMetadata = s.objectMetadata ∧ x.roadgraphPoints = s.roadgraphPoints ∧ x.sdcPaths = s.sdcPaths ∧
    x.logTrafficLight = s.logTrafficLight ∧
    (∀ i t, SameReplay (x.simTrajectory i t) ((warmedUp (cfg.initSteps + a) s).simTrajectory i t)) ∧
    (∀ i (t : Fin T), t.val < cfg.initSteps ∨ cfg.initSteps + a ≤ t.val →
      x.simTrajectory i t = (warmedUp (cfg.initSteps + a) s).simTrajectory i t) ∧
    ∀ i (t0 t : Fin T), t0.val + 1 = cfg.initSteps → t0.val ≤ t.val → t.val < cfg.initSteps + a →
      (x.simTrajectory i t).z = (s.logTrajectory i t0).z ∧ (x.simTrajectory i t).length = (s.logTrajectory i t0).length ∧
      (x.simTrajectory i t).width = (s.logTrajectory i t0).width ∧ (x.simTrajectory i t).height = (s.logTrajectory i t0).height
  have main : ∀ (b a : Nat) (x y : SimState α n T), cfg.initSteps + a + b ≤ T → Inv a x → expertRun cfg b x = .ok y →
      Inv (a + b) y := by
    intro b
    induction b with
    | zero =>
      intro a x y _ hx hy
      cases hy
      exact hx
    | succ b ih =>
      intro a x y hfit hx hy
      unfold expertRun at hy
      cases hst : step stateDynamics cfg x (inferExpertAction x stateDynamics) with
      | error e => rw [hst] at hy; cases hy
      | ok x1 =>
        rw [hst] at hy
        replace hy : expertRun cfg b x1 = .ok y := hy
        obtain ⟨e1, e2, e3, e4, e5, e6, e7, e8, e9⟩ := hx
        have hts : x.timestep = ((cfg.initSteps + a : Nat) : Int) - 1 := e1
        obtain ⟨m, rfl⟩ := expert_step hst (t := ⟨cfg.initSteps + a - 1, by omega⟩) (t' := ⟨cfg.initSteps + a, by omega⟩)
          (by simp only; omega) (by simp only; omega)
        rw [show a + (b + 1) = a + 1 + b by omega]
        refine ih (a + 1) _ y (by omega) ?_ hy
        refine ⟨?_, e2, e3, e4, e5, e6, ?_, ?_, ?_⟩
        · simp only [warmedUp]; omega
        · intro i t
          simp only [warmedUp]
          by_cases ht : t = ⟨cfg.initSteps + a, by omega⟩
          · rw [if_pos ht, if_pos (by rw [ht]; simp only; omega), e2, ht]
            exact ⟨rfl, rfl, rfl, rfl, rfl, rfl⟩
          · rw [if_neg ht]
            have hne : t.val ≠ cfg.initSteps + a := fun h => ht (Fin.ext h)
            have := e7 i t
            simp only [warmedUp] at this
            by_cases hlt : t.val < cfg.initSteps + a
            · rw [if_pos hlt] at this; rw [if_pos (by omega)]; exact this
            · rw [if_neg hlt] at this; rw [if_neg (by omega)]; exact this
        · intro i t ht
          have hne : t ≠ ⟨cfg.initSteps + a, by omega⟩ := by
            intro h
            have := congrArg Fin.val h
            simp only at this
            omega
          simp only [warmedUp]
          rw [if_neg hne]
          have := e8 i t (by omega)
          simp only [warmedUp] at this
          rw [this]
          by_cases hlt : t.val < cfg.initSteps + a
          · rw [if_pos hlt, if_pos (by omega)]
          · rw [if_neg hlt, if_neg (by omega)]
        · intro i t0 t h0 h1 h2
          simp only
          by_cases ht : t = ⟨cfg.initSteps + a, by omega⟩
          · rw [if_pos ht]
            exact e9 i t0 ⟨cfg.initSteps + a - 1, by omega⟩ h0 (by simp only; omega) (by simp only; omega)
          · rw [if_neg ht]
            have hne : t.val ≠ cfg.initSteps + a := fun h => ht (Fin.ext h)
            exact e9 i t0 t h0 h1 (by omega)
  have h0 : Inv 0 (warmedUp cfg.initSteps s) := by
    refine ⟨rfl, rfl, rfl, rfl, rfl, rfl, fun i t => ⟨rfl, rfl, rfl, rfl, rfl, rfl⟩, fun i t _ => rfl, ?_⟩
    intro i t0 t h0 h1 h2
    have : t = t0 := Fin.ext (by omega)
    subst this
    simp [warmedUp, if_pos (show t.val < cfg.initSteps by omega)]
  have := main k 0 _ s2 (by omega) h0 h2
  rw [Nat.zero_add] at this
  exact this

end

/-! ### The claims are violated -/

/-- The example's objects drive uphill: after the longer warm-up they are higher than after replaying. -/
theorem C188_violated : ¬ WarmupIsReplay Int 2 4 := by
  intro h
  have h1 := h exCfg exScen 1 rfl (by decide) (by decide) (by decide)
  have hreset : reset (exCfg.warmedBy 1) exScen = .ok (warmedUp 2 exScen) :=
    reset_warmedUp (cfg := exCfg.warmedBy 1) rfl (by decide) exScen
  obtain ⟨s2, hs2⟩ : ∃ s2, (reset exCfg exScen >>= expertRun exCfg 1) = .ok s2 := ⟨_, rfl⟩
  have h2 := (C188_replay (cfg := exCfg) (k := 1) (by decide) (by decide) hreset hs2).2.2.2.2.2.2.2.2
    0 0 1 rfl (by decide) (by decide)
  rw [hs2, hreset] at h1
  have h3 := Except.ok.inj h1
  rw [← h3] at h2
  exact absurd h2.1 (by decide)

/-- Without injection an object that enters during the extra steps is taken over by the longer warm-up, and is missing after
replaying: object 1 of the example enters at step 2. -/
theorem C188_presence_violated : ¬ WarmupKeepsPresence Int 2 4 := by
  intro h
  have h1 := h { exCfg with initSteps := 2, allowNewObjectsAfterWarmup := false } exScen (warmedUp 3 exScen) _ 1 (by decide)
    (by decide) (reset_warmedUp (n := 2) (cfg := { exCfg with initSteps := 3, allowNewObjectsAfterWarmup := false }) rfl
      (by decide) exScen) rfl 1 2 rfl
  revert h1
  decide

/-! ### The hypotheses are met -/

/-- A log of two objects driving on the flat. -/
def flatScen : SimState Int 2 4 :=
  { exScen with logTrajectory := fun i t => { exLog i t with z := 0, valid := true } }

example : SteadyLog flatScen 0 2 ∧ exCfg.maxNumObjects = 2 ∧ exCfg.initSteps + 2 ≤ 4 :=
  ⟨fun _ _ _ _ _ _ => ⟨rfl, rfl, rfl, rfl, rfl⟩, rfl, by decide⟩

/-- The objects do move. -/
example : (flatScen.logTrajectory 0 0).x ≠ (flatScen.logTrajectory 0 2).x := by decide

end Waymax
