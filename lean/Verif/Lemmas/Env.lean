import Verif.Lemmas.Array
import Verif.Spec.Episode
/- Helper lemmas about reset, step and runs. -/

namespace Waymax

section
variable {α D : Type} [ScalarOps α] {n T : Nat}

omit [ScalarOps α] in
theorem updateStateByLog_eq (s : SimState α n T) (k : Nat) :
    updateStateByLog s k =
      if h : k ≤ T then .ok { s with
        timestep := s.timestep + k
        simTrajectory := fun i => dynUpdateSlice (s.simTrajectory i)
          (dynSlice (s.logTrajectory i) (s.timestep + 1) k h) (s.timestep + 1) }
      else .error .typeError := by
  unfold updateStateByLog updateTrajBySlice
  by_cases h : k ≤ T <;> simp [h, bind, Except.bind, pure, Except.pure]

theorem reset_eq (cfg : EnvConfig) (s : SimState α n T) :
    reset cfg s = if cfg.maxNumObjects = n then
      if cfg.initSteps ≤ T then .ok { s with
        timestep := (cfg.initSteps : Int) - 1
        simTrajectory := fun i t => if t.val < cfg.initSteps then s.logTrajectory i t else invalidPt }
      else .error .typeError
    else .error .assertion := by
  unfold reset
  split
  · rw [updateStateByLog_eq]
    split
    · rename_i h
      simp only [Except.ok.injEq, SimState.mk.injEq, true_and, and_true]
      refine ⟨?_, by omega⟩
      · funext i t
        have h0 : startIdx T cfg.initSteps (-1 + 1) = 0 := by
          rw [startIdx_of_inRange] <;> omega
        simp only [dynUpdateSlice, dynSlice, fillInvalidTrajectory, h0]
        by_cases ht : t.val < cfg.initSteps
        · rw [dif_pos (by omega), if_pos ht]; congr 1; apply Fin.ext; simp
        · rw [dif_neg (by omega), if_neg ht]
    · rfl
  · rfl

variable [NeZero T]

theorem step_ok {d : DynamicsModel α D n} {cfg : EnvConfig} {s s' : SimState α n T} {a : Fin n → Act D}
    (h : step d cfg s a = .ok s') :
    ∃ m, envControlMask cfg s = .ok m ∧
      s' = { s with
        simTrajectory := d.forward a s.simTrajectory s.logTrajectory m s.timestep cfg.allowNewObjectsAfterWarmup
        timestep := s.timestep + 1 } := by
  unfold step at h
  cases hm : envControlMask cfg s with
  | error e => simp [hm, bind, Except.bind] at h
  | ok m =>
    simp only [hm, bind, Except.bind, pure, Except.pure, Except.ok.injEq] at h
    exact ⟨m, rfl, h.symm⟩

theorem stepMany_cons_ok {d : DynamicsModel α D n} {cfg : EnvConfig} {s s' : SimState α n T} {a : Fin n → Act D}
    {as : List (Fin n → Act D)} (h : stepMany d cfg s (a :: as) = .ok s') :
    ∃ s1, step d cfg s a = .ok s1 ∧ stepMany d cfg s1 as = .ok s' := by
  unfold stepMany at h
  cases hs : step d cfg s a with
  | error e => simp [hs, bind, Except.bind] at h
  | ok s1 => simp [hs, bind, Except.bind] at h; exact ⟨s1, rfl, h⟩

theorem stepMany_append_ok {d : DynamicsModel α D n} {cfg : EnvConfig} {s s' : SimState α n T}
    {as bs : List (Fin n → Act D)} (h : stepMany d cfg s (as ++ bs) = .ok s') :
    ∃ s1, stepMany d cfg s as = .ok s1 ∧ stepMany d cfg s1 bs = .ok s' := by
  induction as generalizing s with
  | nil => exact ⟨s, rfl, h⟩
  | cons a as ih =>
    obtain ⟨s1, h1, h2⟩ := stepMany_cons_ok h
    obtain ⟨s2, h3, h4⟩ := ih h2
    refine ⟨s2, ?_, h4⟩
    unfold stepMany; simp [h1, bind, Except.bind, h3]

/-- The written column of `forward`, in range. -/
theorem forward_apply (d : DynamicsModel α D n) (a : Fin n → Act D) (sim ref : Traj α n T) (m : Fin n → Bool)
    (inj : Bool) {k : Int} {t t' : Fin T} (ht : (t : Int) = k) (ht' : (t' : Int) = k + 1) (i : Fin n) (u : Fin T) :
    d.forward a sim ref m k inj i u =
      if u = t' then updatedPt false inj (m i) (d.computeUpdate a (fun j => sim j t) i) (sim i t) (ref i t')
      else sim i u := by
  unfold DynamicsModel.forward applyTrajectoryUpdate
  simp only [dynIndex_of_eq _ ht, dynIndex_of_eq _ ht']
  rw [dynUpdateSlice_one _ _ ht' u]
  rfl

theorem stepMany_timestep {d : DynamicsModel α D n} {cfg : EnvConfig} {as : List (Fin n → Act D)}
    {s s' : SimState α n T} (h : stepMany d cfg s as = .ok s') : s'.timestep = s.timestep + as.length := by
  induction as generalizing s with
  | nil => simp [stepMany] at h; simp [h]
  | cons a as ih =>
    obtain ⟨s1, h1, h2⟩ := stepMany_cons_ok h
    obtain ⟨m, -, rfl⟩ := step_ok h1
    have := ih h2
    simp only [List.length_cons] at *
    omega

theorem stepMany_same {d : DynamicsModel α D n} {cfg : EnvConfig} {as : List (Fin n → Act D)}
    {s s' : SimState α n T} (h : stepMany d cfg s as = .ok s') : SameScenario s s' := by
  induction as generalizing s with
  | nil => simp [stepMany] at h; subst h; exact ⟨rfl, rfl, rfl, rfl, rfl⟩
  | cons a as ih =>
    obtain ⟨s1, h1, h2⟩ := stepMany_cons_ok h
    obtain ⟨m, -, rfl⟩ := step_ok h1
    have := ih h2
    exact ⟨this.1, this.2, this.3, this.4, this.5⟩

theorem stepMany_frame {d : DynamicsModel α D n} {cfg : EnvConfig} {as : List (Fin n → Act D)}
    {s s' : SimState α n T} (h : stepMany d cfg s as = .ok s') (h0 : 0 ≤ s.timestep)
    (hT : s.timestep + as.length < T) (i : Fin n) (u : Fin T)
    (hu : (u : Int) ≤ s.timestep ∨ s.timestep + as.length < u) :
    s'.simTrajectory i u = s.simTrajectory i u := by
  induction as generalizing s with
  | nil => simp [stepMany] at h; simp [h]
  | cons a as ih =>
    obtain ⟨s1, h1, h2⟩ := stepMany_cons_ok h
    obtain ⟨m, -, rfl⟩ := step_ok h1
    simp only [List.length_cons] at *
    rw [ih h2 (by simp only; omega) (by simp only; omega) (by simp only; omega)]
    simp only
    have hlt : s.timestep.toNat + 1 < T := by omega
    rw [forward_apply d a _ _ m _ (t := ⟨s.timestep.toNat, by omega⟩) (t' := ⟨s.timestep.toNat + 1, hlt⟩)
      (by simp only; omega) (by simp only; omega)]
    rw [if_neg]
    intro hh
    have := congrArg Fin.val hh
    simp at this
    omega

end
end Waymax
