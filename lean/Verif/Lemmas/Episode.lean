import Verif.Lemmas.Env
/- Helper lemmas about episodes: constant control mask and the recurrence satisfied by the simulated trajectory. -/

namespace Waymax

section
variable {α D : Type} [ScalarOps α] {n T : Nat} [NeZero T]

omit [ScalarOps α] in
theorem envControlMask_iff {cfg : EnvConfig} {s : SimState α n T} {m : Fin n → Bool}
    (h : envControlMask cfg s = .ok m) (h1 : 1 ≤ cfg.initSteps) (hT : cfg.initSteps ≤ T) (i : Fin n) :
    m i = true ↔ IsControlled cfg s i := by
  unfold envControlMask at h
  unfold IsControlled
  obtain ⟨mx, k, ty, al⟩ := cfg
  simp only at *
  have key : ∀ t : Fin T, (t.val + 1 = k) →
      (dynIndex (fun t => (s.simTrajectory i t).valid) ((k : Int) - 1) = (s.simTrajectory i t).valid) := by
    intro t ht
    rw [dynIndex_of_eq _ (t := t)]
    omega
  cases ty <;> cases al <;> simp [getControlMask] at h ⊢ <;> subst h
  all_goals first
    | rfl
    | skip
  simp only
  constructor
  · intro hv
    refine ⟨⟨k - 1, by omega⟩, by simp only; omega, ?_⟩
    rwa [key ⟨k - 1, by omega⟩ (by simp only; omega)] at hv
  · rintro ⟨t, ht, hv⟩
    rw [key t ht]; exact hv

omit [ScalarOps α] [NeZero T] in
theorem isControlled_congr {cfg : EnvConfig} {s s' : SimState α n T} (hm : s'.objectMetadata = s.objectMetadata)
    (hs : ∀ i (t : Fin T), t.val + 1 = cfg.initSteps → s'.simTrajectory i t = s.simTrajectory i t) (i : Fin n) :
    IsControlled cfg s' i ↔ IsControlled cfg s i := by
  unfold IsControlled
  rw [hm]
  split <;> try rfl
  split
  · rfl
  · constructor
    · rintro ⟨t, ht, hv⟩; exact ⟨t, ht, by rwa [hs i t ht] at hv⟩
    · rintro ⟨t, ht, hv⟩; exact ⟨t, ht, by rwa [hs i t ht]⟩

theorem Episode.reset_data {d : DynamicsModel α D n} {cfg : EnvConfig} {scen s0 s1 : SimState α n T}
    {acts : List (Fin n → Act D)} (E : Episode d cfg scen s0 acts s1) :
    s0 = { scen with
        timestep := (cfg.initSteps : Int) - 1
        simTrajectory := fun i t => if t.val < cfg.initSteps then scen.logTrajectory i t else invalidPt } := by
  have h := E.start
  have hf := E.fits
  rw [reset_eq] at h
  split at h
  · rw [if_pos (by omega)] at h
    exact (Except.ok.inj h).symm
  · cases h

theorem Episode.prefix {d : DynamicsModel α D n} {cfg : EnvConfig} {scen s0 s1 : SimState α n T}
    {as bs : List (Fin n → Act D)} (E : Episode d cfg scen s0 (as ++ bs) s1) :
    ∃ sm, Episode d cfg scen s0 as sm ∧ stepMany d cfg sm bs = .ok s1 := by
  obtain ⟨sm, h1, h2⟩ := stepMany_append_ok E.run
  have := E.fits
  rw [List.length_append] at this
  exact ⟨sm, ⟨E.start, h1, E.warm, by omega⟩, h2⟩

theorem Episode.timestep_eq {d : DynamicsModel α D n} {cfg : EnvConfig} {scen s0 s1 : SimState α n T}
    {acts : List (Fin n → Act D)} (E : Episode d cfg scen s0 acts s1) :
    s1.timestep = (cfg.initSteps : Int) - 1 + acts.length := by
  rw [stepMany_timestep E.run, E.reset_data]

theorem Episode.isControlled_iff {d : DynamicsModel α D n} {cfg : EnvConfig} {scen s0 s1 : SimState α n T}
    {acts : List (Fin n → Act D)} (E : Episode d cfg scen s0 acts s1) (i : Fin n) :
    IsControlled cfg s1 i ↔ IsControlled cfg s0 i := by
  have h0 : s0.timestep = (cfg.initSteps : Int) - 1 := by rw [E.reset_data]
  have hw := E.warm
  have hf := E.fits
  apply isControlled_congr (stepMany_same E.run).objects
  intro j t ht
  exact stepMany_frame E.run (by omega) (by omega) j t (Or.inl (by omega))

/-- The final trajectory of an episode satisfies the step recurrence at every simulated step, with one control mask. -/
theorem Episode.recurrence {d : DynamicsModel α D n} {cfg : EnvConfig} {scen s0 s1 : SimState α n T}
    {acts : List (Fin n → Act D)} (E : Episode d cfg scen s0 acts s1)
    {k : Nat} (hk : k < acts.length) {t t' : Fin T} (ht : t.val + 1 = cfg.initSteps + k)
    (ht' : t'.val = cfg.initSteps + k) (i : Fin n) :
    ∃ c : Bool, (c = true ↔ IsControlled cfg s0 i) ∧
    s1.simTrajectory i t' = updatedPt false cfg.allowNewObjectsAfterWarmup c
      (d.computeUpdate acts[k] (fun j => s1.simTrajectory j t) i) (s1.simTrajectory i t)
      (scen.logTrajectory i t') := by
  have hsplit : acts = acts.take k ++ acts[k] :: acts.drop (k + 1) := by simp
  have hw := E.warm
  have hf := E.fits
  have hfull := E
  rw [hsplit] at E
  obtain ⟨sm, Em, hrest⟩ := E.prefix
  have hlenk : (acts.take k).length = k := by simp; omega
  have htm := Em.timestep_eq
  rw [hlenk] at htm
  obtain ⟨sn, hstep, hrun⟩ := stepMany_cons_ok hrest
  obtain ⟨m, hm, rfl⟩ := step_ok hstep
  refine ⟨m i, ?_, ?_⟩
  · rw [envControlMask_iff hm hw (by omega), Em.isControlled_iff]
  · have hdrop : (acts.drop (k + 1)).length = acts.length - (k + 1) := by simp
    have hfr := fun j (u : Fin T) (hu : u.val ≤ cfg.initSteps + k) => stepMany_frame hrun (by simp only; omega)
      (by simp only [hdrop]; omega) j u (Or.inl (by simp only; omega))
    rw [hfr i t' (by omega)]
    have hlog : sm.logTrajectory = scen.logTrajectory := by
      rw [(stepMany_same Em.run).log, Em.reset_data]
    simp only
    rw [forward_apply d _ _ _ m _ (t := t) (t' := t') (by omega) (by omega), if_pos rfl, hlog]
    have hcur : ∀ j, s1.simTrajectory j t = sm.simTrajectory j t := by
      intro j
      rw [hfr j t (by omega)]
      simp only
      rw [forward_apply d _ _ _ m _ (t := t) (t' := t') (by omega) (by omega), if_neg]
      intro hh
      have := congrArg Fin.val hh
      omega
    simp only [hcur]

end
end Waymax
