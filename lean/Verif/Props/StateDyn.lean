import Verif.Props.Episode
/-
C68: StateDynamics does what it is told. Stated for any scalar type.
-/

namespace Waymax

section
variable {α : Type} [ScalarOps α] {n T : Nat} [NeZero T]

/-- After one step inside the horizon every controlled object is exactly where its action says, whatever the action's
validity bit; x, y, yaw, vel_x and vel_y are entries 0 to 4 of the action. -/
theorem C68_executes_command {cfg : EnvConfig} {s s' : SimState α n T} {a : Fin n → Act (StateRow α)}
    (h : step stateDynamics cfg s a = .ok s') (hw : 1 ≤ cfg.initSteps) (hT : cfg.initSteps ≤ T)
    {t t' : Fin T} (ht : (t : Int) = s.timestep) (ht' : (t' : Int) = s.timestep + 1) (i : Fin n)
    (hc : IsControlled cfg s i) :
    let p := s'.simTrajectory i t'
    p.x = (a i).data.x ∧ p.y = (a i).data.y ∧ p.yaw = (a i).data.yaw ∧ p.velX = (a i).data.velX ∧
      p.velY = (a i).data.velY :=
  (C06_step_moves h hw hT ht ht' i).2.2.1 hc

/-- The update computed for an action is the commanded state, whatever the present states are, and as valid as the action. -/
theorem C68_update (a : Fin n → Act (StateRow α)) (cur : Fin n → Pt α) (i : Fin n) :
    let u := stateDynamics.computeUpdate a cur i
    u.x = (a i).data.x ∧ u.y = (a i).data.y ∧ u.yaw = (a i).data.yaw ∧ u.velX = (a i).data.velX ∧ u.velY = (a i).data.velY ∧
      u.valid = (a i).valid := ⟨rfl, rfl, rfl, rfl, rfl, rfl⟩

/-- The action of one object depends on nothing else: changing the actions of the others does not change where it goes. -/
theorem C68_objects_independent {cfg : EnvConfig} {s s1 s2 : SimState α n T} {a b : Fin n → Act (StateRow α)}
    (h1 : step stateDynamics cfg s a = .ok s1) (h2 : step stateDynamics cfg s b = .ok s2) (i : Fin n) (h : a i = b i) :
    s1.simTrajectory i = s2.simTrajectory i := by
  obtain ⟨m, hm, rfl⟩ := step_ok h1
  obtain ⟨m', hm', rfl⟩ := step_ok h2
  rw [hm] at hm'
  cases hm'
  simp only [DynamicsModel.forward, applyTrajectoryUpdate, stateDynamics, h]

/-- Recovering actions from a recorded trajectory: the action inferred at step `t` carries the five recorded fields of step
`t + 1` and its validity, so executing it in any state puts a controlled object at the recorded pose and velocity. -/
theorem C68_inverse_round_trip {cfg : EnvConfig} {s s' : SimState α n T} {rec : Traj α n T} {md : Fin n → ObjMeta}
    (h : step stateDynamics cfg s (stateDynamics.inverse rec md s.timestep) = .ok s')
    (hw : 1 ≤ cfg.initSteps) (hT : cfg.initSteps ≤ T)
    {t t' : Fin T} (ht : (t : Int) = s.timestep) (ht' : (t' : Int) = s.timestep + 1) (i : Fin n) :
    (stateDynamics.inverse rec md s.timestep i).valid = (rec i t').valid ∧
    (IsControlled cfg s i →
      let p := s'.simTrajectory i t'
      p.x = (rec i t').x ∧ p.y = (rec i t').y ∧ p.yaw = (rec i t').yaw ∧ p.velX = (rec i t').velX ∧
        p.velY = (rec i t').velY) := by
  have e : ∀ j, stateDynamics.inverse rec md s.timestep j = stateInverse (rec j) s.timestep := fun _ => rfl
  refine ⟨?_, fun hc => ?_⟩
  · rw [e, stateInverse, dynIndex_of_eq _ ht']
  · have := C68_executes_command h hw hT ht ht' i hc
    simp only [e, stateInverse, dynIndex_of_eq _ ht'] at this
    exact this

end

/-- The hypotheses can be met: object 0 is controlled and told to go to (100, 200). -/
example : ∃ s0 s', reset exCfg exScen = .ok s0 ∧ step stateDynamics exCfg s0 (exAct false) = .ok s' ∧
    IsControlled exCfg s0 0 ∧ (s'.simTrajectory 0 1).x = 100 ∧ (s'.simTrajectory 0 1).y = 200 ∧
    (s'.simTrajectory 0 1).velY = 4 :=
  ⟨_, _, rfl, rfl, by simp [IsControlled, exCfg, exScen, exMeta], by decide, by decide, by decide⟩

end Waymax
