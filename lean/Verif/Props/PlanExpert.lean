import Verif.Spec.PlanExpert
import Verif.Props.PlanningGaps
import Verif.Props.Delta
import Verif.Model.BatchPlanning
/-
C161: expert rollouts in the planning environment.
-/

namespace Waymax

section
variable {D X K P J Q : Type} {n T m : Nat} [NeZero T]

theorem agentOutput_mem {E : PlanEnv D X K P n T} {split : K → Nat → List K} {s : PlanState X n T} {rng : Option K} {j : Nat}
    {o : ActorOutput (Fin n → Act (StateRow ℝ)) X (Fin n → Bool)} (h : agentOutput E split s rng j = some o) :
    ∃ A ∈ E.actors, ∃ p x key, o = A.selectAction p s x key := by
  unfold agentOutput at h
  split at h
  · rename_i a x p ha _ _
    have hmem := List.mem_of_getElem? ha
    cases rng with
    | none => exact ⟨a, hmem, p, x, none, (Option.some.inj h).symm⟩
    | some r =>
      simp only [Option.map_eq_some_iff] at h
      obtain ⟨key, -, hk⟩ := h
      exact ⟨a, hmem, p, x, some key, hk.symm⟩
  · cases h

/-- What a successful rollout of the expert in the planning environment consists of. -/
theorem plan_rollout_facts {E : PlanEnv D X K P n T} {toRow : D → Fin m → ℝ} {ofRow : (Fin m → ℝ) → D}
    {splitEnv : K → Nat → List K} {reg : Dict (Metric n T)} {names : List String} {computeReward : Bool} {split : J → J × J}
    {params : Q} {zerosLike : Act D → Act D} {scen : SimState ℝ n T} {rng : J} {N : Nat}
    {out : List (RolloutEntry (PlanState X n T) (Act D) (PlanState X n T) (Dict (MetricArr n)) ℝ)}
    (h : rollout (planEnv E splitEnv reg names computeReward) (planExpert E.dynamics toRow ofRow) split params zerosLike
      { sim := scen, actorStates := [] } rng N = .ok out)
    (hw : 1 ≤ E.cfg.initSteps) (hfit : E.cfg.initSteps + N ≤ T) :
    ∃ hlen : out.length = N + 1,
      (∀ j (hj : j ≤ N), SameScenario scen out[j].state.sim ∧ out[j].state.sim.timestep = (E.cfg.initSteps : Int) - 1 + j) ∧
      (∀ i (t : Fin T), t.val < E.cfg.initSteps → out[0].state.sim.simTrajectory i t = scen.logTrajectory i t) ∧
      ∀ j (_ : j < N), planStep E splitEnv out[j].state
        (planningInverse E.dynamics toRow ofRow (fun i t => if t.val = 0 then dynIndex (out[j].state.sim.simTrajectory i)
            out[j].state.sim.timestep else dynIndex (out[j].state.sim.logTrajectory i) (out[j].state.sim.timestep + 1) : Traj ℝ n 2)
          out[j].state.sim.objectMetadata 0) none = .ok out[j + 1].state := by
  obtain ⟨hN, hlen, hreset, hstep, -, ⟨xs, -, hact⟩, -⟩ := C14_rollout_spec h
  have hr : ∃ s0, reset E.cfg scen = .ok s0 ∧ out[0].state.sim = s0 := by
    have hreset : planReset E splitEnv scen none = .ok out[0].state := hreset
    unfold planReset at hreset
    unfold reset
    split at hreset
    · rename_i hc
      rw [if_pos hc]
      generalize updateStateByLog _ E.cfg.initSteps = r at hreset
      cases r with
      | error e => cases hreset
      | ok s0 => exact ⟨s0, rfl, (congrArg PlanState.sim (Except.ok.inj hreset)).symm⟩
    · cases hreset
  obtain ⟨s0, hr, h0⟩ := hr
  have hs := C01_reset_spec hr
  have hst : ∀ j (_ : j < N), planStep E splitEnv out[j].state out[j].action none = .ok out[j + 1].state := fun j hj => hstep j hj
  have hact' : ∀ j (_ : j < N), out[j].action = planningInverse E.dynamics toRow ofRow (fun i t => if t.val = 0 then
      dynIndex (out[j].state.sim.simTrajectory i) out[j].state.sim.timestep
      else dynIndex (out[j].state.sim.logTrajectory i) (out[j].state.sim.timestep + 1) : Traj ℝ n 2)
      out[j].state.sim.objectMetadata 0 := fun j hj => ((hact j hj).1).symm
  have hrun : ∀ j (hj : j ≤ N), SameScenario scen out[j].state.sim ∧ out[j].state.sim.timestep = (E.cfg.initSteps : Int) - 1 + j := by
    intro j
    induction j with
    | zero =>
      intro _
      rw [h0]
      exact ⟨hs.2.2.2, by simpa using hs.1⟩
    | succ j ih =>
      intro hj
      obtain ⟨ih1, ih2⟩ := ih (by omega)
      have hstj := hst j (by omega)
      rw [planStep_eq] at hstj
      split at hstj
      · cases hstj
      · have := Except.ok.inj hstj
        rw [← this]
        refine ⟨⟨ih1.log, ih1.lights, ih1.objects, ih1.paths, ih1.roads⟩, ?_⟩
        simp only [ih2]
        push_cast
        ring
  refine ⟨hlen, hrun, ?_, fun j hj => ?_⟩
  · intro i t ht
    rw [h0]
    exact hs.2.1 i t ht
  · rw [← hact' j hj]
    exact hst j hj

/-- The SDC in one step of such a rollout: it is moved by the update for its own expert action. -/
theorem plan_expert_step {E : PlanEnv D X K P n T} (hA : ∀ A ∈ E.actors, LeavesSdc A) {toRow : D → Fin m → ℝ}
    {ofRow : (Fin m → ℝ) → D} (hrow : ∀ x, ofRow (toRow x) = x) {splitEnv : K → Nat → List K} {s s' : PlanState X n T} {k : Fin n}
    (hk : OnlySdc s.sim.objectMetadata k) {t t' : Fin T} (ht : (t : Int) = s.sim.timestep) (ht' : (t' : Int) = s.sim.timestep + 1)
    (h : planStep E splitEnv s (planningInverse E.dynamics toRow ofRow (fun i τ => if τ.val = 0 then
      dynIndex (s.sim.simTrajectory i) s.sim.timestep else dynIndex (s.sim.logTrajectory i) (s.sim.timestep + 1) : Traj ℝ n 2)
      s.sim.objectMetadata 0) none = .ok s') :
    let p := s'.sim.simTrajectory k t'
    let u := E.dynamics.computeUpdate (fun _ => E.dynamics.inverse (T := 2) (fun i τ => if τ.val = 0 then s.sim.simTrajectory i t
      else s.sim.logTrajectory i t') s.sim.objectMetadata 0 k) (fun i => s.sim.simTrajectory i t) k
    (p.x = u.x ∧ p.y = u.y ∧ p.yaw = u.yaw ∧ p.velX = u.velX ∧ p.velY = u.velY) ∧
    ((s.sim.simTrajectory k t).valid = true → p.valid = true) ∧
    ∀ τ, τ ≠ t' → ∀ i, s'.sim.simTrajectory i τ = s.sim.simTrajectory i τ := by
  intro p u
  have hno : ∀ j o, agentOutput E splitEnv s none j = some o → o.isControlled k = false := by
    intro j o ho
    obtain ⟨A, hmem, q, x, key, rfl⟩ := agentOutput_mem ho
    exact hA A hmem q s x key k ((hk k).2 rfl)
  have h1 := C70_planner_moves_sdc_partial h ht ht' k ((hk k).2 rfl) hno
  rw [C74_inverse_is_sdc_action E.dynamics hrow _ hk] at h1
  simp only [dynIndex_of_eq _ ht, dynIndex_of_eq _ ht'] at h1
  refine ⟨h1, fun hv => ?_, fun τ hτ i => (C45_rest_of_step h ht ht' i).2.2.2.2.2.2.1 τ hτ⟩
  exact (C45_rest_of_step h ht ht' k).1.2 (.inl ⟨hv, .inl ((hk k).2 rfl)⟩)

section
variable {E : PlanEnv D X K P n T} {toRow : D → Fin m → ℝ} {ofRow : (Fin m → ℝ) → D}
  {splitEnv : K → Nat → List K} {reg : Dict (Metric n T)} {names : List String} {computeReward : Bool} {split : J → J × J}
  {params : Q} {zerosLike : Act D → Act D} {scen : SimState ℝ n T} {rng : J} {N : Nat}
  {out : List (RolloutEntry (PlanState X n T) (Act D) (PlanState X n T) (Dict (MetricArr n)) ℝ)}

/-- If, from every current pose equal to the logged one, the SDC's own expert action carries it to its next logged pose, then the whole
expert rollout keeps the SDC on the log. -/
theorem plan_expert_tracks (hA : ∀ A ∈ E.actors, LeavesSdc A) (hrow : ∀ x, ofRow (toRow x) = x) {k : Fin n}
    (hk : OnlySdc scen.objectMetadata k) (R : Pt ℝ → Pt ℝ → Prop) (hR : ∀ p, R p p)
    (h : rollout (planEnv E splitEnv reg names computeReward) (planExpert E.dynamics toRow ofRow) split params zerosLike
      { sim := scen, actorStates := [] } rng N = .ok out)
    (hw : 1 ≤ E.cfg.initSteps) (hfit : E.cfg.initSteps + N ≤ T) (V : Prop)
    (hlv : V → ∀ t : Fin T, E.cfg.initSteps ≤ (t : Nat) + 1 → (scen.logTrajectory k t).valid = true)
    (htrack : ∀ (t t' : Fin T) (cur : Fin n → Pt ℝ), (t' : Nat) = t + 1 → E.cfg.initSteps ≤ (t' : Nat) →
      (V → (cur k).valid = true) → R (cur k) (scen.logTrajectory k t) → ∀ md (p : Pt ℝ),
      (let u := E.dynamics.computeUpdate (fun _ =>
        E.dynamics.inverse (T := 2) (fun j τ => if τ.val = 0 then cur j else scen.logTrajectory j t') md 0 k) cur k
      p.x = u.x ∧ p.y = u.y ∧ p.yaw = u.yaw ∧ p.velX = u.velX ∧ p.velY = u.velY) → R p (scen.logTrajectory k t'))
    (j : Nat) (hj : j < out.length) (t : Fin T) (ht : (t : Int) ≤ out[j].state.sim.timestep) :
    R (out[j].state.sim.simTrajectory k t) (scen.logTrajectory k t) := by
  obtain ⟨hlen, hrun, hinit, hstep⟩ := plan_rollout_facts h hw hfit
  have key : ∀ j (hj : j ≤ N), ∀ t : Fin T, (t : Int) ≤ out[j].state.sim.timestep →
      R (out[j].state.sim.simTrajectory k t) (scen.logTrajectory k t) ∧
      (V → E.cfg.initSteps ≤ (t : Nat) + 1 → (out[j].state.sim.simTrajectory k t).valid = true) := by
    intro j
    induction j with
    | zero =>
      intro _ t ht
      rw [(hrun 0 (by omega)).2] at ht
      rw [hinit k t (by omega)]
      exact ⟨hR _, fun hV => hlv hV t⟩
    | succ j ih =>
      intro hj t ht
      obtain ⟨hsame, hts⟩ := hrun j (by omega)
      have ih := ih (by omega)
      rw [(hrun (j + 1) hj).2] at ht
      have h1 : ((⟨E.cfg.initSteps - 1 + j, by omega⟩ : Fin T) : Int) = out[j].state.sim.timestep := by
        rw [hts]; simp only; omega
      have h2 : ((⟨E.cfg.initSteps + j, by omega⟩ : Fin T) : Int) = out[j].state.sim.timestep + 1 := by
        rw [hts]; simp only; omega
      have hst := plan_expert_step hA hrow (by rw [hsame.objects]; exact hk) h1 h2 (hstep j (by omega))
      by_cases htt : t = ⟨E.cfg.initSteps + j, by omega⟩
      · obtain ⟨ihp, ihv⟩ := ih _ (le_of_eq h1)
        rw [htt]
        have hv : V → (out[j].state.sim.simTrajectory k ⟨E.cfg.initSteps - 1 + j, by omega⟩).valid = true :=
          fun hV => ihv hV (by simp only; omega)
        refine ⟨htrack ⟨E.cfg.initSteps - 1 + j, by omega⟩ ⟨E.cfg.initSteps + j, by omega⟩
          (fun i => out[j].state.sim.simTrajectory i ⟨E.cfg.initSteps - 1 + j, by omega⟩) (by simp only; omega) (by simp)
          hv ihp out[j].state.sim.objectMetadata _ ?_, fun hV _ => hst.2.1 (hv hV)⟩
        have := hst.1
        rw [hsame.log] at this
        exact this
      · rw [hst.2.2 t htt]
        refine ih t ?_
        have : t.val ≠ E.cfg.initSteps + j := fun hh => htt (Fin.ext hh)
        omega
  exact (key j (by omega) t ht).1

/-- The other objects: those no sim agent may move replay the log. -/
theorem C161_others {i : Fin n} (hi : NobodyMoves E scen i)
    (h : rollout (planEnv E splitEnv reg names computeReward) (planExpert E.dynamics toRow ofRow) split params zerosLike
      { sim := scen, actorStates := [] } rng N = .ok out)
    (hw : 1 ≤ E.cfg.initSteps) (hfit : E.cfg.initSteps + N ≤ T)
    (j : Nat) (hj : j < out.length) (t : Fin T) (ht : (t : Int) ≤ out[j].state.sim.timestep) :
    SameMotion (out[j].state.sim.simTrajectory i t) (scen.logTrajectory i t) := by
  obtain ⟨hlen, hrun, hinit, hstep⟩ := plan_rollout_facts h hw hfit
  have key : ∀ j (hj : j ≤ N), ∀ t : Fin T, (t : Int) ≤ out[j].state.sim.timestep →
      SameMotion (out[j].state.sim.simTrajectory i t) (scen.logTrajectory i t) := by
    intro j
    induction j with
    | zero =>
      intro _ t ht
      rw [(hrun 0 (by omega)).2] at ht
      rw [hinit i t (by omega)]
      exact ⟨rfl, rfl, rfl, rfl, rfl⟩
    | succ j ih =>
      intro hj t ht
      obtain ⟨hsame, hts⟩ := hrun j (by omega)
      have ih := ih (by omega)
      rw [(hrun (j + 1) hj).2] at ht
      have h1 : ((⟨E.cfg.initSteps - 1 + j, by omega⟩ : Fin T) : Int) = out[j].state.sim.timestep := by
        rw [hts]; simp only; omega
      have h2 : ((⟨E.cfg.initSteps + j, by omega⟩ : Fin T) : Int) = out[j].state.sim.timestep + 1 := by
        rw [hts]; simp only; omega
      by_cases htt : t = ⟨E.cfg.initSteps + j, by omega⟩
      · have hnone : ∀ q o, ¬ Claims E splitEnv out[j].state none i q o := by
          intro q o hc
          rcases hi.2 with ho | hall
          · exact hc.2.2 (by rw [hsame.log]; exact ho)
          · obtain ⟨A, hmem, p, x, key, rfl⟩ := agentOutput_mem hc.1
            have := hall A hmem p out[j].state x key hsame.objects
            rw [hc.2.1] at this
            cases this
        have hm := (C45_who_moves (hstep j (by omega)) h1 h2 i).2.2 hnone (by rw [hsame.objects]; exact hi.1)
        rw [htt]
        rw [hsame.log] at hm
        exact hm
      · rw [(C45_rest_of_step (hstep j (by omega)) h1 h2 i).2.2.2.2.2.2.1 t htt]
        refine ih t ?_
        have : t.val ≠ E.cfg.initSteps + j := fun hh => htt (Fin.ext hh)
        omega
  exact key j (by omega) t ht

end

/-! ### The SDC -/

section
variable {splitEnv : K → Nat → List K} {reg : Dict (Metric n T)} {names : List String} {computeReward : Bool} {split : J → J × J}
  {params : Q} {scen : SimState ℝ n T} {rng : J} {N : Nat}

/-- State dynamics: the SDC has the logged position, heading and velocity at every step, also where its log is marked as absent. -/
theorem C161_sdc_state {E : PlanEnv (StateRow ℝ) X K P n T} (hd : E.dynamics = stateDynamics) (hA : ∀ A ∈ E.actors, LeavesSdc A)
    {k : Fin n} (hk : OnlySdc scen.objectMetadata k) {zerosLike : Act (StateRow ℝ) → Act (StateRow ℝ)}
    {out : List (RolloutEntry (PlanState X n T) (Act (StateRow ℝ)) (PlanState X n T) (Dict (MetricArr n)) ℝ)}
    (h : rollout (planEnv E splitEnv reg names computeReward) (planExpert E.dynamics stateToRow stateOfRow) split params zerosLike
      { sim := scen, actorStates := [] } rng N = .ok out)
    (hw : 1 ≤ E.cfg.initSteps) (hfit : E.cfg.initSteps + N ≤ T)
    (j : Nat) (hj : j < out.length) (t : Fin T) (ht : (t : Int) ≤ out[j].state.sim.timestep) :
    SameMotion (out[j].state.sim.simTrajectory k t) (scen.logTrajectory k t) := by
  refine plan_expert_tracks hA stateOfRow_toRow hk SameMotion (fun _ => ⟨rfl, rfl, rfl, rfl, rfl⟩) h hw hfit False
    (fun hf => hf.elim) ?_ j hj t ht
  intro t t' cur _ _ _ _ md p hp
  rw [hd] at hp
  exact hp

/-- Global displacements: the SDC keeps the logged position and heading if it is present in the log and moves by no more than the
bounds in each step. -/
theorem C161_sdc_delta_global {E : PlanEnv Delta3 X K P n T} {B : DeltaParams} (hd : E.dynamics = deltaGlobal B)
    (hA : ∀ A ∈ E.actors, LeavesSdc A) {toRow : Delta3 → Fin m → ℝ} {ofRow : (Fin m → ℝ) → Delta3} (hrow : ∀ x, ofRow (toRow x) = x)
    {k : Fin n} (hk : OnlySdc scen.objectMetadata k) {zerosLike : Act Delta3 → Act Delta3}
    {out : List (RolloutEntry (PlanState X n T) (Act Delta3) (PlanState X n T) (Dict (MetricArr n)) ℝ)}
    (h : rollout (planEnv E splitEnv reg names computeReward) (planExpert E.dynamics toRow ofRow) split params zerosLike
      { sim := scen, actorStates := [] } rng N = .ok out)
    (hw : 1 ≤ E.cfg.initSteps) (hfit : E.cfg.initSteps + N ≤ T)
    (hlv : ∀ t : Fin T, E.cfg.initSteps ≤ (t : Nat) + 1 → (scen.logTrajectory k t).valid = true)
    (hlog : ∀ t t' : Fin T, (t' : Nat) = t + 1 → E.cfg.initSteps ≤ (t' : Nat) →
      |(scen.logTrajectory k t').x - (scen.logTrajectory k t).x| ≤ B.maxDx ∧
      |(scen.logTrajectory k t').y - (scen.logTrajectory k t).y| ≤ B.maxDy)
    (j : Nat) (hj : j < out.length) (t : Fin T) (ht : (t : Int) ≤ out[j].state.sim.timestep) :
    SamePose (out[j].state.sim.simTrajectory k t) (scen.logTrajectory k t) := by
  refine plan_expert_tracks hA hrow hk SamePose (fun _ => ⟨rfl, rfl, 0, by simp⟩) h hw hfit True (fun _ => hlv) ?_ j hj t ht
  intro t t' cur htt hi hv hpose md p hp
  obtain ⟨hdx, hdy⟩ := hlog t t' htt hi
  rw [← hpose.1] at hdx
  rw [← hpose.2.1] at hdy
  have := C28_round_trip B (T := 2) (fun j s => if s.val = 0 then cur j else scen.logTrajectory j t') md
    (t := 0) (t' := 1) rfl k (hv trivial) (hlv t' (by omega)) hdx hdy
  rw [hd] at hp
  exact ⟨hp.1.trans this.1, hp.2.1.trans this.2.1, by rw [hp.2.2.1]; exact this.2.2.1⟩

/-- Local displacements: the same if the logged displacement of each step is no longer than both bounds. -/
theorem C161_sdc_delta_local {E : PlanEnv Delta3 X K P n T} {B : DeltaParams} (hd : E.dynamics = deltaLocal B)
    (hA : ∀ A ∈ E.actors, LeavesSdc A) {toRow : Delta3 → Fin m → ℝ} {ofRow : (Fin m → ℝ) → Delta3} (hrow : ∀ x, ofRow (toRow x) = x)
    {k : Fin n} (hk : OnlySdc scen.objectMetadata k) {zerosLike : Act Delta3 → Act Delta3}
    {out : List (RolloutEntry (PlanState X n T) (Act Delta3) (PlanState X n T) (Dict (MetricArr n)) ℝ)}
    (h : rollout (planEnv E splitEnv reg names computeReward) (planExpert E.dynamics toRow ofRow) split params zerosLike
      { sim := scen, actorStates := [] } rng N = .ok out)
    (hw : 1 ≤ E.cfg.initSteps) (hfit : E.cfg.initSteps + N ≤ T)
    (hlv : ∀ t : Fin T, E.cfg.initSteps ≤ (t : Nat) + 1 → (scen.logTrajectory k t).valid = true)
    (hlog : ∀ t t' : Fin T, (t' : Nat) = t + 1 → E.cfg.initSteps ≤ (t' : Nat) →
      dist2 ((scen.logTrajectory k t').x, (scen.logTrajectory k t').y)
        ((scen.logTrajectory k t).x, (scen.logTrajectory k t).y) ≤ B.maxDx ∧
      dist2 ((scen.logTrajectory k t').x, (scen.logTrajectory k t').y)
        ((scen.logTrajectory k t).x, (scen.logTrajectory k t).y) ≤ B.maxDy)
    (j : Nat) (hj : j < out.length) (t : Fin T) (ht : (t : Int) ≤ out[j].state.sim.timestep) :
    SamePose (out[j].state.sim.simTrajectory k t) (scen.logTrajectory k t) := by
  refine plan_expert_tracks hA hrow hk SamePose (fun _ => ⟨rfl, rfl, 0, by simp⟩) h hw hfit True (fun _ => hlv) ?_ j hj t ht
  intro t t' cur htt hi hv hpose md p hp
  obtain ⟨hdx, hdy⟩ := hlog t t' htt hi
  rw [← hpose.1, ← hpose.2.1] at hdx hdy
  have := C29_short_round_trip_partial B (T := 2) (fun j s => if s.val = 0 then cur j else scen.logTrajectory j t') md
    (t := 0) (t' := 1) rfl k (hv trivial) (hlv t' (by omega)) hdx hdy
  rw [hd] at hp
  exact ⟨hp.1.trans this.1, hp.2.1.trans this.2.1, by rw [hp.2.2.1]; exact this.2.2.1⟩

/-- Without sim agents the rollout of the expert with state dynamics is the log: every object, every step. -/
theorem C161_replay {E : PlanEnv (StateRow ℝ) X K P n T} (hd : E.dynamics = stateDynamics) (hE : E.actors = [])
    {k : Fin n} (hk : OnlySdc scen.objectMetadata k) {zerosLike : Act (StateRow ℝ) → Act (StateRow ℝ)}
    {out : List (RolloutEntry (PlanState X n T) (Act (StateRow ℝ)) (PlanState X n T) (Dict (MetricArr n)) ℝ)}
    (h : rollout (planEnv E splitEnv reg names computeReward) (planExpert E.dynamics stateToRow stateOfRow) split params zerosLike
      { sim := scen, actorStates := [] } rng N = .ok out)
    (hw : 1 ≤ E.cfg.initSteps) (hfit : E.cfg.initSteps + N ≤ T)
    (j : Nat) (hj : j < out.length) (i : Fin n) (t : Fin T) (ht : (t : Int) ≤ out[j].state.sim.timestep) :
    SameMotion (out[j].state.sim.simTrajectory i t) (scen.logTrajectory i t) := by
  by_cases hi : i = k
  · rw [hi]
    exact C161_sdc_state hd (by rw [hE]; exact fun A hA => absurd hA List.not_mem_nil) hk h hw hfit j hj t ht
  · refine C161_others ⟨?_, .inr (by rw [hE]; exact fun A hA => absurd hA List.not_mem_nil)⟩ h hw hfit j hj t ht
    by_contra hc
    exact hi ((hk i).1 (by simpa using hc))

/-- The log divergence of the SDC along such a rollout is 0. -/
theorem C161_log_divergence {E : PlanEnv (StateRow ℝ) X K P n T} (hd : E.dynamics = stateDynamics) (hA : ∀ A ∈ E.actors, LeavesSdc A)
    {k : Fin n} (hk : OnlySdc scen.objectMetadata k) {zerosLike : Act (StateRow ℝ) → Act (StateRow ℝ)}
    {out : List (RolloutEntry (PlanState X n T) (Act (StateRow ℝ)) (PlanState X n T) (Dict (MetricArr n)) ℝ)}
    (h : rollout (planEnv E splitEnv reg names computeReward) (planExpert E.dynamics stateToRow stateOfRow) split params zerosLike
      { sim := scen, actorStates := [] } rng N = .ok out)
    (hw : 1 ≤ E.cfg.initSteps) (hfit : E.cfg.initSteps + N ≤ T) (j : Nat) (hj : j < out.length) :
    (logDivergenceMetric out[j].state.sim k).value = 0 := by
  obtain ⟨hlen, hrun, -, -⟩ := plan_rollout_facts h hw hfit
  obtain ⟨hsame, hts⟩ := hrun j (by omega)
  have h1 : ((⟨E.cfg.initSteps - 1 + j, by omega⟩ : Fin T) : Int) = out[j].state.sim.timestep := by
    rw [hts]; simp only; omega
  have := C161_sdc_state hd hA hk h hw hfit j hj _ (le_of_eq h1)
  simp only [logDivergenceMetric, dynIndex_of_eq _ h1, hsame.log, this.1, this.2.1, sub_self]
  simp [hypot]

end

end

end Waymax
