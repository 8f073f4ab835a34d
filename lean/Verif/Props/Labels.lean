import Verif.Spec.Labels
import Verif.Props.Causal
import Verif.Props.PlanningMetrics
import Verif.Model.Discretizer
/-
C185: ids, classes, interest marks and control marks of objects have no influence.
-/

namespace Waymax

section
variable {α D : Type} [ScalarOps α] {n T : Nat} [NeZero T]

omit [ScalarOps α] [NeZero T] in
theorem SameRoles.mask {md md' : Fin n → ObjMeta} (h : SameRoles md md') (ty : ObjectType) : getControlMask md' ty = getControlMask md ty := by
  unfold getControlMask
  cases ty <;> simp only [h.sdc, h.modeled, h.valid]

omit [ScalarOps α] in
theorem envControlMask_relabel (cfg : EnvConfig) (s : SimState α n T) {md : Fin n → ObjMeta} (h : SameRoles s.objectMetadata md) :
    envControlMask cfg (s.relabel md) = envControlMask cfg s := by
  unfold envControlMask
  rw [show (s.relabel md).objectMetadata = md from rfl, h.mask]
  rfl

omit [NeZero T] in
/-- C185: resets, steps and whole episodes of the relabelled scenario are those of the scenario, with the other labels carried along; this
holds for every dynamics model and every kind of controlled objects. -/
theorem C185_reset (cfg : EnvConfig) (s : SimState α n T) (md : Fin n → ObjMeta) :
    reset cfg (s.relabel md) = (reset cfg s).map (SimState.relabel md) := by
  rw [reset_eq, reset_eq]
  split
  · split <;> rfl
  · rfl

theorem C185_step (d : DynamicsModel α D n) (cfg : EnvConfig) (s : SimState α n T) {md : Fin n → ObjMeta} (h : SameRoles s.objectMetadata md)
    (a : Fin n → Act D) : step d cfg (s.relabel md) a = (step d cfg s a).map (SimState.relabel md) := by
  unfold step
  rw [envControlMask_relabel cfg s h]
  cases envControlMask cfg s with
  | error e => rfl
  | ok m => rfl

theorem step_objects {d : DynamicsModel α D n} {cfg : EnvConfig} {s s' : SimState α n T} {a : Fin n → Act D} (h : step d cfg s a = .ok s') :
    s'.objectMetadata = s.objectMetadata := by
  obtain ⟨m, -, rfl⟩ := step_ok h
  rfl

omit [NeZero T] in
theorem reset_objects {cfg : EnvConfig} {s s' : SimState α n T} (h : reset cfg s = .ok s') : s'.objectMetadata = s.objectMetadata := by
  rw [reset_eq] at h
  split at h
  · split at h
    · rw [← Except.ok.inj h]
    · cases h
  · cases h

theorem C185_episode (d : DynamicsModel α D n) (cfg : EnvConfig) (s : SimState α n T) {md : Fin n → ObjMeta}
    (h : SameRoles s.objectMetadata md) (as : List (Fin n → Act D)) :
    (reset cfg (s.relabel md) >>= fun s0 => stepMany d cfg s0 as) =
      (reset cfg s >>= fun s0 => stepMany d cfg s0 as).map (SimState.relabel md) := by
  have key : ∀ (as : List (Fin n → Act D)) (x : SimState α n T), SameRoles x.objectMetadata md →
      stepMany d cfg (x.relabel md) as = (stepMany d cfg x as).map (SimState.relabel md) := by
    intro as
    induction as with
    | nil => exact fun x _ => rfl
    | cons a as ih =>
      intro x hx
      unfold stepMany
      rw [C185_step d cfg x hx a]
      cases hs : step d cfg x a with
      | error e => rfl
      | ok y => exact ih y (by rw [step_objects hs]; exact hx)
  rw [C185_reset]
  cases hs : reset cfg s with
  | error e => rfl
  | ok s0 => exact key as s0 (by rw [reset_objects hs]; exact h)

omit [ScalarOps α] in
/-- The expert, with dynamics whose inverse does not look at the labels. -/
theorem C185_expert {d : DynamicsModel α D n} (hd : d.LabelBlind) : LabelBlind fun s : SimState α n T => inferExpertAction s d := by
  intro s md h
  unfold inferExpertAction
  exact hd _ _ _ _ h

end

section
variable {n T : Nat} [NeZero T]

omit [NeZero T] in
/-- All built-in dynamics, also with discretised actions. -/
theorem C185_dynamics (P : DeltaParams) (B : BicycleParams) : (stateDynamics (α := ℝ) (n := n)).LabelBlind ∧ (deltaGlobal P (n := n)).LabelBlind ∧
    (deltaLocal P (n := n)).LabelBlind ∧ (bicycle B (n := n)).LabelBlind ∧
    ∀ {D : Type} (d : DynamicsModel ℝ D n) (codec : RowCodec D) (ds : List BinDim), d.LabelBlind → (discreteWrapper d codec ds).LabelBlind := by
  refine ⟨fun _ _ _ _ _ => rfl, fun _ _ _ _ _ => rfl, fun _ _ _ _ _ => rfl, fun _ _ _ _ _ => rfl, fun d codec ds hd _ _ traj md md' t h => ?_⟩
  simp only [discreteWrapper, hd traj md md' t h]

theorem sdc_relabel (s : SimState ℝ n T) {md : Fin n → ObjMeta} (h : SameRoles s.objectMetadata md) :
    sdcXyCurrent (s.relabel md) = sdcXyCurrent s ∧ sdcValidCurrent (s.relabel md) = sdcValidCurrent s ∧
    ∀ t, sdcXyLog (s.relabel md) t = sdcXyLog s t := by
  unfold sdcXyCurrent sdcValidCurrent sdcXyLog SimState.relabel
  simp only [h.sdc, and_self, implies_true]

/-- C185: the seven metrics. -/
theorem C185_metrics : LabelBlind (logDivergenceMetric (n := n) (T := T)) ∧ LabelBlind (overlapMetric (n := n) (T := T)) ∧
    LabelBlind (offroadMetric (n := n) (T := T)) ∧ (∀ P, LabelBlind (kinematicsInfeasibilityMetric P (n := n) (T := T))) ∧
    LabelBlind (wrongWayMetric (n := n) (T := T)) ∧ LabelBlind (offRouteMetric (n := n) (T := T)) ∧
    LabelBlind (progressionMetric (n := n) (T := T)) := by
  refine ⟨fun s md h => rfl, fun s md h => rfl, fun s md h => rfl, fun P s md h => rfl, fun s md h => ?_, fun s md h => ?_, fun s md h => ?_⟩
  · obtain ⟨h1, h2, h3⟩ := sdc_relabel s h
    unfold wrongWayMetric
    simp only [h1]
    rfl
  · obtain ⟨h1, h2, h3⟩ := sdc_relabel s h
    unfold offRouteMetric
    simp only [h1, h2]
    rfl
  · obtain ⟨h1, h2, h3⟩ := sdc_relabel s h
    unfold progressionMetric
    simp only [h1, h2, h3]
    rfl

/-- The metrics of the environment, for every list of metrics. -/
theorem C185_env_metrics (names : List String) : LabelBlind (envMetrics (n := n) (T := T) builtinMetrics names) := by
  obtain ⟨h1, h2, h3, h4, h5, h6, h7⟩ := C185_metrics (n := n) (T := T)
  intro s md h
  unfold envMetrics runMetrics
  congr 1
  funext d name
  cases hm : (builtinMetrics (n := n) (T := T)).get? name with
  | none => rfl
  | some m =>
    have : m (s.relabel md) = m s := by
      unfold Dict.get? at hm
      rw [Option.map_eq_some_iff] at hm
      obtain ⟨e, he, rfl⟩ := hm
      have hmem := List.mem_of_find?_eq_some he
      simp only [builtinMetrics, List.mem_cons, List.not_mem_nil, or_false] at hmem
      rcases hmem with rfl | rfl | rfl | rfl | rfl | rfl | rfl
      · simp only [h1 s md h]
      · simp only [h2 s md h]
      · simp only [h3 s md h]
      · simp only [h4 _ s md h]
      · simp only [h5 s md h]
      · simp only [h7 s md h]
      · simp only [h6 s md h]
    simp only [this]

/-- The rewards. -/
theorem C185_reward {D : Type} (cfg : EnvConfig) (computeReward : Bool) (rewards : Dict ℝ) (a : Fin n → Act D) :
    LabelBlind fun s : SimState ℝ n T => envReward builtinMetrics cfg computeReward rewards s a := by
  intro s md h
  have hm := C185_env_metrics (n := n) (T := T) (rewards.map Prod.fst) s md h
  unfold envMetrics at hm
  have hk : getControlMask (s.relabel md).objectMetadata cfg.controlledObject = getControlMask s.objectMetadata cfg.controlledObject := h.mask _
  simp only [envReward, linearReward, hk, hm]

/-- C185: whole rollouts, with any actor, metrics and rewards that do not look at the labels. -/
theorem C185_rollout {D X K P M R : Type} (d : DynamicsModel ℝ D n) (cfg : EnvConfig)
    {metrics : SimState ℝ n T → Except Err M} (hm : LabelBlind metrics)
    {reward : SimState ℝ n T → (Fin n → Act D) → Except Err R} (hr : ∀ a, LabelBlind fun s => reward s a)
    {A : Actor (SimState ℝ n T) (Fin n → Act D) X K P (Fin n → Bool)} (hi : ∀ key, LabelBlind fun s => A.init key s)
    (ha : ∀ p x key, LabelBlind fun s => A.selectAction p s x key) (split : K → K × K) (params : P)
    (zeros : (Fin n → Act D) → Fin n → Act D) (s : SimState ℝ n T) {md : Fin n → ObjMeta} (h : SameRoles s.objectMetadata md) (rng : K)
    (numSteps : Nat) :
    rollout (baseEnv d cfg metrics reward) A split params zeros (s.relabel md) rng numSteps =
      (rollout (baseEnv d cfg metrics reward) A split params zeros s rng numSteps).map (List.map (RolloutEntry.relabel md)) := by
  let E := baseEnv d cfg metrics reward
  let rel : RolloutCarry (SimState ℝ n T) (SimState ℝ n T) X K → RolloutCarry (SimState ℝ n T) (SimState ℝ n T) X K :=
    fun c => { c with state := c.state.relabel md, observation := c.observation.relabel md }
  have hstep : ∀ c, SameRoles c.state.objectMetadata md →
      rolloutStep E A split params (rel c) = (rolloutStep E A split params c).map fun x => (rel x.1, x.2.relabel md) := by
    intro c hc
    unfold rolloutStep
    have e0 : A.selectAction params (rel c).state (rel c).actorState (split (rel c).rng).1 =
        A.selectAction params c.state c.actorState (split c.rng).1 := ha params c.actorState (split c.rng).1 c.state md hc
    have e1 : ∀ a, E.step (rel c).state a = (E.step c.state a).map (SimState.relabel md) := fun a => C185_step d cfg c.state hc a
    have e2 : E.metrics (rel c).state = E.metrics c.state := hm c.state md hc
    have e3 : ∀ a, E.reward (rel c).state a = E.reward c.state a := fun a => hr a c.state md hc
    simp only [e0, e1, e2, e3]
    cases E.step c.state (A.selectAction params c.state c.actorState (split c.rng).1).action with
    | error e => rfl
    | ok y =>
      cases E.metrics c.state with
      | error e => rfl
      | ok M =>
        cases E.reward c.state (A.selectAction params c.state c.actorState (split c.rng).1).action with
        | error e => simp only [bind, Except.bind, Except.map]
        | ok r =>
          simp only [bind, Except.bind, Except.map]
          rfl
  have hobj : ∀ c x, rolloutStep E A split params c = .ok x → x.1.state.objectMetadata = c.state.objectMetadata := by
    intro c x hx
    obtain ⟨-, -, -, -, h5, -⟩ := rolloutStep_ok (e := x.2) (c' := x.1) hx
    exact step_objects h5
  have hscan : ∀ j c, SameRoles c.state.objectMetadata md → scan (rolloutStep E A split params) j (rel c) =
      (scan (rolloutStep E A split params) j c).map fun x => (rel x.1, x.2.map (RolloutEntry.relabel md)) := by
    intro j
    induction j with
    | zero => exact fun c _ => rfl
    | succ j ih =>
      intro c hc
      unfold scan
      rw [hstep c hc]
      cases hx : rolloutStep E A split params c with
      | error e => rfl
      | ok x =>
        have hx' : SameRoles x.1.state.objectMetadata md := by rw [hobj c x hx]; exact hc
        simp only [bind, Except.bind, Except.map, ih x.1 hx']
        cases scan (rolloutStep E A split params) j x.1 with
        | error e => rfl
        | ok y => rfl
  have hscanobj : ∀ j c x, scan (rolloutStep E A split params) j c = .ok x → x.1.state.objectMetadata = c.state.objectMetadata := by
    intro j
    induction j with
    | zero =>
      intro c x hx
      rw [← Except.ok.inj hx]
    | succ j ih =>
      intro c x hx
      unfold scan at hx
      cases hy : rolloutStep E A split params c with
      | error e => rw [hy] at hx; cases hx
      | ok y =>
        rw [hy] at hx
        simp only [bind, Except.bind] at hx
        cases hz : scan (rolloutStep E A split params) j y.1 with
        | error e => rw [hz] at hx; cases hx
        | ok z =>
          rw [hz] at hx
          rw [← Except.ok.inj hx]
          exact (ih _ _ hz).trans (hobj _ _ hy)
  unfold rollout
  have e0 : E.reset (s.relabel md) = (E.reset s).map (SimState.relabel md) := C185_reset cfg s md
  change (E.reset (s.relabel md) >>= _) = _
  rw [e0]
  change _ = Except.map _ (E.reset s >>= _)
  cases hs0 : E.reset s with
  | error e => rfl
  | ok s0 =>
    have h0 : SameRoles s0.objectMetadata md := by rw [reset_objects hs0]; exact h
    have e1 : A.init (split rng).1 (s0.relabel md) = A.init (split rng).1 s0 := hi _ s0 md h0
    have e2 := hscan numSteps { state := s0, observation := s0, rng := (split rng).2, actorState := A.init (split rng).1 s0 } h0
    simp only [Except.map, bind, Except.bind, e1]
    have e2' : scan (rolloutStep (baseEnv d cfg metrics reward) A split params) numSteps
        { state := SimState.relabel md s0, observation := (baseEnv d cfg metrics reward).observe (SimState.relabel md s0), rng := (split rng).2,
          actorState := A.init (split rng).1 s0 } = _ := e2
    rw [e2']
    have e3 := hscanobj numSteps { state := s0, observation := s0, rng := (split rng).2, actorState := A.init (split rng).1 s0 }
    cases hx : scan (rolloutStep E A split params) numSteps
        { state := s0, observation := s0, rng := (split rng).2, actorState := A.init (split rng).1 s0 } with
    | error e =>
      have hx' : scan (rolloutStep (baseEnv d cfg metrics reward) A split params) numSteps
        { state := s0, observation := (baseEnv d cfg metrics reward).observe s0, rng := (split rng).2,
          actorState := A.init (split rng).1 s0 } = .error e := hx
      rw [hx']
      rfl
    | ok x =>
      have hx' : scan (rolloutStep (baseEnv d cfg metrics reward) A split params) numSteps
        { state := s0, observation := (baseEnv d cfg metrics reward).observe s0, rng := (split rng).2,
          actorState := A.init (split rng).1 s0 } = .ok x := hx
      rw [hx']
      have hc : SameRoles x.1.state.objectMetadata md := by rw [e3 x hx]; exact h0
      obtain ⟨c, out⟩ := x
      simp only [Except.map, List.getLast?_map]
      cases hl : out.getLast? with
      | none => rfl
      | some last =>
        simp only [Option.map_some]
        have e4 : (baseEnv d cfg metrics reward).metrics (rel c).state = (baseEnv d cfg metrics reward).metrics c.state := hm c.state md hc
        have e5 : ∀ a, (baseEnv d cfg metrics reward).reward (rel c).state a = (baseEnv d cfg metrics reward).reward c.state a :=
          fun a => hr a c.state md hc
        rw [e4]
        cases (baseEnv d cfg metrics reward).metrics c.state with
        | error e => rfl
        | ok M =>
          simp only [e5]
          have e6 : (RolloutEntry.relabel md last).action = last.action := rfl
          simp only [e6]
          cases (baseEnv d cfg metrics reward).reward c.state (zeros last.action) with
          | error e => rfl
          | ok r => simp only [pure, Except.pure, List.map_append, List.map_cons, List.map_nil]; rfl

/-! ### Agents and the planning environment -/

omit [NeZero T] in
/-- A sim agent built from a control function and an update that do not look at the labels. -/
theorem simAgent_blind {K P : Type} {f : SimState ℝ n T → Fin n → Bool} (hf : LabelBlind f) {u : SimState ℝ n T → Fin n → Upd ℝ} (hu : LabelBlind u) :
    AgentLabelBlind (simAgent (K := K) (P := P) f u) := by
  refine ⟨fun _ _ _ _ => rfl, fun s md p x key h => ?_⟩
  simp only [simAgent, PlanState.relabel, hf s.sim md h, hu s.sim md h]

/-- C185: the built-in agents - keeping the distance, constant speed, frozen - do not look at the labels. -/
theorem C185_agents {K P : Type} (I : IdmParams) (v : ℝ) :
    AgentLabelBlind (idmAgent (K := K) (P' := P) (n := n) (T := T) I) ∧ AgentLabelBlind (constantSpeedPolicy (K := K) (P := P) (n := n) (T := T) v) ∧
    AgentLabelBlind (simAgent (K := K) (P := P) (n := n) (T := T) defaultControlFunc frozenUpdate) ∧
    ∀ {D : Type} {d : DynamicsModel ℝ D n}, d.LabelBlind → ∀ {f : SimState ℝ n T → Fin n → Bool}, LabelBlind f → ∀ speed,
      LabelBlind fun s : SimState ℝ n T => constantSpeedAction d f speed s := by
  have hdef : LabelBlind (defaultControlFunc (n := n) (T := T)) := by
    intro s md h
    funext i
    simp only [defaultControlFunc, SimState.relabel, h.sdc]
  refine ⟨simAgent_blind hdef fun s md h => rfl, simAgent_blind hdef fun s md h => rfl, simAgent_blind hdef fun s md h => rfl,
    fun hd f hf speed s md h => ?_⟩
  simp only [constantSpeedAction, hf s md h]
  exact hd _ _ _ _ h

section
variable {D X K P : Type}

omit [NeZero T] in
/-- C185: the planning environment with any agents that do not look at the labels. -/
theorem C185_plan_reset {E : PlanEnv D X K P n T} (hA : ∀ A ∈ E.actors, AgentLabelBlind A) (split : K → Nat → List K) (s : SimState ℝ n T)
    {md : Fin n → ObjMeta} (h : SameRoles s.objectMetadata md) (rng : Option K) :
    planReset E split (s.relabel md) rng = (planReset E split s rng).map (PlanState.relabel md) := by
  have hr := C185_reset E.cfg s md
  have ho : ∀ s0, reset E.cfg s = .ok s0 → s0.objectMetadata = s.objectMetadata := fun s0 => reset_objects
  unfold reset at hr ho
  unfold planReset
  rw [hr]
  generalize (if E.cfg.maxNumObjects = n then updateStateByLog
    { s with timestep := -1, simTrajectory := fillInvalidTrajectory s.logTrajectory } E.cfg.initSteps
    else .error .assertion : Except Err (SimState ℝ n T)) = r at ho ⊢
  cases r with
  | error e => rfl
  | ok s0 =>
    have h0 : SameRoles s0.objectMetadata md := by rw [ho s0 rfl]; exact h
    simp only [Except.map, bind, Except.bind, pure, Except.pure, PlanState.relabel, Except.ok.injEq, PlanState.mk.injEq, true_and]
    refine List.map_congr_left fun e he => ?_
    exact (hA e.2 (List.of_mem_zip he).2).init { sim := s0, actorStates := [] } md e.1 h0

theorem C185_plan_step {E : PlanEnv D X K P n T} (hA : ∀ A ∈ E.actors, AgentLabelBlind A) (split : K → Nat → List K) (s : PlanState X n T)
    {md : Fin n → ObjMeta} (h : SameRoles s.sim.objectMetadata md) (a : Act D) (rng : Option K) :
    planStep E split (s.relabel md) a rng = (planStep E split s a rng).map (PlanState.relabel md) := by
  unfold planStep
  simp only
  by_cases hl : E.actors.length ≠ s.actorStates.length
  · rw [if_pos hl, if_pos (show E.actors.length ≠ (s.relabel md).actorStates.length from hl)]
    rfl
  · rw [if_neg hl, if_neg (show ¬ E.actors.length ≠ (s.relabel md).actorStates.length from hl)]
    have hloop : ∀ (es : List (SimAgent X K P n T × X × P × Option K)) (acc : Merged X n), (∀ e ∈ es, e.1 ∈ E.actors) →
        ∀ ok : Fin n → Bool, es.foldl (mergeSimAgent (s.relabel md) ok) acc = es.foldl (mergeSimAgent s ok) acc := by
      intro es
      induction es with
      | nil => exact fun _ _ _ => rfl
      | cons e es ih =>
        intro acc he ok
        rw [List.foldl_cons, List.foldl_cons]
        have : mergeSimAgent (s.relabel md) ok acc e = mergeSimAgent s ok acc e := by
          unfold mergeSimAgent
          rw [(hA e.1 (he e List.mem_cons_self)).select s md _ _ _ h]
        rw [this]
        exact ih _ (fun e' he' => he e' (List.mem_cons_of_mem _ he')) ok
    have hmem : ∀ e ∈ E.actors.zip (s.actorStates.zip (E.params.zip (planKeys split rng E.actors.length))), e.1 ∈ E.actors :=
      fun e he => (List.of_mem_zip he).1
    have hsdc : (fun i => ((s.relabel md).sim.objectMetadata i).isSdc) = fun i => (s.sim.objectMetadata i).isSdc := funext h.sdc
    rw [show (s.relabel md).actorStates = s.actorStates from rfl, hsdc, hloop _ _ hmem]
    rfl

theorem C185_plan_episode {E : PlanEnv D X K P n T} (hA : ∀ A ∈ E.actors, AgentLabelBlind A) (split : K → Nat → List K) (s : SimState ℝ n T)
    {md : Fin n → ObjMeta} (h : SameRoles s.objectMetadata md) (rng : Option K) (as : List (Act D × Option K)) :
    (planReset E split (s.relabel md) rng >>= fun s0 => planMany E split s0 as) =
      (planReset E split s rng >>= fun s0 => planMany E split s0 as).map (PlanState.relabel md) := by
  have key : ∀ (as : List (Act D × Option K)) (x : PlanState X n T), SameRoles x.sim.objectMetadata md →
      planMany E split (x.relabel md) as = (planMany E split x as).map (PlanState.relabel md) := by
    intro as
    induction as with
    | nil => exact fun x _ => rfl
    | cons a as ih =>
      intro x hx
      unfold planMany
      rw [C185_plan_step hA split x hx]
      cases hs : planStep E split x a.1 a.2 with
      | error e => rfl
      | ok y =>
        refine ih y ?_
        have : y.sim.objectMetadata = x.sim.objectMetadata := by
          unfold planStep at hs
          simp only at hs
          split at hs
          · cases hs
          · rw [← Except.ok.inj hs]
        rw [this]
        exact hx
  rw [C185_plan_reset hA split s h rng]
  cases hs : planReset E split s rng with
  | error e => rfl
  | ok s0 =>
    refine key as s0 ?_
    have : s0.sim.objectMetadata = s.objectMetadata := by
      have ho : ∀ s0, reset E.cfg s = .ok s0 → s0.objectMetadata = s.objectMetadata := fun s0 => reset_objects
      unfold reset at ho
      unfold planReset at hs
      generalize (if E.cfg.maxNumObjects = n then updateStateByLog
        { s with timestep := -1, simTrajectory := fillInvalidTrajectory s.logTrajectory } E.cfg.initSteps
        else .error .assertion : Except Err (SimState ℝ n T)) = r at ho hs
      cases r with
      | error e => cases hs
      | ok x =>
        rw [← Except.ok.inj hs]
        exact ho x rfl
    rw [this]
    exact h

theorem C185_plan_metrics (cfg : EnvConfig) (names : List String) : LabelBlind (planMetrics (n := n) (T := T) builtinMetrics cfg names) := by
  intro s md h
  have hm := C185_env_metrics (n := n) (T := T) names s md h
  unfold envMetrics at hm
  have hsdc : (fun i => ((s.relabel md).objectMetadata i).isSdc) = fun i => (s.objectMetadata i).isSdc := funext h.sdc
  simp only [planMetrics, hm, hsdc]
  rfl

theorem C185_plan_reward (E : PlanEnv D X K P n T) (computeReward : Bool) (a : Act D) :
    LabelBlind fun s : SimState ℝ n T => planReward builtinMetrics E computeReward s a := by
  intro s md h
  have hm := C185_env_metrics (n := n) (T := T) (E.rewards.map Prod.fst) s md h
  unfold envMetrics at hm
  have hk : getControlMask (s.relabel md).objectMetadata E.cfg.controlledObject = getControlMask s.objectMetadata E.cfg.controlledObject := h.mask _
  have hsdc : (fun i => ((s.relabel md).objectMetadata i).isSdc) = fun i => (s.objectMetadata i).isSdc := funext h.sdc
  simp only [planReward, linearReward, hk, hm, hsdc]

end

/-! ### Observations -/

omit [NeZero T] in
theorem globalObservation_relabel (s : SimState ℝ n T) (md : Fin n → ObjMeta) (K : Nat) :
    globalObservation (s.relabel md) K = (globalObservation s K).map (Obs.relabel md) := by
  unfold globalObservation
  by_cases hK : K ≤ T
  · rw [dif_pos hK, dif_pos hK]
    change (match s.roadgraphPoints with | none => _ | some rg => _) = _
    cases s.roadgraphPoints with
    | none => rfl
    | some rg => rfl
  · rw [dif_neg hK, dif_neg hK]
    rfl

/-- C185: what every object and the SDC see is the same, except that the labels shown are the new ones. -/
theorem C185_observation (s : SimState ℝ n T) {md : Fin n → ObjMeta} (h : SameRoles s.objectMetadata md) (K topk : Nat) (frame : Frame) :
    (∀ i, observationFromState (s.relabel md) K topk frame i = (observationFromState s K topk frame i).map (Obs.relabel md)) ∧
    sdcObservationFromState (s.relabel md) K topk frame = (sdcObservationFromState s K topk frame).map (Obs.relabel md) := by
  have hidx : sdcIndex (s.relabel md).objectMetadata = sdcIndex s.objectMetadata := by
    unfold sdcIndex
    have : (fun i => ((s.relabel md).objectMetadata i).isSdc) = fun i => (s.objectMetadata i).isSdc := funext h.sdc
    simp only [this]
  have htop : ∀ (o : Obs n K) ego ref, (o.relabel md).withTopk ego ref topk = (o.withTopk ego ref topk).map (Obs.relabel md) := by
    intro o ego ref
    unfold Obs.withTopk
    change (filterTopk o.roadgraph ref topk >>= _) = _
    cases filterTopk o.roadgraph ref topk with
    | error e => rfl
    | ok rg => rfl
  have hsdc : (fun j => ((s.relabel md).objectMetadata j).isSdc) = fun j => (s.objectMetadata j).isSdc := funext h.sdc
  have hcur : (s.relabel md).currentSim = s.currentSim := rfl
  constructor
  · intro i
    unfold observationFromState
    simp only [globalObservation_relabel, hcur, hidx]
    cases globalObservation s K with
    | error e => rfl
    | ok g =>
      simp only [Except.map, bind, Except.bind, htop]
      cases g.withTopk (fun j : Fin n => decide ((if i = j then i.val else 0) = 1)) ((s.currentSim i).x, (s.currentSim i).y) topk with
      | error e => rfl
      | ok o =>
        cases frame with
        | OBJECT => rfl
        | GLOBAL => rfl
        | SDC =>
          cases sdcIndex s.objectMetadata with
          | error e => rfl
          | ok k => rfl
  · unfold sdcObservationFromState
    simp only [globalObservation_relabel, hcur, hidx, hsdc]
    cases sdcIndex s.objectMetadata with
    | error e => rfl
    | ok k =>
      cases globalObservation s K with
      | error e => rfl
      | ok g =>
        simp only [Except.map, bind, Except.bind, htop]
        cases g.withTopk (fun j => (s.objectMetadata j).isSdc) ((s.currentSim k).x, (s.currentSim k).y) topk with
        | error e => rfl
        | ok o =>
          change (match frame with | .OBJECT | .SDC => _ | .GLOBAL => _) = _
          have hp : (s.relabel md).sdcPaths = s.sdcPaths := rfl
          simp only [hp]
          cases frame <;> cases s.sdcPaths <;> rfl

end

/-! ### The control marks -/

/-- The example objects with other ids and classes, and every one marked as controlled. -/
def exMarked : Fin 2 → ObjMeta := fun i => { exMeta i with id := 7 - i.val, objectType := 3, objectsOfInterest := true, isControlled := true }

theorem exMarked_roles : SameRoles exScen.objectMetadata exMarked := ⟨fun _ => rfl, fun _ => rfl, fun _ => rfl⟩

/-- C185: the control marks of the metadata do not decide which objects the actions control, in neither direction: the SDC is controlled
although it is not marked, and another object is not although it is marked. -/
theorem C185_marks_violated : ¬ MarkedAreControlled exCfg exScen ∧ ¬ MarkedAreControlled exCfg (exScen.relabel exMarked) := by
  constructor
  · intro h
    exact absurd (h _ rfl 0) (by decide)
  · intro h
    exact absurd (h _ rfl 1) (by decide)

/-- Which objects are controlled is decided by the configuration and the roles alone. -/
theorem C185_marks_exact {α : Type} {n T : Nat} [NeZero T] (cfg : EnvConfig) (s : SimState α n T) (mark : Fin n → Bool) :
    envControlMask cfg (s.relabel fun i => { s.objectMetadata i with isControlled := mark i }) = envControlMask cfg s :=
  envControlMask_relabel cfg s ⟨fun _ => rfl, fun _ => rfl, fun _ => rfl⟩

/-- A concrete case of the simulation theorems: the relabelled example scenario, three actions. -/
example : (reset exCfg (exScen.relabel exMarked) >>= fun s0 => stepMany stateDynamics exCfg s0 [exAct true, exAct false, exAct true]) =
    (reset exCfg exScen >>= fun s0 => stepMany stateDynamics exCfg s0 [exAct true, exAct false, exAct true]).map (SimState.relabel exMarked) :=
  C185_episode stateDynamics exCfg exScen exMarked_roles _

/-- A concrete case with real numbers: one object, other labels. -/
example : SameRoles jumpScen.objectMetadata (fun i => { soloMeta i with id := 5, objectType := 2, isControlled := false }) ∧
    (fun i => { soloMeta i with id := 5, objectType := 2, isControlled := false }) ≠ jumpScen.objectMetadata :=
  ⟨⟨fun _ => rfl, fun _ => rfl, fun _ => rfl⟩, fun h => absurd (congrArg ObjMeta.id (congrFun h 0)) (by decide)⟩

end Waymax
