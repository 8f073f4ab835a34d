import Verif.Spec.Causal
import Verif.Props.Padding
import Verif.Props.Observation
import Verif.Props.Planning
import Verif.Props.Metrics
import Verif.Model.Waypoint
/-
C148: the simulator does not look into the future of the log.
-/

namespace Waymax

theorem Both.and {A B : Type} {R : A → B → Prop} {p : A → Prop} {x : Except Err A} {y : Except Err B} (h : Both R x y)
    (hp : ∀ a, x = .ok a → p a) : Both (fun a b => R a b ∧ p a) x y := by
  cases h with
  | ok h => exact .ok ⟨h, hp _ rfl⟩
  | error => exact .error

section
variable {α D : Type} {n T : Nat}

theorem startIdx_one_le {T : Nat} {j : Int} {k : Nat} (h0 : 0 ≤ j) (hk : j ≤ k) : startIdx T 1 j ≤ k := by
  unfold startIdx; simp only; split <;> omega

theorem SameUntil.logAt [NeZero T] {k : Nat} {s s' : SimState α n T} (h : SameUntil k s s') {j : Int} (h0 : 0 ≤ j) (hj : j ≤ k)
    (i : Fin n) : dynIndex (s'.logTrajectory i) j = dynIndex (s.logTrajectory i) j := by
  unfold dynIndex dynSlice
  refine h.log i _ ?_
  have := startIdx_one_le (T := T) h0 hj
  simpa using this

variable [ScalarOps α]

/-- Resetting to the last warm-up step only uses the warm-up part of the log: afterwards the two simulations are in the same state. -/
theorem C148_reset (cfg : EnvConfig) {k : Nat} (h1 : 1 ≤ cfg.initSteps) (hk : cfg.initSteps ≤ k + 1) {s s' : SimState α n T}
    (h : SameUntil k s s') : Both (SameRun k) (reset cfg s) (reset cfg s') := by
  rw [reset_eq, reset_eq]
  split
  · split
    · refine .ok ⟨⟨h.log, h.lights, h.objects, h.paths, h.roadgraph⟩, ?_, rfl, ?_, ?_⟩
      · funext i t
        simp only
        by_cases ht : t.val < cfg.initSteps
        · rw [if_pos ht, if_pos ht, h.log i t (by omega)]
        · rw [if_neg ht, if_neg ht]
      · simp only; omega
      · simp only; omega
    · exact .error
  · exact .error

variable [NeZero T]

/-- The forward update reads one step of the log. -/
theorem forward_logAt (d : DynamicsModel α D n) (a : Fin n → Act D) (sim : Traj α n T) {log log' : Traj α n T} (m : Fin n → Bool)
    (inj : Bool) {t : Int} (h : ∀ i, dynIndex (log' i) (t + 1) = dynIndex (log i) (t + 1)) :
    d.forward a sim log' m t inj = d.forward a sim log m t inj := by
  unfold DynamicsModel.forward
  funext i
  unfold applyTrajectoryUpdate
  simp only [h i]

/-- A step uses the log up to the step it simulates. -/
theorem C148_step (d : DynamicsModel α D n) (cfg : EnvConfig) {k : Nat} {s s' : SimState α n T} (h : SameRun k s s')
    (hk : s.timestep + 1 ≤ k) (a : Fin n → Act D) : Both (SameRun k) (step d cfg s a) (step d cfg s' a) := by
  have hm : envControlMask cfg s' = envControlMask cfg s := by
    unfold envControlMask; rw [h.objects, h.sim]
  unfold step
  rw [hm]
  cases envControlMask cfg s with
  | error e => exact .error
  | ok m =>
    refine .ok ⟨⟨h.log, h.lights, h.objects, h.paths, h.roadgraph⟩, ?_, ?_, ?_, hk⟩
    · simp only [h.sim, h.clock]
      exact forward_logAt _ _ _ _ _ (h.logAt (by have := h.started; omega) hk)
    · simp only [h.clock]
    · have := h.started; simp only; omega

omit [NeZero T] in
theorem reset_clock {cfg : EnvConfig} {s s0 : SimState α n T} (h : reset cfg s = .ok s0) : s0.timestep = cfg.initSteps - 1 := by
  rw [reset_eq] at h
  split at h
  · split at h
    · cases h; rfl
    · cases h
  · cases h

theorem step_clock {d : DynamicsModel α D n} {cfg : EnvConfig} {s s1 : SimState α n T} {a : Fin n → Act D}
    (h : step d cfg s a = .ok s1) : s1.timestep = s.timestep + 1 := by
  obtain ⟨m, -, rfl⟩ := step_ok h
  rfl

/-- A whole episode of the environment: as long as it stays within the part the two recordings share, the same actions lead to the
same simulated states, or to the same exception, whatever the recordings say later. -/
theorem C148_episode (d : DynamicsModel α D n) (cfg : EnvConfig) {k : Nat} (h1 : 1 ≤ cfg.initSteps) {s s' : SimState α n T}
    (h : SameUntil k s s') (as : List (Fin n → Act D)) (hk : cfg.initSteps + as.length ≤ k + 1) :
    Both (SameRun k) (reset cfg s >>= fun s0 => stepMany d cfg s0 as) (reset cfg s' >>= fun s0 => stepMany d cfg s0 as) := by
  have key : ∀ (as : List (Fin n → Act D)) (x x' : SimState α n T), SameRun k x x' → x.timestep + as.length ≤ k →
      Both (SameRun k) (stepMany d cfg x as) (stepMany d cfg x' as) := by
    intro as
    induction as with
    | nil => exact fun x x' hx _ => .ok hx
    | cons a as ih =>
      intro x x' hx hb
      simp only [List.length_cons, Nat.cast_add, Nat.cast_one] at hb
      unfold stepMany
      refine ((C148_step d cfg hx (by omega) a).and (fun _ hy => step_clock hy)).bind fun y y' hy => ih _ _ hy.1 ?_
      rw [hy.2]; omega
  refine ((C148_reset cfg h1 (by omega) h).and (fun _ hy => reset_clock hy)).bind fun y y' hy => key as _ _ hy.1 ?_
  rw [hy.2]; omega

omit [NeZero T] in
/-- Whether the episode is over. -/
theorem C148_truncation : Present (truncation (α := α) (n := n) (T := T)) := by
  intro k s s' h
  unfold truncation SimState.remainingTimesteps
  rw [h.clock]

omit [ScalarOps α] in
/-- The expert looks exactly one step ahead, for every dynamics model. -/
theorem C148_expert {K P : Type} (d : DynamicsModel α D n) {f : SimState α n T → Fin n → Bool} (hf : Present f) :
    OneStepAhead (expertActor (K := K) (P := P) d f) := by
  refine ⟨fun _ _ _ _ _ => rfl, fun k s s' p x key h hk => ?_⟩
  simp only [expertActor, inferExpertAction, h.sim, h.clock, h.objects, hf k s s' h]
  congr 2
  funext i t
  split
  · rfl
  · exact h.logAt (by have := h.started; omega) hk i

end

section
variable {n T : Nat} [NeZero T]

/-- Observations, in every frame: with a window that does not reach before the first step. -/
theorem C148_observation {k : Nat} {s s' : SimState ℝ n T} (h : SameRun k s s') (hT : s.timestep < T) {K : Nat}
    (hK : (K : Int) ≤ s.timestep + 1) (topk : Nat) (frame : Frame) :
    (∀ i, observationFromState s' K topk frame i = observationFromState s K topk frame i) ∧
    sdcObservationFromState s' K topk frame = sdcObservationFromState s K topk frame := by
  refine C50_no_future ⟨h.clock, fun j τ _ => by rw [h.sim], ?_, h.objects, h.roadgraph, h.paths⟩ hK h.started hT topk frame
  exact h.lights.imp fun l l' hl τ hτ => hl τ (by have := h.early; omega)

/-- The six metrics that judge the current step. -/
theorem C148_metrics : Present (logDivergenceMetric (n := n) (T := T)) ∧ Present (overlapMetric (n := n) (T := T)) ∧
    Present (offroadMetric (n := n) (T := T)) ∧ (∀ P, Present (kinematicsInfeasibilityMetric P (n := n) (T := T))) ∧
    Present (wrongWayMetric (n := n) (T := T)) ∧ Present (offRouteMetric (n := n) (T := T)) := by
  have hsdc : ∀ {k} {s s' : SimState ℝ n T}, SameRun k s s' → sdcXyCurrent s' = sdcXyCurrent s ∧ sdcValidCurrent s' = sdcValidCurrent s := by
    intro k s s' h
    unfold sdcXyCurrent sdcValidCurrent
    rw [h.sim, h.clock, h.objects]
    exact ⟨rfl, rfl⟩
  refine ⟨fun k s s' h => ?_, fun k s s' h => ?_, fun k s s' h => ?_, fun P k s s' h => ?_, fun k s s' h => ?_, fun k s s' h => ?_⟩
  · funext i
    unfold logDivergenceMetric
    rw [h.sim, h.clock, h.logAt h.started h.early i]
  · unfold overlapMetric; rw [h.sim, h.clock]
  · unfold offroadMetric; rw [h.sim, h.clock, h.roadgraph]
  · funext i
    unfold kinematicsInfeasibilityMetric; rw [h.sim, h.clock]
  · unfold wrongWayMetric
    rw [h.paths, (hsdc h).1]
  · unfold offRouteMetric
    rw [h.paths, (hsdc h).1, (hsdc h).2]

/-- Progression relates the position of the SDC to where its log ends: it is the same as soon as that position is. -/
theorem C148_progression {k : Nat} {s s' : SimState ℝ n T} (h : SameRun k s s')
    (hend : ∀ i (t : Fin T), t.val + 1 = T → (s.objectMetadata i).isSdc = true →
      (s'.logTrajectory i t).x = (s.logTrajectory i t).x ∧ (s'.logTrajectory i t).y = (s.logTrajectory i t).y) :
    progressionMetric s' = progressionMetric s := by
  have hT : 0 < T := Nat.pos_of_ne_zero (NeZero.ne T)
  have hlog : ∀ t : Fin T, (t.val = 0 ∨ t.val + 1 = T) → sdcXyLog s' t = sdcXyLog s t := by
    intro t ht
    unfold sdcXyLog selectByOnehot
    rw [h.objects]
    have : ∀ i, (s.objectMetadata i).isSdc = true →
        (s'.logTrajectory i t).x = (s.logTrajectory i t).x ∧ (s'.logTrajectory i t).y = (s.logTrajectory i t).y := by
      intro i hi
      rcases ht with ht | ht
      · rw [h.log i t (by omega)]; exact ⟨rfl, rfl⟩
      · exact hend i t ht hi
    refine Prod.ext ?_ ?_ <;> simp only <;> refine Finset.sum_congr rfl fun i _ => ?_ <;> by_cases hi : (s.objectMetadata i).isSdc = true
    · rw [(this i hi).1]
    · rw [if_neg hi, mul_zero, mul_zero]
    · rw [(this i hi).2]
    · rw [if_neg hi, mul_zero, mul_zero]
  unfold progressionMetric
  have h1 : sdcXyCurrent s' = sdcXyCurrent s := by unfold sdcXyCurrent; rw [h.sim, h.clock, h.objects]
  have h2 : sdcValidCurrent s' = sdcValidCurrent s := by unfold sdcValidCurrent; rw [h.sim, h.clock, h.objects]
  rw [h.paths, h1, h2, hlog _ (.inl rfl), hlog _ (.inr (by simp only; omega))]

omit [NeZero T] in
/-- The metrics dictionary, when each requested metric of the registry only uses what is known at the current step. -/
theorem C148_run_metrics {reg : Dict (Metric n T)} {names : List String}
    (hreg : ∀ name ∈ names, ∀ m, reg.get? name = some m → Present m) : Present (envMetrics reg names) := by
  intro k s s' h
  unfold envMetrics runMetrics
  have : ∀ (ns : List String) (d : Dict (MetricArr n)), (∀ x ∈ ns, x ∈ names) →
      (ns.foldlM (init := d) fun results name =>
        match reg.get? name with
        | some m => do return results.set name (← m s')
        | none => (.error .valueError : Except Err _)) =
      ns.foldlM (init := d) fun results name =>
        match reg.get? name with
        | some m => do return results.set name (← m s)
        | none => .error .valueError := by
    intro ns
    induction ns with
    | nil => exact fun _ _ => rfl
    | cons a ns ih =>
      intro d hn
      rw [List.foldlM_cons, List.foldlM_cons]
      cases hm : reg.get? a with
      | none => rfl
      | some m =>
        simp only [hreg a (hn a List.mem_cons_self) m hm k s s' h]
        congr 1
        funext x
        exact ih x fun y hy => hn y (List.mem_cons_of_mem _ hy)
  exact this names [] fun _ hx => hx

/-- The metrics the environment reports, for every list of metrics without `sdc_progression`. -/
theorem C148_env_metrics {names : List String} (hn : "sdc_progression" ∉ names) :
    Present (envMetrics (n := n) (T := T) builtinMetrics names) := by
  obtain ⟨h1, h2, h3, h4, h5, h6⟩ := C148_metrics (n := n) (T := T)
  refine C148_run_metrics fun name hname m hm k s s' h => ?_
  have : name ≠ "sdc_progression" := fun hc => hn (hc ▸ hname)
  unfold Dict.get? at hm
  rw [Option.map_eq_some_iff] at hm
  obtain ⟨e, he, rfl⟩ := hm
  have hk := List.find?_some he
  have hmem := List.mem_of_find?_eq_some he
  simp only [beq_iff_eq] at hk
  simp only [builtinMetrics, List.mem_cons, List.not_mem_nil, or_false] at hmem
  rcases hmem with rfl | rfl | rfl | rfl | rfl | rfl | rfl
  · simp only [h1 k s s' h]
  · simp only [h2 k s s' h]
  · simp only [h3 k s s' h]
  · simp only [h4 _ k s s' h]
  · simp only [h5 k s s' h]
  · exact absurd hk.symm this
  · simp only [h6 k s s' h]

/-- The reward, for every configuration without a weight for `sdc_progression`. -/
theorem C148_reward {D : Type} (cfg : EnvConfig) (computeReward : Bool) {rewards : Dict ℝ}
    (hn : "sdc_progression" ∉ rewards.map Prod.fst) (a : Fin n → Act D) :
    Present fun s : SimState ℝ n T => envReward builtinMetrics cfg computeReward rewards s a := by
  intro k s s' h
  have := C148_env_metrics (n := n) (T := T) hn k s s' h
  unfold envMetrics at this
  simp only [envReward, linearReward, h.objects, this]

/-- Rollouts: if the actor knows at most one step more than the present and metrics and rewards are of the kind above, all outputs of a
rollout that stays within the common part are equal. -/
theorem C148_rollout {D X K P M R : Type} (d : DynamicsModel ℝ D n) (cfg : EnvConfig) (h1 : 1 ≤ cfg.initSteps)
    {metrics : SimState ℝ n T → Except Err M} (hm : Present metrics)
    {reward : SimState ℝ n T → (Fin n → Act D) → Except Err R} (hr : ∀ a, Present fun s => reward s a)
    {A : Actor (SimState ℝ n T) (Fin n → Act D) X K P (Fin n → Bool)} (hA : OneStepAhead A) (split : K → K × K) (params : P)
    (zeros : (Fin n → Act D) → Fin n → Act D) {k : Nat} {s s' : SimState ℝ n T} (h : SameUntil k s s') (rng : K) (numSteps : Nat)
    (hk : cfg.initSteps + numSteps ≤ k + 1) :
    Both (List.Forall₂ (SameOutcome k))
      (rollout (baseEnv d cfg metrics reward) A split params zeros s rng numSteps)
      (rollout (baseEnv d cfg metrics reward) A split params zeros s' rng numSteps) := by
  unfold rollout
  let E := baseEnv d cfg metrics reward
  let Q := SameOutcome (α := ℝ) (D := D) (n := n) (T := T) (M := M) (R := R) k
  let rel : Nat → RolloutCarry (SimState ℝ n T) (SimState ℝ n T) X K → RolloutCarry (SimState ℝ n T) (SimState ℝ n T) X K → Prop :=
    fun left c c' => SameRun k c.state c'.state ∧ SameRun k c.observation c'.observation ∧ c'.rng = c.rng ∧
      c'.actorState = c.actorState ∧ c.state.timestep + left ≤ k
  have hstep : ∀ left c c', rel (left + 1) c c' → Both (fun x x' => rel left x.1 x'.1 ∧ Q x.2 x'.2)
      (rolloutStep E A split params c) (rolloutStep E A split params c') := by
    rintro left ⟨st, ob, key, x⟩ ⟨st', ob', key', x'⟩ ⟨g1, g2, g3, g4, g5⟩
    simp only [Nat.cast_add, Nat.cast_one] at g1 g2 g3 g4 g5
    subst g3 g4
    unfold rolloutStep
    simp only [hA.select k st st' _ _ _ g1 (by omega)]
    refine ((C148_step d cfg g1 (by omega) _).and (fun _ hy => step_clock hy)).bind fun t t' ht => ?_
    have e1 : E.metrics st' = E.metrics st := hm k st st' g1
    rw [e1]
    cases E.metrics st with
    | error e => exact .error
    | ok M =>
      have e2 : ∀ a, E.reward st' a = E.reward st a := fun a => hr a k st st' g1
      simp only [e2]
      change Both _ (E.reward st _ >>= fun r => _) (E.reward st _ >>= fun r => _)
      cases E.reward st (A.selectAction params st x' (split key').1).action with
      | error e => exact .error
      | ok r =>
        refine .ok ⟨⟨ht.1, ht.1, rfl, rfl, ?_⟩, ⟨rfl, g1, g2, rfl, rfl⟩⟩
        rw [ht.2]; omega
  have hscan : ∀ j c c', rel j c c' → Both (fun x x' => rel 0 x.1 x'.1 ∧ List.Forall₂ Q x.2 x'.2)
      (scan (rolloutStep E A split params) j c) (scan (rolloutStep E A split params) j c') := by
    intro j
    induction j with
    | zero => exact fun c c' hcc => .ok ⟨hcc, .nil⟩
    | succ j ih =>
      intro c c' hcc
      unfold scan
      refine (hstep j c c' hcc).bind fun x x' hx => ?_
      exact (ih _ _ hx.1).bind fun y y' hy => .ok ⟨hy.1, .cons hx.2 hy.2⟩
  refine ((C148_reset cfg h1 (by omega) h).and (fun _ hy => reset_clock hy)).bind fun s0 s0' h0 => ?_
  have hinit := hA.init k s0 s0' (split rng).1 h0.1
  simp only [hinit]
  refine (hscan numSteps { state := s0, observation := s0, rng := (split rng).2, actorState := A.init (split rng).1 s0 }
    { state := s0', observation := s0', rng := (split rng).2, actorState := A.init (split rng).1 s0 }
    ⟨h0.1, h0.1, rfl, rfl, by simp only; rw [h0.2]; omega⟩).bind fun x x' hx => ?_
  obtain ⟨c, out⟩ := x
  obtain ⟨c', out'⟩ := x'
  obtain ⟨⟨g1, g2, -, -, -⟩, hout⟩ := hx
  simp only at g1 g2 hout ⊢
  have hlast : (out.getLast? = none ∧ out'.getLast? = none) ∨ ∃ e e', out.getLast? = some e ∧ out'.getLast? = some e' ∧ Q e e' := by
    rw [List.getLast?_eq_head?_reverse, List.getLast?_eq_head?_reverse]
    have := List.rel_reverse hout
    cases hr : out.reverse <;> cases hr' : out'.reverse <;> rw [hr, hr'] at this <;> cases this
    · exact .inl ⟨rfl, rfl⟩
    · rename_i hq _; exact .inr ⟨_, _, rfl, rfl, hq⟩
  rcases hlast with ⟨h1, h2⟩ | ⟨e, e', h1, h2, hq⟩
  · rw [h1, h2]; exact .error
  · rw [h1, h2]
    simp only [hq.action]
    have e1 : E.metrics c'.state = E.metrics c.state := hm k _ _ g1
    have e2 : ∀ a, E.reward c'.state a = E.reward c.state a := fun a => hr a k _ _ g1
    change Both _ (E.metrics c.state >>= _) (E.metrics c'.state >>= _)
    rw [e1]
    cases E.metrics c.state with
    | error e => exact .error
    | ok M =>
      change Both _ (E.reward c.state _ >>= _) (E.reward c'.state _ >>= _)
      rw [e2]
      cases E.reward c.state (zeros e.action) with
      | error e => exact .error
      | ok r => exact .ok (List.rel_append hout (.cons ⟨rfl, g1, g2, rfl, rfl⟩ .nil))

/-! ### The planning environment -/

section
variable {D X K P : Type}

theorem C148_plan_reset {E : PlanEnv D X K P n T} (hA : ∀ A ∈ E.actors, AgentOneStepAhead A) {k : Nat} (h1 : 1 ≤ E.cfg.initSteps)
    (hk : E.cfg.initSteps ≤ k + 1) {s s' : SimState ℝ n T} (h : SameUntil k s s') (split : K → Nat → List K) (rng : Option K) :
    Both (SamePlanRun k) (planReset E split s rng) (planReset E split s' rng) := by
  have hr := C148_reset E.cfg h1 hk h
  unfold reset at hr
  unfold planReset
  refine hr.bind fun s0 s0' h0 => .ok ⟨h0, ?_⟩
  simp only
  refine List.map_congr_left fun e he => ?_
  exact (hA e.2 (List.of_mem_zip he).2).init k _ _ _ ⟨h0, rfl⟩

/-- Which objects the sim agents may control is decided by the first logged step. -/
theorem initializedOverlap_start {k : Nat} {s s' : SimState ℝ n T} (h : SameUntil k s s') :
    initializedOverlap s'.logTrajectory = initializedOverlap s.logTrajectory := by
  have : (fun i => dynIndex (s'.logTrajectory i) 0) = fun i => dynIndex (s.logTrajectory i) 0 :=
    funext fun i => h.logAt (le_refl 0) (Int.natCast_nonneg k) i
  unfold initializedOverlap
  simp only [this]
  funext i
  have hb : (fun k => (dynIndex (s'.logTrajectory k) 0).box) = fun k => (dynIndex (s.logTrajectory k) 0).box :=
    funext fun i => congrArg Pt.box (congrFun this i)
  rw [hb]

theorem C148_plan_step {E : PlanEnv D X K P n T} (hA : ∀ A ∈ E.actors, AgentOneStepAhead A) {k : Nat} {s s' : PlanState X n T}
    (h : SamePlanRun k s s') (hk : s.sim.timestep + 1 ≤ k) (split : K → Nat → List K) (a : Act D) (rng : Option K) :
    Both (SamePlanRun k) (planStep E split s a rng) (planStep E split s' a rng) := by
  unfold planStep
  rw [h.2]
  split
  · exact .error
  · have hcur : s'.sim.currentSim = s.sim.currentSim := by
      unfold SimState.currentSim; rw [h.1.sim, h.1.clock]
    have hloop : ∀ (es : List (SimAgent X K P n T × X × P × Option K)) (acc : Merged X n), (∀ e ∈ es, e.1 ∈ E.actors) →
        ∀ ok : Fin n → Bool, es.foldl (mergeSimAgent s' ok) acc = es.foldl (mergeSimAgent s ok) acc := by
      intro es
      induction es with
      | nil => exact fun _ _ _ => rfl
      | cons e es ih =>
        intro acc he ok
        rw [List.foldl_cons, List.foldl_cons]
        have : mergeSimAgent s' ok acc e = mergeSimAgent s ok acc e := by
          unfold mergeSimAgent
          rw [(hA e.1 (he e List.mem_cons_self)).select k s s' _ _ _ h hk]
        rw [this]
        exact ih _ (fun e' he' => he e' (List.mem_cons_of_mem _ he')) ok
    have hmem : ∀ e ∈ E.actors.zip (s.actorStates.zip (E.params.zip (planKeys split rng E.actors.length))), e.1 ∈ E.actors :=
      fun e he => (List.of_mem_zip he).1
    refine .ok ⟨⟨⟨h.1.log, h.1.lights, h.1.objects, h.1.paths, h.1.roadgraph⟩, ?_, ?_, ?_, hk⟩, ?_⟩
    · simp only [hcur, initializedOverlap_start h.1.toSameUntil, h.1.objects, hloop _ _ hmem, h.1.sim, h.1.clock]
      exact forward_logAt _ _ _ _ _ (h.1.logAt (by have := h.1.started; omega) hk)
    · simp only [h.1.clock]
    · have := h.1.started; simp only; omega
    · simp only [hcur, initializedOverlap_start h.1.toSameUntil, h.1.objects, hloop _ _ hmem]

/-- Episodes of the planning environment with such sim agents: the same simulated states and the same internal states of the agents,
whatever is logged later. -/
theorem C148_plan_episode {E : PlanEnv D X K P n T} (hA : ∀ A ∈ E.actors, AgentOneStepAhead A) {k : Nat} (h1 : 1 ≤ E.cfg.initSteps)
    {s s' : SimState ℝ n T} (h : SameUntil k s s') (split : K → Nat → List K) (rng : Option K) (as : List (Act D × Option K))
    (hk : E.cfg.initSteps + as.length ≤ k + 1) :
    Both (SamePlanRun k) (planReset E split s rng >>= fun s0 => planMany E split s0 as)
      (planReset E split s' rng >>= fun s0 => planMany E split s0 as) := by
  have key : ∀ (as : List (Act D × Option K)) (x x' : PlanState X n T), SamePlanRun k x x' → x.sim.timestep + as.length ≤ k →
      Both (SamePlanRun k) (planMany E split x as) (planMany E split x' as) := by
    intro as
    induction as with
    | nil => exact fun x x' hx _ => .ok hx
    | cons a as ih =>
      intro x x' hx hb
      simp only [List.length_cons, Nat.cast_add, Nat.cast_one] at hb
      unfold planMany
      refine ((C148_plan_step hA hx (by omega) split a.1 a.2).and (p := fun y => y.sim.timestep = x.sim.timestep + 1) fun y hy => ?_).bind
        fun y y' hy => ih _ _ hy.1 ?_
      · rw [planStep_eq] at hy
        split at hy
        · cases hy
        · cases hy; rfl
      · rw [hy.2]; omega
  refine ((C148_plan_reset hA h1 (by omega) h split rng).and (p := fun y => y.sim.timestep = (E.cfg.initSteps : Int) - 1) fun y hy => ?_).bind
    fun y y' hy => key as _ _ hy.1 ?_
  · unfold planReset at hy
    cases hs : reset E.cfg s with
    | error e => unfold reset at hs; rw [hs] at hy; cases hy
    | ok s0 =>
      have := reset_clock hs
      unfold reset at hs; rw [hs] at hy; cases hy
      exact this
  · rw [hy.2]; omega

/-- Objects that stand still, the frozen agent, need no log at all. -/
theorem C148_frozen : AgentOneStepAhead (simAgent (K := K) (P := P) (n := n) (T := T) defaultControlFunc frozenUpdate) := by
  refine ⟨fun _ _ _ _ _ => rfl, fun k s s' p x key h hk => ?_⟩
  have hc : defaultControlFunc s'.sim = defaultControlFunc s.sim := by
    funext i; unfold defaultControlFunc; rw [h.1.objects]
  simp only [simAgent, frozenUpdate, h.1.sim, h.1.clock, hc]

end

/-! ### Examples, and progression -/

/-- The SDC drives along the path of C39 from x = 0 to x = 10; what it does in the last step, ending at `stop`, is not known before. -/
noncomputable def exFork (stop : ℝ) : SimState ℝ 1 3 :=
  { simTrajectory := fun _ t => if t.val < 2 then parked (if t = 0 then 0 else 10) 0 true else invalidPt
    logTrajectory := fun _ t => parked (if t = 0 then 0 else if t = 1 then 10 else stop) 0 true
    logTrafficLight := []
    objectMetadata := fun _ => ⟨0, 1, true, true, true, false, false⟩
    timestep := 1, sdcPaths := some [exPath], roadgraphPoints := none }

theorem exFork_until (a b : ℝ) : SameUntil 1 (exFork a) (exFork b) := by
  refine ⟨fun i t ht => ?_, .nil, rfl, rfl, rfl⟩
  have ht2 : t = 0 ∨ t = 1 := by
    rcases t with ⟨v, hv⟩
    simp only at ht
    interval_cases v <;> simp
  rcases ht2 with rfl | rfl <;> rfl

/-- The two forks are the states the environment resets to after two warm-up steps. -/
theorem exFork_reset (a : ℝ) : reset { maxNumObjects := 1, initSteps := 2 } (exFork a) = .ok (exFork a) := by
  rw [reset_eq, if_pos rfl, if_pos (by norm_num)]
  simp only [exFork, Except.ok.injEq, SimState.mk.injEq, and_true]
  refine ⟨?_, by norm_num⟩
  funext i t
  fin_cases t <;> simp

theorem exFork_run (a b : ℝ) : SameRun 1 (exFork a) (exFork b) := ⟨exFork_until a b, rfl, rfl, by simp [exFork], by simp [exFork]⟩

/-- The hypotheses of `C148_episode` can be met, with recordings that differ after the common part. -/
example : SameUntil 1 (exFork 10) (exFork 20) ∧ (exFork 10).logTrajectory ≠ (exFork 20).logTrajectory ∧
    ∃ s s', reset { maxNumObjects := 1, initSteps := 2 } (exFork 10) = .ok s ∧
      reset { maxNumObjects := 1, initSteps := 2 } (exFork 20) = .ok s' ∧ SameRun 1 s s' :=
  ⟨exFork_until _ _, fun h => by have := congrArg Pt.x (congrFun (congrFun h 0) 2); simp [exFork, parked] at this,
    _, _, exFork_reset _, exFork_reset _, exFork_run _ _⟩

/-- Progression is the one metric for which the future counts: at the same point the SDC has made all of its way if its log ends
here, and half of it if the log goes on as far again. -/
theorem C148_progression_knows_the_end : ¬ Present (progressionMetric (n := 1) (T := 3)) := by
  intro h
  have heq := h 1 (exFork 10) (exFork 20) (exFork_run 10 20)
  have hk : ∀ a, IsTheSdc (exFork a) 0 := fun a i => by simp [exFork, Fin.eq_zero]
  have ht : ∀ a, ((1 : Fin 3) : Int) = (exFork a).timestep := fun a => rfl
  have hne : ∃ path ∈ [exPath], path.points ≠ [] := ⟨exPath, by simp, by simp [exPath]⟩
  have hd : ∀ a : ℝ, (distancesTo [exPath] (fun p => p.onRoute = true) (((exFork a).simTrajectory 0 1).x,
      ((exFork a).simTrajectory 0 1).y)).Nonempty :=
    fun a => ⟨_, exPath, by simp, rfl, ⟨0, 0, 0, 1, true, 0⟩, by simp [exPath], rfl, rfl⟩
  obtain ⟨r, hr, hv, -, -⟩ := C39_progression_exact (hk 10) (ht 10) (paths := [exPath]) rfl hne (first := 0) (last := 2) rfl rfl
  have hval := (C39_start_and_end (hk 10) (ht 10) (paths := [exPath]) rfl hne (first := 0) (last := 2) rfl rfl hr
    (hv.2 ⟨rfl, hd 10⟩)).1 (by simp [exFork, parked]) (by simp [exFork, parked])
  obtain ⟨r', hr', hv', -, hx'⟩ := C39_progression_exact (hk 20) (ht 20) (paths := [exPath]) rfl hne (first := 0) (last := 2) rfl rfl
  obtain ⟨path, pc, ps, pe, ⟨k, d, hk', -⟩, hc, hs, he, hrv⟩ := hx' (hv'.2 ⟨rfl, hd 20⟩)
  have hpath : path = exPath := by
    have := List.mem_of_getElem? hk'
    simpa using this
  subst hpath
  have e0 := exPath_nearest 0
  have e1 := exPath_nearest 1
  have e2 := exPath_nearest 2
  norm_num at e0 e1 e2
  have hc' := hc.unique (q := ⟨10, 0, 0, 1, true, 10⟩) (by simpa [exFork, parked] using e1)
  have hs' := hs.unique (q := ⟨0, 0, 0, 1, true, 0⟩) (by simpa [exFork, parked] using e0)
  have he' := he.unique (q := ⟨20, 0, 0, 1, true, 20⟩) (by simpa [exFork, parked] using e2)
  subst hc' hs' he'
  rw [hr, hr'] at heq
  cases heq
  rw [hval] at hrv
  norm_num at hrv

end

end Waymax
