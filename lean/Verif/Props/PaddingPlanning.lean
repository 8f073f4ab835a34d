import Verif.Props.Padding
/-
C141: order and padding of the objects in the planning environment (real arithmetic), and concrete cases for C140.
-/

namespace Waymax

section
variable {D X K P : Type} {n m T : Nat} [NeZero T] {f : Fin n → Fin m}

/-! ### Sim agents -/

/-- The built-in sim agents decide the same however the objects are stored. -/
theorem C141_agents (f : Fin n → Fin m) :
    (∀ P' : IdmParams, SameAgent f (idmAgent (K := K) (P' := P) (T := T) P') (idmAgent P')) ∧
    (∀ v : ℝ, SameAgent f (constantSpeedPolicy (K := K) (P := P) (T := T) v) (constantSpeedPolicy v)) ∧
    SameAgent f (simAgent (K := K) (P := P) (T := T) defaultControlFunc frozenUpdate) (simAgent defaultControlFunc frozenUpdate) := by
  refine ⟨fun P' => ⟨fun _ _ _ _ => rfl, fun _ _ _ _ _ _ => rfl, fun s s' _ _ _ h i => ?_, fun s s' _ _ _ h => ?_⟩,
    fun v => ⟨fun _ _ _ _ => rfl, fun _ _ _ _ _ _ => rfl, fun s s' _ _ _ h i => ?_, fun s s' _ _ _ h => ?_⟩,
    ⟨fun _ _ _ _ => rfl, fun _ _ _ _ _ _ => rfl, fun s s' _ _ _ h i => ?_, fun s s' _ _ _ h => ?_⟩⟩
  · exact congrArg Upd.asAction ((C140_idm P' h.1).2.1 i)
  · exact (C140_idm P' h.1).2.2
  · refine congrArg Upd.asAction ?_
    unfold waypointUpdate constantSpeedUpdate
    simp only [h.1.cur, h.1.logFun]
  · exact (C140_idm {} h.1).2.2
  · refine congrArg Upd.asAction ?_
    unfold frozenUpdate
    simp only [h.1.cur]
  · exact (C140_idm {} h.1).2.2

/-! ### Reset and step -/

/-- In the first logged frame no box of a padding object meets the box of a real one. -/
def PaddingApart (f : Fin n → Fin m) (log : Traj ℝ m T) : Prop :=
  let interior := fun j => let p := log j 0; rectInterior p.x p.y p.length p.width p.yaw
  ∀ i j, (∀ k, f k ≠ j) → ¬ (interior (f i) ∩ interior j).Nonempty

theorem startsOverlapping_same {s : SimState ℝ n T} {s' : SimState ℝ m T} (h : StoredAs f s s')
    (hp : PaddingApart f s'.logTrajectory) (i : Fin n) :
    StartsOverlapping s'.logTrajectory (f i) ↔ StartsOverlapping s.logTrajectory i := by
  unfold StartsOverlapping
  simp only
  constructor
  · rintro ⟨j, hj, hne⟩
    rcases real_or_padding f j with ⟨k, rfl⟩ | hpad
    · refine ⟨k, fun hk => hj (by rw [hk]), ?_⟩
      simpa only [h.log] using hne
    · exact absurd hne (hp i j hpad)
  · rintro ⟨k, hk, hne⟩
    refine ⟨f k, fun hh => hk (h.separate hh), ?_⟩
    simpa only [h.log] using hne

omit [NeZero T] in
theorem loopOutputs_same {E : PlanEnv D X K P n T} {E' : PlanEnv D X K P m T} (hE : SamePlanEnv f E E')
    {s : PlanState X n T} {s' : PlanState X m T} (h : SamePlan f s s') (split : K → Nat → List K) (rng : Option K) :
    List.Forall₂ (fun o o' => o'.actorState = o.actorState ∧ SameEntries f o.action o'.action ∧
      SameEntries f o.isControlled o'.isControlled) (loopOutputs E split s rng) (loopOutputs E' split s' rng) := by
  unfold loopOutputs
  rw [hE.params, h.2, ← hE.actors.length_eq]
  generalize s.actorStates.zip (E.params.zip (planKeys split rng E.actors.length)) = zs
  have := hE.actors
  clear hE
  generalize E.actors = as at this
  generalize E'.actors = as' at this
  induction this generalizing zs with
  | nil => exact .nil
  | cons ha _ ih =>
    cases zs with
    | nil => exact .nil
    | cons z zs =>
      exact .cons ⟨ha.state _ _ _ _ _ h, ha.action _ _ _ _ _ h, ha.claims _ _ _ _ _ h⟩ (ih zs)

/-- `reset` of the planning environment. -/
theorem C141_reset {E : PlanEnv D X K P n T} {E' : PlanEnv D X K P m T} (hE : SamePlanEnv f E E')
    {s : SimState ℝ n T} {s' : SimState ℝ m T} (h : StoredAs f s s') (split : K → Nat → List K) (rng : Option K) :
    Both (SamePlan f) (planReset E split s rng) (planReset E' split s' rng) := by
  have hr := C140_reset hE.size h
  unfold reset at hr
  unfold planReset
  rw [hE.cfg]
  refine hr.bind fun s0 s0' h0 => .ok ⟨h0, ?_⟩
  simp only
  rw [← hE.actors.length_eq]
  generalize planKeys split rng E.actors.length = ks
  have := hE.actors
  clear hE hr
  generalize E.actors = as at this
  generalize E'.actors = as' at this
  induction this generalizing ks with
  | nil => simp
  | cons ha _ ih =>
    cases ks with
    | nil => simp
    | cons k ks =>
      rw [List.zip_cons_cons, List.zip_cons_cons, List.map_cons, List.map_cons, ih ks]
      rw [ha.init _ _ _ (show SamePlan f { sim := s0, actorStates := [] } { sim := s0', actorStates := [] } from ⟨h0, rfl⟩)]

/-- The part that holds of one `step`: reordering never matters, and padding does not matter as long as its boxes keep away from
the real ones in the first logged frame. -/
theorem C141_step_partial {E : PlanEnv D X K P n T} {E' : PlanEnv D X K P m T} (hE : SamePlanEnv f E E')
    {s : PlanState X n T} {s' : PlanState X m T} (h : SamePlan f s s') (hp : PaddingApart f s'.sim.logTrajectory)
    (split : K → Nat → List K) (a : Act D) (rng : Option K) :
    Both (SamePlan f) (planStep E split s a rng) (planStep E' split s' a rng) := by
  rw [planStep_eq, planStep_eq, h.2, ← hE.actors.length_eq]
  split
  · exact .error
  · have hout := loopOutputs_same hE h split rng
    have hok : ∀ i, initializedOverlap s'.sim.logTrajectory (f i) = initializedOverlap s.sim.logTrajectory i := fun i => by
      rw [Bool.eq_iff_iff, initializedOverlap_iff, initializedOverlap_iff]
      exact startsOverlapping_same h.1 hp i
    refine .ok ⟨⟨h.1.separate, ?_, h.1.log, h.1.objects, by simp only [h.1.clock], h.1.lights, h.1.paths, h.1.roadgraph, ?_,
      h.1.padLog, h.1.padObjects⟩, ?_⟩
    · intro i t
      refine congrFun (?_ : _ = _) t
      unfold DynamicsModel.forward
      simp only [h.1.clock, hE.cfg]
      refine applyUpdate_same (fun i => ?_) h.1.simFun h.1.logFun (fun i => ?_) _ _ _ i
      · refine congrArg stateUpdate ?_
        have h0 : ((E'.dynamics.computeUpdate (fun _ => a) s'.sim.currentSim (f i)).asAction : Act (StateRow ℝ)) =
            (E.dynamics.computeUpdate (fun _ => a) s.sim.currentSim i).asAction :=
          congrArg Upd.asAction (hE.dynamics a _ _ (fun k => h.1.cur k) i)
        generalize hg : (fun i => (E.dynamics.computeUpdate (fun _ => a) s.sim.currentSim i).asAction) = acc
        generalize hg' : (fun i => (E'.dynamics.computeUpdate (fun _ => a) s'.sim.currentSim i).asAction) = acc'
        have h1 : acc' (f i) = acc i := by rw [← hg, ← hg']; exact h0
        clear hg hg' h0
        generalize loopOutputs E split s rng = os at hout
        generalize loopOutputs E' split s' rng = os' at hout
        induction hout generalizing acc acc' with
        | nil => exact h1
        | cons ho _ ih =>
          rw [List.foldl_cons, List.foldl_cons]
          refine ih _ _ ?_
          simp only [whereAct, ho.2.1 i, ho.2.2 i, hok i, h1]
      · simp only [h.1.objects]
        congr 1
        generalize loopOutputs E split s rng = os at hout
        generalize loopOutputs E' split s' rng = os' at hout
        induction hout with
        | nil => rfl
        | cons ho _ ih => rw [List.any_cons, List.any_cons, ih, ho.2.2 i, hok i]
    · intro j hj t
      exact applyUpdate_padding (h.1.padSim j hj) (h.1.padLog j hj) _ _ _ t
    · simp only
      generalize loopOutputs E split s rng = os at hout
      generalize loopOutputs E' split s' rng = os' at hout
      induction hout with
      | nil => rfl
      | cons ho _ ih => rw [List.map_cons, List.map_cons, ih, ho.1]

theorem planStep_log {E : PlanEnv D X K P n T} {split : K → Nat → List K} {s s1 : PlanState X n T} {a : Act D} {rng : Option K}
    (h : planStep E split s a rng = .ok s1) : s1.sim.logTrajectory = s.sim.logTrajectory := by
  rw [planStep_eq] at h
  split at h
  · exact absurd h (by simp)
  · rw [← Except.ok.inj h]

/-- Whole episodes. -/
theorem C141_episode_partial {E : PlanEnv D X K P n T} {E' : PlanEnv D X K P m T} (hE : SamePlanEnv f E E')
    {s : SimState ℝ n T} {s' : SimState ℝ m T} (h : StoredAs f s s') (hp : PaddingApart f s'.logTrajectory)
    (split : K → Nat → List K) (rng : Option K) (acts : List (Act D × Option K)) :
    Both (SamePlan f) (planReset E split s rng >>= fun s0 => planMany E split s0 acts)
      (planReset E' split s' rng >>= fun s0 => planMany E' split s0 acts) := by
  have hreset := C141_reset hE h split rng
  have hlog : ∀ s0, planReset E' split s' rng = .ok s0 → s0.sim.logTrajectory = s'.logTrajectory := by
    intro s0 hs0
    have hr := reset_eq E'.cfg s'
    unfold reset at hr
    unfold planReset at hs0
    rw [hr] at hs0
    split at hs0
    · split at hs0
      · rw [← Except.ok.inj hs0]
      · cases hs0
    · cases hs0
  have hmany : ∀ (s0 : PlanState X n T) (s0' : PlanState X m T), SamePlan f s0 s0' →
      s0'.sim.logTrajectory = s'.logTrajectory → Both (SamePlan f) (planMany E split s0 acts) (planMany E' split s0' acts) := by
    induction acts with
    | nil => exact fun _ _ h0 _ => .ok h0
    | cons a as ih =>
      intro s0 s0' h0 hl
      unfold planMany
      have hst := C141_step_partial hE h0 (by rw [hl]; exact hp) split a.1 a.2
      cases hx : planStep E split s0 a.1 a.2 with
      | error e =>
        rw [hx] at hst
        rw [(hst.iff.1 e).1 rfl]
        exact .error
      | ok s1 =>
        rw [hx] at hst
        obtain ⟨s1', hs1', h1⟩ := hst.iff.2.1 s1 rfl
        rw [hs1']
        exact ih s1 s1' h1 ((planStep_log hs1').trans hl)
  cases hx : planReset E split s rng with
  | error e =>
    rw [hx] at hreset
    rw [(hreset.iff.1 e).1 rfl]
    exact .error
  | ok s0 =>
    rw [hx] at hreset
    obtain ⟨s0', hs0', h0⟩ := hreset.iff.2.1 s0 rfl
    rw [hs0']
    exact hmany s0 s0' h0 (hlog s0' hs0')

/-! ### Metrics and reward of the planning environment -/

omit [NeZero T] in
theorem selectMetricArr_same {r : MetricArr n} {r' : MetricArr m} (hf : Function.Injective f) (hr : SameMetric f r r')
    {c : Fin n → Bool} {c' : Fin m → Bool} (hc : ∀ i, c' (f i) = c i) (hp : ∀ j, (∀ i, f i ≠ j) → c' j = false) :
    selectMetricArr r' c' = selectMetricArr r c := by
  cases hr with
  | perObject hr =>
    unfold selectMetricArr selectMetric
    simp only
    rw [selectByOnehot_same hf (fun i => by rw [hr i]) hc hp, selectByOnehotBool_same hf (fun i => by rw [hr i]) hc hp]
  | scalar => rfl

omit [NeZero T] in
theorem maskKinematic_same {r : MetricArr n} {r' : MetricArr m} (hr : SameMetric f r r') (ok : Bool) :
    SameMetric f (maskKinematic r ok) (maskKinematic r' ok) := by
  cases hr with
  | perObject hr => exact .perObject fun i => by simp only [hr i]
  | scalar => exact .scalar

/-- The planning environment's metrics and reward do not depend on the storage. -/
theorem C141_metrics {reg : Dict (Metric n T)} {reg' : Dict (Metric m T)} (hreg : SameRegistry T f reg reg') (cfg : EnvConfig)
    (names : List String) {s : SimState ℝ n T} {s' : SimState ℝ m T} (h : StoredAs f s s') :
    Both (SameMetrics f) (planMetrics reg cfg names s) (planMetrics reg' (cfg.sized m) names s') := by
  unfold planMetrics
  refine (C140_run_metrics hreg names h).bind fun d d' hd => ?_
  have hloop : Both (SameMetrics f) (planSelectLoop (fun i => (s.objectMetadata i).isSdc) d)
      (planSelectLoop (fun i => (s'.objectMetadata i).isSdc) d') := by
    unfold planSelectLoop
    refine Both.foldlM _ (fun d d' hd name _ => ?_) hd
    unfold planSelectOne
    rcases get_same (Q := SameMetric f) hd name with ⟨h1, h2⟩ | ⟨x, y, h1, h2, hxy⟩
    · rw [h1, h2]; exact .ok hd
    · rw [h1, h2]
      simp only
      rw [selectMetricArr_same h.separate hxy h.sdc.1 h.sdc.2]
      cases selectMetricArr x fun i => (s.objectMetadata i).isSdc with
      | error e => exact .error
      | ok r => exact .ok (set_same hd name .scalar)
  refine hloop.bind fun d d' hd => ?_
  split
  · rcases get_same (Q := SameMetric f) hd "kinematic_infeasibility" with ⟨h1, h2⟩ | ⟨x, y, h1, h2, hxy⟩
    · rw [h1, h2]; exact .error
    · rw [h1, h2, h.clock]
      simp only
      rw [selectMetricArr_same h.separate (maskKinematic_same hxy _) h.sdc.1 h.sdc.2]
      rw [show (cfg.sized m).initSteps = cfg.initSteps from rfl]
      cases selectMetricArr (maskKinematic x (decide (s.timestep > (cfg.initSteps : Int) - 1)))
        fun i => (s.objectMetadata i).isSdc with
      | error e => exact .error
      | ok r => exact .ok (set_same hd _ .scalar)
  · exact .ok hd

theorem C141_reward {reg : Dict (Metric n T)} {reg' : Dict (Metric m T)} (hreg : SameRegistry T f reg reg')
    {E : PlanEnv D X K P n T} {E' : PlanEnv D X K P m T} (hE : SamePlanEnv f E E') (computeReward : Bool)
    {s : SimState ℝ n T} {s' : SimState ℝ m T} (h : StoredAs f s s') (a : Act D) :
    Both Eq (planReward reg E computeReward s a) (planReward reg' E' computeReward s' a) := by
  have hr := C140_reward hreg E.cfg computeReward E.rewards h (fun _ => a) (fun _ => a)
  unfold envReward at hr
  unfold planReward
  rw [hE.cfg, hE.rewards]
  cases computeReward with
  | false => exact .ok rfl
  | true =>
    simp only [if_true] at hr ⊢
    have := hr.bind (R' := (Eq : ℝ → ℝ → Prop))
      (k := fun r => .ok (selectByOnehot r fun i => (s.objectMetadata i).isSdc))
      (k' := fun r => .ok (selectByOnehot r fun i => (s'.objectMetadata i).isSdc)) fun r r' hrr =>
        .ok (selectByOnehot_same h.separate hrr.1 h.sdc.1 h.sdc.2).symm
    simp only [bind_assoc] at this
    exact this

end

/-! ### The full statement, and why it fails -/

/-- The claim: episodes of the planning environment do not depend on how the objects are stored. -/
def PlanningIgnoresStorage (n m T : Nat) [NeZero T] : Prop :=
  ∀ (f : Fin n → Fin m) (E : PlanEnv (StateRow ℝ) Unit Unit Unit n T) (E' : PlanEnv (StateRow ℝ) Unit Unit Unit m T)
    (_ : SamePlanEnv f E E') (s : SimState ℝ n T) (s' : SimState ℝ m T) (_ : StoredAs f s s')
    (split : Unit → Nat → List Unit) (acts : List (Act (StateRow ℝ) × Option Unit)),
    Both (SamePlan f) (planReset E split s none >>= fun s0 => planMany E split s0 acts)
      (planReset E' split s' none >>= fun s0 => planMany E' split s0 acts)

/-- Car 0, the SDC, stands 20 m away; car 1 drives near the origin of the map. -/
noncomputable def originScen : SimState ℝ 2 3 :=
  { simTrajectory := fun _ _ => invalidPt
    logTrajectory := fun i t => if i = 0 then ptAt 20 0 0 0 0 else ptAt (-1 + t.val) (-1) 0 10 0
    logTrafficLight := [], objectMetadata := fun i => ⟨i.val, 1, decide (i = 0), true, true, false, false⟩
    timestep := 0, sdcPaths := none, roadgraphPoints := none }

/-- The same scenario with room for a third object, filled as the data set fills absent objects. -/
noncomputable def originPadded : SimState ℝ 3 3 :=
  { simTrajectory := fun _ _ => invalidPt
    logTrajectory := fun i t => if i = 0 then ptAt 20 0 0 0 0 else if i = 1 then ptAt (-1 + t.val) (-1) 0 10 0 else invalidPt
    logTrafficLight := []
    objectMetadata := fun i => if i = 2 then ⟨-1, -1, false, false, false, false, false⟩
      else ⟨i.val, 1, decide (i = 0), true, true, false, false⟩
    timestep := 0, sdcPaths := none, roadgraphPoints := none }

theorem origin_stored : StoredAs (Fin.castSucc : Fin 2 → Fin 3) originScen originPadded where
  separate := Fin.castSucc_injective 2
  sim := fun _ _ => rfl
  log := fun i t => by fin_cases i <;> rfl
  objects := fun i => by fin_cases i <;> rfl
  clock := rfl
  lights := rfl
  paths := rfl
  roadgraph := rfl
  padSim := fun _ _ _ => rfl
  padLog := fun j hj t => by
    fin_cases j
    · exact absurd rfl (hj 0)
    · exact absurd rfl (hj 1)
    · rfl
  padObjects := fun j hj => by
    fin_cases j
    · exact absurd rfl (hj 0)
    · exact absurd rfl (hj 1)
    · exact ⟨rfl, rfl, rfl⟩

theorem frozen_same (n m : Nat) (f : Fin n → Fin m) :
    SamePlanEnv f (pushEnv (n := n) (T := 3) [simAgent defaultControlFunc frozenUpdate])
      (pushEnv (n := m) (T := 3) [simAgent defaultControlFunc frozenUpdate]) where
  dynamics := fun _ _ _ _ _ => rfl
  cfg := rfl
  size := rfl
  rewards := rfl
  params := rfl
  actors := .cons (C141_agents f).2.2 .nil

/-- In `originScen` the two cars are apart; in `originPadded` the placeholder box lies on car 1. -/
theorem origin_boxes : ¬ StartsOverlapping originScen.logTrajectory 1 ∧ StartsOverlapping originPadded.logTrajectory 1 := by
  constructor
  · rintro ⟨j, hj, p, ⟨u, v, hu, hv, hp⟩, ⟨u', v', hu', hv', hp'⟩⟩
    have h := congrArg Prod.fst (hp.symm.trans hp')
    fin_cases j
    · simp only [originScen, ptAt, pointAt, heading, leftOf] at h hu hu'
      rw [abs_lt] at hu hu'
      norm_num at hu hu' h
      linarith [hu.1, hu.2, hu'.1, hu'.2]
    · exact absurd rfl hj
  · have h1 : originPadded.logTrajectory 1 0 = ptAt (-1) (-1) 0 10 0 := by norm_num [originPadded]
    have h2 : originPadded.logTrajectory 2 0 = invalidPt := rfl
    refine ⟨2, by decide, (-1, -1), ⟨0, 0, ?_, ?_, ?_⟩, ⟨0, 0, ?_, ?_, ?_⟩⟩ <;>
      norm_num [h1, h2, ptAt, invalidPt, ScalarOps.invalid, pointAt]

/-- The code violates the claim: a sim agent that is to keep car 1 where it is does so in the scenario of two objects. With one
padding object added, whose placeholder box lies on car 1, the agent is ignored and car 1 replays the log. -/
theorem C141_violated : ¬ PlanningIgnoresStorage 2 3 3 := by
  intro hfull
  let split : Unit → Nat → List Unit := fun _ k => List.replicate k ()
  let act : Act (StateRow ℝ) := { data := ⟨20, 0, 0, 0, 0⟩, valid := true }
  let E := pushEnv (n := 2) (T := 3) [simAgent defaultControlFunc frozenUpdate]
  let E' := pushEnv (n := 3) (T := 3) [simAgent defaultControlFunc frozenUpdate]
  have h := hfull _ E E' (frozen_same 2 3 Fin.castSucc) _ _ origin_stored split [(act, none)]
  obtain ⟨s0, hs0⟩ : ∃ s0, planReset E split originScen none = .ok s0 := ⟨_, reset_push _ _⟩
  obtain ⟨s0', hs0'⟩ : ∃ s0, planReset E' split originPadded none = .ok s0 := ⟨_, reset_push _ _⟩
  rw [hs0, hs0'] at h
  rw [reset_push] at hs0 hs0'
  have he := Except.ok.inj hs0
  have he' := Except.ok.inj hs0'
  obtain ⟨s1, hs1⟩ : ∃ s1, planStep E split s0 act none = .ok s1 := by
    rw [planStep_eq, if_neg (by rw [← he]; simp [E, pushEnv])]
    exact ⟨_, rfl⟩
  obtain ⟨s1', hs1'⟩ : ∃ s1, planStep E' split s0' act none = .ok s1 := by
    rw [planStep_eq, if_neg (by rw [← he']; simp [E', pushEnv])]
    exact ⟨_, rfl⟩
  have hb : SamePlan Fin.castSucc s1 s1' := by
    have hm : planMany E split s0 [(act, none)] = .ok s1 := by unfold planMany planMany; rw [hs1]; rfl
    have hm' : planMany E' split s0' [(act, none)] = .ok s1' := by unfold planMany planMany; rw [hs1']; rfl
    change Both _ (planMany E split s0 [(act, none)]) (planMany E' split s0' [(act, none)]) at h
    rw [hm, hm'] at h
    cases h with
    | ok h => exact h
  have ht : ((1 : Fin 3) : Int) = s0.sim.timestep := by rw [← he]; rfl
  have ht2 : ((2 : Fin 3) : Int) = s0.sim.timestep + 1 := by rw [← he]; rfl
  have ht' : ((1 : Fin 3) : Int) = s0'.sim.timestep := by rw [← he']; rfl
  have ht2' : ((2 : Fin 3) : Int) = s0'.sim.timestep + 1 := by rw [← he']; rfl
  have hx := ((C45_who_moves hs1 ht ht2 1).1 0 _ ⟨by rw [← he]; rfl, rfl, by
      rw [← he]; exact origin_boxes.1⟩ (by
    intro k' o' hk' hcl
    obtain ⟨k, rfl⟩ : ∃ k, k' = k + 1 := ⟨k' - 1, by omega⟩
    have := hcl.1
    simp [agentOutput, E, pushEnv] at this)).1
  have hx' := (C45_overlapping_follow_log hs1' ht' ht2' 1 (by rw [← he']; exact origin_boxes.2) (by rw [← he']; rfl)).1
  have hsame := congrArg Pt.x (hb.1.sim 1 2)
  change (s1'.sim.simTrajectory 1 2).x = (s1.sim.simTrajectory 1 2).x at hsame
  rw [hx, hx', ← he'] at hsame
  have hcur : dynIndex (fun t : Fin 3 => if t.val < 2 then originScen.logTrajectory 1 t else invalidPt) 1 =
      originScen.logTrajectory 1 1 := by
    exact dynIndex_of_eq (t := (1 : Fin 3)) _ (by norm_num)
  change (originPadded.logTrajectory 1 2).x =
    (dynIndex (fun t : Fin 3 => if t.val < 2 then originScen.logTrajectory 1 t else invalidPt) 1).x at hsame
  rw [hcur] at hsame
  norm_num [originPadded, originScen, ptAt] at hsame

/-! ### Concrete cases -/

/-- C140: the padded scenario satisfies the hypothesis, and the bicycle model's metrics and rewards agree on it. -/
example (names : List String) : Both (SameMetrics Fin.castSucc) (envMetrics builtinMetrics names originScen)
    (envMetrics builtinMetrics names originPadded) := C140_run_metrics (C140_metrics _) names origin_stored

/-- C140 for a mere reordering: swapping the two cars of `originScen`. -/
example : StoredAs (fun i : Fin 2 => 1 - i) originScen
    { originScen with
      logTrajectory := fun i => originScen.logTrajectory (1 - i)
      objectMetadata := fun i => originScen.objectMetadata (1 - i) } where
  separate := by decide
  sim := fun _ _ => rfl
  log := fun i t => by fin_cases i <;> rfl
  objects := fun i => by fin_cases i <;> rfl
  clock := rfl
  lights := rfl
  paths := rfl
  roadgraph := rfl
  padSim := fun _ _ _ => rfl
  padLog := fun j hj t => by
    fin_cases j
    · exact absurd rfl (hj 1)
    · exact absurd rfl (hj 0)
  padObjects := fun j hj => by
    fin_cases j
    · exact absurd rfl (hj 1)
    · exact absurd rfl (hj 0)

/-- C140: an episode of the padded scenario under the bicycle model, the padding object being steered at will. -/
example (a : Fin 2 → Act AccelSteer) (b : Act AccelSteer) :
    Both (StoredAs Fin.castSucc)
      (reset { maxNumObjects := 2, initSteps := 1 } originScen >>= fun s0 =>
        stepMany (bicycle {}) { maxNumObjects := 2, initSteps := 1 } s0 [a])
      (reset { maxNumObjects := 3, initSteps := 1 } originPadded >>= fun s0 =>
        stepMany (bicycle {}) { maxNumObjects := 3, initSteps := 1 } s0 [fun j => if h : j.val < 2 then a ⟨j, h⟩ else b]) :=
  C140_episode (n := 2) (m := 3) (f := Fin.castSucc) (cfg := { maxNumObjects := 2, initSteps := 1 }) (as := [a])
    (as' := [fun j => if h : j.val < 2 then a ⟨j, h⟩ else b]) (d := fun n => bicycle {} (n := n)) ((C140_builtin (α := ℝ)).2.2.2 {}) rfl
    (.cons (fun i => by simp; intro h; exact absurd i.isLt (by omega)) .nil) origin_stored

/-- C141: padding that keeps away from the cars; and a reordering has no padding at all. -/
example : PaddingApart (fun i : Fin 2 => 1 - i) originScen.logTrajectory := fun _ j hj => by
  fin_cases j
  · exact absurd rfl (hj 1)
  · exact absurd rfl (hj 0)

/-- Cars at 20 m and 40 m, and a padding object with the usual placeholder values: it keeps away from both. -/
example : PaddingApart (Fin.castSucc : Fin 2 → Fin 3) (T := 3)
    (fun i _ => if i = 2 then invalidPt else ptAt (20 * (i.val + 1)) 0 0 0 0) := by
  rintro i j hj ⟨p, ⟨u, v, hu, hv, hp⟩, ⟨u', v', hu', hv', hp'⟩⟩
  have hj2 : j = 2 := by
    fin_cases j
    · exact absurd rfl (hj 0)
    · exact absurd rfl (hj 1)
    · rfl
  subst hj2
  have h := congrArg Prod.fst (hp.symm.trans hp')
  have hi : (i.castSucc : Fin 3) ≠ 2 := by fin_cases i <;> decide
  simp only [hi, if_false, if_true, ptAt, pointAt, heading, leftOf, invalidPt, ScalarOps.invalid, Real.cos_zero, Real.sin_zero]
    at h hu hu' hv'
  have hc := Real.abs_cos_le_one (-1)
  have hs := Real.abs_sin_le_one (-1)
  have h1 : |u' * Real.cos (-1)| ≤ 1 / 2 := by
    rw [abs_mul]; norm_num at hu'; nlinarith [abs_nonneg u', abs_nonneg (Real.cos (-1))]
  have h2 : |v' * Real.sin (-1)| ≤ 1 / 2 := by
    rw [abs_mul]; norm_num at hv'; nlinarith [abs_nonneg v', abs_nonneg (Real.sin (-1))]
  rw [abs_le] at h1 h2
  norm_num at hu
  rw [abs_lt] at hu
  have hi0 : (0 : ℝ) ≤ (i.val : ℝ) := Nat.cast_nonneg _
  have hcs : ((i.castSucc : Fin 3).val : ℝ) = (i.val : ℝ) := rfl
  rw [hcs] at h
  linarith [h1.1, h1.2, h2.1, h2.2, hu.1, hu.2]

end Waymax
