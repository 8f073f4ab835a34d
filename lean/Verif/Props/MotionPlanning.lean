import Verif.Props.MotionAgents
import Verif.Props.PaddingPlanning
import Verif.Props.Idm
/-
C147: the map frame and the planning environment with its sim agents.
-/

namespace Waymax

open Real

section
variable {D X K P : Type} {n T : Nat} [NeZero T] {g : Motion}

/-! ### Sim agents -/

omit [NeZero T] in
theorem AgentMoved.asAction {u u' : Upd ℝ} (h : UpdMoved g u u') :
    StateMoved g (u.asAction).data (u'.asAction).data ∧ (u'.asAction).valid = (u.asAction).valid :=
  ⟨⟨h.position, h.velocity, h.yaw⟩, h.valid⟩

theorem idmSpeeds_valid {P' : IdmParams} (hP : P'.lookaheadFromCurrentPosition = true ∨ (P'.maxLookahead ≤ T ∧ P'.maxLookahead ≠ 0))
    (s : SimState ℝ n T) (i : Fin n) : (idmSpeeds P' s i).2 = true := by
  unfold idmSpeeds
  have hf := C48_fails_iff P' s i
  cases hx : idmUpdateSpeed P' s i with
  | error e =>
    obtain ⟨h1, h2⟩ := hf.1 ⟨e, hx⟩
    rcases hP with h | ⟨h3, h4⟩
    · rw [h] at h1; cases h1
    · rcases h2 with h2 | h2
      · omega
      · exact absurd h2 h4
  | ok r =>
    unfold idmUpdateSpeed at hx
    cases ha : idmAccel P' s.logTrajectory (fun j => dynIndex (s.simTrajectory j) s.timestep) i with
    | error e => simp [ha, bind, Except.bind] at hx
    | ok a =>
      simp only [ha, bind, Except.bind, pure, Except.pure, Except.ok.injEq] at hx
      rw [← hx]

/-- The frozen agent, and the IDM agent that does not invalidate at the end of the route (its default) and whose look-ahead fits the
log (C48). -/
theorem C147_agents (g : Motion) :
    AgentFrameFree g (simAgent (K := K) (P := P) (n := n) (T := T) defaultControlFunc frozenUpdate) ∧
    ∀ P' : IdmParams, P'.invalidateOnEnd = false →
      (P'.lookaheadFromCurrentPosition = true ∨ (P'.maxLookahead ≤ T ∧ P'.maxLookahead ≠ 0)) →
      AgentFrameFree g (idmAgent (K := K) (P' := P) (n := n) (T := T) P') := by
  refine ⟨⟨fun _ _ _ _ => rfl, fun _ _ _ _ _ _ _ => rfl, fun _ _ _ _ _ h _ => C146_claims h.1, fun _ _ _ _ _ h _ i hi => ?_⟩,
    fun P' hinv hP => ⟨fun _ _ _ _ => rfl, fun _ _ _ _ _ _ _ => rfl, fun _ _ _ _ _ h _ => C146_claims h.1,
      fun s _ _ _ _ h hl i hi => ?_⟩⟩
  · exact AgentMoved.asAction ((C146_frozen h.1 i).2 hi)
  · refine AgentMoved.asAction ((C146_idm P' h.1 (hl i)).2 ?_)
    unfold waypointUpdate nextByProjection
    rw [hinv]
    simp only [idmSpeeds_valid hP, hi, Bool.and_self, if_true, Bool.false_eq_true, if_false]

/-! ### First logged frame -/

theorem startsOverlapping_moved {log log' : Traj ℝ n T} (h : ∀ i t, PtMoved g (log i t) (log' i t)) (h1 : AbsentApart log)
    (h2 : AbsentApart log') (i : Fin n) : StartsOverlapping log' i ↔ StartsOverlapping log i := by
  have hside : ∀ (l : Traj ℝ n T), AbsentApart l → ∀ i j, i ≠ j → (rectInterior (l i 0).x (l i 0).y (l i 0).length (l i 0).width (l i 0).yaw ∩
      rectInterior (l j 0).x (l j 0).y (l j 0).length (l j 0).width (l j 0).yaw).Nonempty →
      (l i 0).valid = true ∧ (l j 0).valid = true := by
    intro l hl i j hij hne
    constructor
    · cases hv : (l i 0).valid
      · rw [Set.inter_comm] at hne
        exact absurd hne (hl j i (Ne.symm hij) hv)
      · rfl
    · cases hv : (l j 0).valid
      · exact absurd hne (hl i j hij hv)
      · rfl
  have hov : ∀ j, (log i 0).valid = true → (log j 0).valid = true →
      ((rectInterior (log' i 0).x (log' i 0).y (log' i 0).length (log' i 0).width (log' i 0).yaw ∩
        rectInterior (log' j 0).x (log' j 0).y (log' j 0).length (log' j 0).width (log' j 0).yaw).Nonempty ↔
      (rectInterior (log i 0).x (log i 0).y (log i 0).length (log i 0).width (log i 0).yaw ∩
        rectInterior (log j 0).x (log j 0).y (log j 0).length (log j 0).width (log j 0).yaw).Nonempty) := by
    intro j hi hj
    have := hasOverlap_moved (h i 0) (h j 0) hi hj
    rw [C25_overlap_exact, C25_overlap_exact] at this
    exact this
  unfold StartsOverlapping
  simp only
  constructor
  · rintro ⟨j, hj, hne⟩
    obtain ⟨v1, v2⟩ := hside log' h2 i j (Ne.symm hj) hne
    rw [(h i 0).valid] at v1
    rw [(h j 0).valid] at v2
    exact ⟨j, hj, (hov j v1 v2).1 hne⟩
  · rintro ⟨j, hj, hne⟩
    obtain ⟨v1, v2⟩ := hside log h1 i j (Ne.symm hj) hne
    exact ⟨j, hj, (hov j v1 v2).2 hne⟩

/-! ### Reset, step, episode -/

/-- `reset` of the planning environment. -/
theorem C147_reset {E : PlanEnv D X K P n T} (hA : ∀ A ∈ E.actors, AgentFrameFree g A) {s s' : SimState ℝ n T} (h : Moved g s s')
    (split : K → Nat → List K) (rng : Option K) : Both (PlanMoved g) (planReset E split s rng) (planReset E split s' rng) := by
  have hr := C142_reset E.cfg h
  unfold reset at hr
  unfold planReset
  refine hr.bind fun s0 s0' h0 => .ok ⟨h0, ?_⟩
  simp only
  refine List.map_congr_left fun e he => ?_
  exact (hA e.2 (List.of_mem_zip he).2).init _ _ _ ⟨h0, rfl⟩

/-- What the sim agents answer, in both frames. -/
theorem loopOutputs_moved {E : PlanEnv D X K P n T} (hA : ∀ A ∈ E.actors, AgentFrameFree g A) {s s' : PlanState X n T}
    (h : PlanMoved g s s') (hl : PresentLogged s.sim) (split : K → Nat → List K) (rng : Option K) :
    List.Forall₂ (fun o o' => o'.actorState = o.actorState ∧ o'.isControlled = o.isControlled ∧
      ∀ i, (dynIndex (s.sim.simTrajectory i) s.sim.timestep).valid = true →
        StateMoved g (o.action i).data (o'.action i).data ∧ (o'.action i).valid = (o.action i).valid)
      (loopOutputs E split s rng) (loopOutputs E split s' rng) := by
  unfold loopOutputs
  rw [h.2, List.forall₂_map_left_iff, List.forall₂_map_right_iff, List.forall₂_same]
  intro e he
  have ha := hA e.1 (List.of_mem_zip he).1
  exact ⟨ha.state _ _ _ _ _ h hl, ha.claims _ _ _ _ _ h hl, ha.action _ _ _ _ _ h hl⟩

/-- One `step`, as long as absent objects' boxes keep away from the others in the first logged frame and no object enters in this
step. -/
theorem C147_step_partial {E : PlanEnv D X K P n T} (hA : ∀ A ∈ E.actors, AgentFrameFree g A) {rel : D → D → Prop}
    (hd : FrameFree g rel E.dynamics) {s s' : PlanState X n T} (h : PlanMoved g s s') (hl : PresentLogged s.sim)
    (hap : AbsentApart s.sim.logTrajectory) (hap' : AbsentApart s'.sim.logTrajectory)
    (hent : E.cfg.allowNewObjectsAfterWarmup = true → ∀ i, (dynIndex (s.sim.logTrajectory i) (s.sim.timestep + 1)).valid = true →
      (dynIndex (s.sim.simTrajectory i) s.sim.timestep).valid = true)
    (split : K → Nat → List K) {a a' : Act D × Option K} (ha : PlanActMoved rel a a') :
    Both (PlanMoved g) (planStep E split s a.1 a.2) (planStep E split s' a'.1 a'.2) := by
  obtain ⟨ha1, ha2, ha3⟩ := ha
  rw [planStep_eq, planStep_eq, h.2, ha3]
  split
  · exact .error
  · have hout := loopOutputs_moved hA h hl split a.2
    have hok : initializedOverlap s'.sim.logTrajectory = initializedOverlap s.sim.logTrajectory := by
      funext i
      rw [Bool.eq_iff_iff, initializedOverlap_iff, initializedOverlap_iff]
      exact startsOverlapping_moved h.1.log hap hap' i
    refine .ok ⟨⟨?_, h.1.log, h.1.objects, by simp only [h.1.clock], h.1.lights, h.1.paths, h.1.roadgraph⟩, ?_⟩
    · have hctl : (fun i => (s'.sim.objectMetadata i).isSdc || (loopOutputs E split s' a.2).any fun o =>
            o.isControlled i && !(initializedOverlap s'.sim.logTrajectory i)) =
          fun i => (s.sim.objectMetadata i).isSdc || (loopOutputs E split s a.2).any fun o =>
            o.isControlled i && !(initializedOverlap s.sim.logTrajectory i) := by
        funext i
        rw [h.1.objects, hok]
        congr 1
        generalize loopOutputs E split s a.2 = os at hout
        generalize loopOutputs E split s' a.2 = os' at hout
        induction hout with
        | nil => rfl
        | cons ho _ ih => rw [List.any_cons, List.any_cons, ih, ho.2.1]
      simp only
      rw [hctl]
      generalize (fun i => (s.sim.objectMetadata i).isSdc || (loopOutputs E split s a.2).any fun o =>
            o.isControlled i && !(initializedOverlap s.sim.logTrajectory i)) = c
      have hact : ∀ i, (dynIndex (s.sim.simTrajectory i) s.sim.timestep).valid = true →
          let f := fun (l : Traj ℝ n T) (os : List (ActorOutput (Fin n → Act (StateRow ℝ)) X (Fin n → Bool))) acc =>
            os.foldl (fun a o => whereAct (fun i => o.isControlled i && !(initializedOverlap l i)) o.action a) acc
          let x := f s.sim.logTrajectory (loopOutputs E split s a.2)
            (fun i => (E.dynamics.computeUpdate (fun _ => a.1) s.sim.currentSim i).asAction) i
          let x' := f s'.sim.logTrajectory (loopOutputs E split s' a.2)
            (fun i => (E.dynamics.computeUpdate (fun _ => a'.1) s'.sim.currentSim i).asAction) i
          StateMoved g x.data x'.data ∧ x'.valid = x.valid := by
        intro i hi
        simp only
        have h0 := AgentMoved.asAction (hd (fun _ => a.1) (fun _ => a'.1) s.sim.currentSim s'.sim.currentSim (fun _ => ⟨ha1, ha2⟩)
          h.1.cur i hi)
        rw [hok]
        generalize hg : (fun i => (E.dynamics.computeUpdate (fun _ => a.1) s.sim.currentSim i).asAction) = acc
        generalize hg' : (fun i => (E.dynamics.computeUpdate (fun _ => a'.1) s'.sim.currentSim i).asAction) = acc'
        have h1 : StateMoved g (acc i).data (acc' i).data ∧ (acc' i).valid = (acc i).valid := by rw [← hg, ← hg']; exact h0
        clear hg hg' h0
        generalize loopOutputs E split s a.2 = os at hout
        generalize loopOutputs E split s' a.2 = os' at hout
        induction hout generalizing acc acc' with
        | nil => exact h1
        | cons ho _ ih =>
          rw [List.foldl_cons, List.foldl_cons]
          refine ih _ _ ?_
          rw [ho.2.1, whereAct_apply, whereAct_apply]
          split
          · exact ho.2.2 i hi
          · exact h1
      intro i t
      unfold DynamicsModel.forward applyTrajectoryUpdate
      simp only [h.1.clock]
      unfold dynUpdateSlice
      split
      · refine updatedPt_moved (fun hv => ?_) (h.1.sim i _) (h.1.log i _) (fun h1 _ => hent h1 i)
        obtain ⟨p1, p2⟩ := hact i hv
        exact ⟨p1.position, p1.velocity, p1.yaw, p2⟩
      · exact h.1.sim i t
    · simp only
      generalize loopOutputs E split s a.2 = os at hout
      generalize loopOutputs E split s' a.2 = os' at hout
      induction hout with
      | nil => rfl
      | cons ho _ ih => rw [List.map_cons, List.map_cons, ih, ho.1]

/-- Whole episodes in which no object enters after the warm-up. -/
theorem C147_episode_partial {E : PlanEnv D X K P n T} (hA : ∀ A ∈ E.actors, AgentFrameFree g A) {rel : D → D → Prop}
    (hd : FrameFree g rel E.dynamics) (h1 : 1 ≤ E.cfg.initSteps) {s s' : SimState ℝ n T} (h : Moved g s s')
    (hap : AbsentApart s.logTrajectory) (hap' : AbsentApart s'.logTrajectory) (hno : NoEntry E.cfg s) (split : K → Nat → List K)
    (rng : Option K) {as as' : List (Act D × Option K)} (ha : List.Forall₂ (PlanActMoved rel) as as')
    (hT : E.cfg.initSteps + as.length ≤ T) :
    Both (PlanMoved g) (planReset E split s rng >>= fun s0 => planMany E split s0 as)
      (planReset E split s' rng >>= fun s0 => planMany E split s0 as') := by
  -- the invariants: an object that is present occurs in the log, and one that is in the log now is present
  have key : ∀ (as as' : List (Act D × Option K)), List.Forall₂ (PlanActMoved rel) as as' → ∀ x x' : PlanState X n T, PlanMoved g x x' →
      x.sim.logTrajectory = s.logTrajectory → x'.sim.logTrajectory = s'.logTrajectory →
      (E.cfg.initSteps : Int) ≤ x.sim.timestep + 1 → x.sim.timestep + as.length < T → PresentLogged x.sim →
      (E.cfg.allowNewObjectsAfterWarmup = true → ∀ i, (dynIndex (x.sim.logTrajectory i) x.sim.timestep).valid = true →
        (dynIndex (x.sim.simTrajectory i) x.sim.timestep).valid = true) →
      Both (PlanMoved g) (planMany E split x as) (planMany E split x' as') := by
    intro as as' haa
    induction haa with
    | nil => exact fun _ _ h _ _ _ _ _ _ => .ok h
    | @cons a a' as as' ha _ ih =>
      intro x x' hx hlog hlog' hlo hhi hpl hinv
      rw [List.length_cons] at hhi
      obtain ⟨t, ht⟩ : ∃ t : Fin T, (t : Int) = x.sim.timestep := ⟨⟨x.sim.timestep.toNat, by omega⟩, by simp only; omega⟩
      obtain ⟨t', ht'⟩ : ∃ t : Fin T, (t : Int) = x.sim.timestep + 1 :=
        ⟨⟨(x.sim.timestep + 1).toNat, by omega⟩, by simp only; omega⟩
      have hst := C147_step_partial hA hd hx hpl (by rw [hlog]; exact hap) (by rw [hlog']; exact hap') (by
        intro hal i hl
        refine hinv hal i ?_
        rw [dynIndex_of_eq _ ht'] at hl
        rw [dynIndex_of_eq _ ht]
        rw [hlog] at hl ⊢
        exact hno hal i t t' (by omega) (by omega) hl) split ha
      unfold planMany
      cases hy : planStep E split x a.1 a.2 with
      | error e =>
        rw [hy] at hst
        rw [(hst.iff.1 e).1 rfl]
        exact .error
      | ok y =>
        rw [hy] at hst
        obtain ⟨y', hy', hmv⟩ := hst.iff.2.1 y rfl
        rw [hy']
        have hclock : y.sim.timestep = x.sim.timestep + 1 := by
          have hh := hy
          rw [planStep_eq] at hh
          split at hh
          · cases hh
          · rw [← Except.ok.inj hh]
        have hval : ∀ i, ∃ c : Bool, (y.sim.simTrajectory i t').valid = nextValid E.cfg.allowNewObjectsAfterWarmup c
            (x.sim.simTrajectory i t).valid (x.sim.logTrajectory i t').valid := by
          intro i
          have hh := hy
          rw [planStep_eq] at hh
          split at hh
          · cases hh
          · rw [← Except.ok.inj hh]
            simp only
            rw [forward_apply _ _ _ _ _ _ ht ht', if_pos rfl]
            exact ⟨_, rfl⟩
        have hlogy := planStep_log hy
        refine ih y y' hmv (hlogy.trans hlog) ((planStep_log hy').trans hlog') (by omega) (by omega) ?_ ?_
        · intro i hi
          rw [hclock, dynIndex_of_eq _ ht'] at hi
          obtain ⟨c, hc⟩ := hval i
          rw [hc] at hi
          rw [hlogy]
          cases hcur : (x.sim.simTrajectory i t).valid
          · cases href : (x.sim.logTrajectory i t').valid
            · rw [hcur, href] at hi
              simp [nextValid] at hi
            · exact ⟨t', href⟩
          · exact hpl i (by rw [dynIndex_of_eq _ ht]; exact hcur)
        · intro hal i hi
          rw [hclock, dynIndex_of_eq _ ht', hlogy] at hi
          rw [hclock, dynIndex_of_eq _ ht']
          obtain ⟨c, hc⟩ := hval i
          rw [hc, hi, hal]
          cases c <;> cases (x.sim.simTrajectory i t).valid <;> rfl
  have hr := C147_reset hA h split rng
  have hlogs : ∀ s x, planReset E split s rng = .ok x → x.sim = { s with
      timestep := (E.cfg.initSteps : Int) - 1
      simTrajectory := fun i t => if t.val < E.cfg.initSteps then s.logTrajectory i t else invalidPt } := by
    intro s x hx
    have hr := reset_eq E.cfg s
    unfold reset at hr
    unfold planReset at hx
    rw [hr] at hx
    split at hx
    · split at hx
      · rw [← Except.ok.inj hx]
      · cases hx
    · cases hx
  cases hx : planReset E split s rng with
  | error e =>
    rw [hx] at hr
    rw [(hr.iff.1 e).1 rfl]
    exact .error
  | ok x =>
    rw [hx] at hr
    obtain ⟨x', hx', h0⟩ := hr.iff.2.1 x rfl
    rw [hx']
    have e := hlogs s x hx
    have e' := hlogs s' x' hx'
    have ht0 : ((⟨E.cfg.initSteps - 1, by omega⟩ : Fin T) : Int) = (E.cfg.initSteps : Int) - 1 := by simp only; omega
    have hcur : ∀ i, dynIndex (x.sim.simTrajectory i) x.sim.timestep = s.logTrajectory i ⟨E.cfg.initSteps - 1, by omega⟩ := by
      intro i
      rw [e]
      simp only
      rw [dynIndex_of_eq _ ht0, if_pos (by simp only; omega)]
    refine key as as' ha x x' h0 (by rw [e]) (by rw [e']) (by rw [e]; simp only; omega) (by rw [e]; simp only; omega) ?_ ?_
    · intro i hi
      rw [hcur] at hi
      rw [e]
      exact ⟨_, hi⟩
    · intro _ i hi
      rw [hcur]
      rw [e] at hi
      simp only at hi
      rw [dynIndex_of_eq _ ht0] at hi
      exact hi

end

/-! ### The code violates the unrestricted claim -/

/-- The claim: episodes of the planning environment do not depend on the map frame. -/
def PlanningIgnoresFrame (n T : Nat) [NeZero T] : Prop :=
  ∀ (g : Motion) (E : PlanEnv (StateRow ℝ) Unit Unit Unit n T) (_ : ∀ A ∈ E.actors, AgentFrameFree g A)
    (_ : FrameFree g (StateMoved g) E.dynamics) (s s' : SimState ℝ n T) (_ : Moved g s s') (split : Unit → Nat → List Unit)
    (as as' : List (Act (StateRow ℝ) × Option Unit)) (_ : List.Forall₂ (PlanActMoved (StateMoved g)) as as'),
    Both (PlanMoved g) (planReset E split s none >>= fun s0 => planMany E split s0 as)
      (planReset E split s' none >>= fun s0 => planMany E split s0 as')

/-- `originPadded` (car 0, the SDC, 20 m away, car 1 near the origin, object 2 never present), shifted by 10 m. -/
noncomputable def originShifted : SimState ℝ 3 3 :=
  { originPadded with
    logTrajectory := fun i t => if i = 0 then ptAt 30 0 0 0 0 else if i = 1 then ptAt (9 + t.val) (-1) 0 10 0 else invalidPt }

theorem origin_shifted : Moved shift10 originPadded originShifted where
  sim := fun _ _ => invalid_moved _
  log := fun i t => by
    fin_cases i
    · refine ⟨rfl, rfl, rfl, rfl, rfl, rfl, fun _ => ?_, fun _ => ?_, fun _ => ⟨0, ?_⟩⟩ <;>
        norm_num [shift10, Motion.point, Motion.vec, originPadded, originShifted, ptAt]
    · refine ⟨rfl, rfl, rfl, rfl, rfl, rfl, fun _ => ?_, fun _ => ?_, fun _ => ⟨0, ?_⟩⟩ <;>
        norm_num [shift10, Motion.point, Motion.vec, originPadded, originShifted, ptAt]
      ring
    · exact invalid_moved _
  objects := rfl
  clock := rfl
  lights := rfl
  paths := rfl
  roadgraph := rfl

/-- Shifted, car 1 is away from the placeholder box of object 2. -/
theorem shifted_apart : ¬ StartsOverlapping originShifted.logTrajectory 1 := by
  rintro ⟨j, hj, p, ⟨u, v, hu, hv, hp⟩, ⟨u', v', hu', hv', hp'⟩⟩
  have h := congrArg Prod.fst (hp.symm.trans hp')
  fin_cases j
  · simp only [originShifted, ptAt, pointAt, heading, leftOf] at h hu hu'
    rw [abs_lt] at hu hu'
    norm_num at hu hu' h
    linarith [hu.1, hu.2, hu'.1, hu'.2]
  · exact absurd rfl hj
  · have h1 : originShifted.logTrajectory 1 0 = ptAt 9 (-1) 0 10 0 := by norm_num [originShifted]
    have h2 : originShifted.logTrajectory 2 0 = invalidPt := rfl
    simp only [Fin.reduceFinMk, h1, h2, ptAt, invalidPt, ScalarOps.invalid, pointAt, heading, leftOf, cos_zero, sin_zero] at h hu hu' hv'
    have hc := Real.abs_cos_le_one (-1)
    have hs := Real.abs_sin_le_one (-1)
    have e1 : |u' * Real.cos (-1)| ≤ 1 / 2 := by
      rw [abs_mul]; norm_num at hu'; nlinarith [abs_nonneg u', abs_nonneg (Real.cos (-1))]
    have e2 : |v' * Real.sin (-1)| ≤ 1 / 2 := by
      rw [abs_mul]; norm_num at hv'; nlinarith [abs_nonneg v', abs_nonneg (Real.sin (-1))]
    rw [abs_le] at e1 e2
    norm_num at hu
    rw [abs_lt] at hu
    norm_num at h e1 e2
    linarith [hu.1, hu.2, e1.1, e1.2, e2.1, e2.2]

/-- The code violates the claim: in the map frame in which car 1 starts on the placeholder box of an absent object, its sim agent is
ignored and it replays the log; shift the scenario by 10 m and the agent keeps it where it is. -/
theorem C147_violated : ¬ PlanningIgnoresFrame 3 3 := by
  intro hfull
  let split : Unit → Nat → List Unit := fun _ k => List.replicate k ()
  let act : Act (StateRow ℝ) := { data := ⟨20, 0, 0, 0, 0⟩, valid := true }
  let act' : Act (StateRow ℝ) := { data := ⟨30, 0, 0, 0, 0⟩, valid := true }
  let E := pushEnv (n := 3) (T := 3) [simAgent defaultControlFunc frozenUpdate]
  have h := hfull shift10 E (by
      intro A hA
      rw [List.mem_singleton.1 hA]
      exact (C147_agents shift10).1) (C142_state _) _ _ origin_shifted split [(act, none)] [(act', none)]
    (.cons ⟨⟨by norm_num [act, act', shift10, Motion.point, Motion.vec], by norm_num [act, act', shift10, Motion.vec],
      ⟨0, by norm_num [act, act', shift10]⟩⟩, rfl, rfl⟩ .nil)
  obtain ⟨s0, hs0⟩ : ∃ s0, planReset E split originPadded none = .ok s0 := ⟨_, reset_push _ _⟩
  obtain ⟨s0', hs0'⟩ : ∃ s0, planReset E split originShifted none = .ok s0 := ⟨_, reset_push _ _⟩
  rw [hs0, hs0'] at h
  rw [reset_push] at hs0 hs0'
  have he := Except.ok.inj hs0
  have he' := Except.ok.inj hs0'
  obtain ⟨s1, hs1⟩ : ∃ s1, planStep E split s0 act none = .ok s1 := by
    rw [planStep_eq, if_neg (by rw [← he]; simp [E, pushEnv])]
    exact ⟨_, rfl⟩
  obtain ⟨s1', hs1'⟩ : ∃ s1, planStep E split s0' act' none = .ok s1 := by
    rw [planStep_eq, if_neg (by rw [← he']; simp [E, pushEnv])]
    exact ⟨_, rfl⟩
  have hb : PlanMoved shift10 s1 s1' := by
    have hm : planMany E split s0 [(act, none)] = .ok s1 := by unfold planMany planMany; rw [hs1]; rfl
    have hm' : planMany E split s0' [(act', none)] = .ok s1' := by unfold planMany planMany; rw [hs1']; rfl
    change Both _ (planMany E split s0 [(act, none)]) (planMany E split s0' [(act', none)]) at h
    rw [hm, hm'] at h
    cases h with
    | ok h => exact h
  have ht : ((1 : Fin 3) : Int) = s0.sim.timestep := by rw [← he]; rfl
  have ht2 : ((2 : Fin 3) : Int) = s0.sim.timestep + 1 := by rw [← he]; rfl
  have ht' : ((1 : Fin 3) : Int) = s0'.sim.timestep := by rw [← he']; rfl
  have ht2' : ((2 : Fin 3) : Int) = s0'.sim.timestep + 1 := by rw [← he']; rfl
  have hx' := ((C45_who_moves hs1' ht' ht2' 1).1 0 _ ⟨by rw [← he']; rfl, rfl, by
      rw [← he']; exact shifted_apart⟩ (by
    intro k' o' hk' hcl
    obtain ⟨k, rfl⟩ : ∃ k, k' = k + 1 := ⟨k' - 1, by omega⟩
    have := hcl.1
    simp [agentOutput, E, pushEnv] at this)).1
  have hof := C45_overlapping_follow_log hs1 ht ht2 1 (by rw [← he]; exact origin_boxes.2) (by rw [← he]; rfl)
  have hx := hof.1
  have hv : (s1.sim.simTrajectory 1 2).valid = true := by
    rw [planStep_eq, if_neg (by rw [← he]; simp [E, pushEnv])] at hs1
    rw [← Except.ok.inj hs1]
    simp only
    rw [forward_apply _ _ _ _ _ _ ht ht2, if_pos rfl]
    unfold updatedPt
    simp only
    rw [← he]
    have h1 : (originPadded.logTrajectory 1 1).valid = true := rfl
    have h2 : (originPadded.logTrajectory 1 2).valid = true := rfl
    simp [h1, h2, nextValid]
  have hsame := congrArg Prod.fst ((hb.1.sim 1 2).position hv)
  simp only at hsame
  rw [hx'] at hsame
  have hcur : dynIndex (fun t : Fin 3 => if t.val < 2 then originShifted.logTrajectory 1 t else invalidPt) 1 =
      originShifted.logTrajectory 1 1 := by
    exact dynIndex_of_eq (t := (1 : Fin 3)) _ (by norm_num)
  change (dynIndex (fun t : Fin 3 => if t.val < 2 then originShifted.logTrajectory 1 t else invalidPt) 1).x = _ at hsame
  rw [hcur] at hsame
  simp only [Motion.point, Motion.vec, shift10, cos_zero, sin_zero, hx] at hsame
  rw [← he] at hsame
  norm_num [originPadded, originShifted, ptAt] at hsame

/-! ### A concrete case -/

/-- A state, moved: what is absent stays as it is. -/
noncomputable def Motion.pt (g : Motion) (p : Pt ℝ) : Pt ℝ :=
  if p.valid then { p with
    x := (g.point (p.x, p.y)).1, y := (g.point (p.x, p.y)).2, yaw := p.yaw + g.angle
    velX := (g.vec (p.velX, p.velY)).1, velY := (g.vec (p.velX, p.velY)).2 }
  else p

/-- A scenario, moved. -/
noncomputable def Motion.scene {n T : Nat} (g : Motion) (s : SimState ℝ n T) : SimState ℝ n T :=
  { s with
    simTrajectory := fun i t => g.pt (s.simTrajectory i t)
    logTrajectory := fun i t => g.pt (s.logTrajectory i t)
    logTrafficLight := s.logTrafficLight.map fun l t => g.light (l t)
    sdcPaths := s.sdcPaths.map (List.map g.path)
    roadgraphPoints := s.roadgraphPoints.map (List.map g.road) }

theorem Motion.pt_moved (g : Motion) (p : Pt ℝ) : PtMoved g p (g.pt p) := by
  unfold Motion.pt
  cases h : p.valid
  · simp only [Bool.false_eq_true, if_false]
    have hno : p.valid = true → False := fun hh => by rw [h] at hh; cases hh
    exact ⟨rfl, rfl, rfl, rfl, rfl, rfl, fun hh => (hno hh).elim, fun hh => (hno hh).elim, fun hh => (hno hh).elim⟩
  · simp only [if_true]
    exact ⟨h.symm, rfl, rfl, rfl, rfl, rfl, fun _ => rfl, fun _ => rfl, fun _ => ⟨0, by simp⟩⟩

/-- Every scenario can be moved to every frame: the hypothesis `Moved` of C142 to C147 is satisfiable everywhere. -/
theorem Motion.scene_moved {n T : Nat} (g : Motion) (s : SimState ℝ n T) : Moved g s (g.scene s) :=
  ⟨fun _ _ => g.pt_moved _, fun _ _ => g.pt_moved _, rfl, rfl, rfl, rfl, rfl⟩

/-- Two cars that are always present, the SDC under the bicycle model and the other one under IDM, in any map frame. -/
example (g : Motion) (a : Act AccelSteer) :
    let E : PlanEnv AccelSteer Unit Unit Unit 2 3 :=
      { dynamics := bicycle {}, cfg := { maxNumObjects := 2, initSteps := 2 }, rewards := [], actors := [idmAgent {}], params := [()] }
    Both (PlanMoved g)
      (planReset E (fun _ m => List.replicate m ()) carScen none >>= fun s0 => planMany E (fun _ m => List.replicate m ()) s0 [(a, none)])
      (planReset E (fun _ m => List.replicate m ()) (g.scene carScen) none >>= fun s0 =>
        planMany E (fun _ m => List.replicate m ()) s0 [(a, none)]) := by
  intro E
  have hv : ∀ i t, (carScen.logTrajectory i t).valid = true := fun _ _ => rfl
  refine C147_episode_partial (rel := Eq) (fun A hA => ?_) (C142_bicycle g {}) (by decide) (g.scene_moved carScen) ?_ ?_ ?_ _ _
    (.cons ⟨rfl, rfl, rfl⟩ .nil) (le_refl 3)
  · rw [List.mem_singleton.1 hA]
    exact (C147_agents g).2 {} rfl (.inl rfl)
  · intro i j _ h
    rw [hv] at h; cases h
  · intro i j _ h
    rw [((g.scene_moved carScen).log j 0).valid, hv] at h; cases h
  · intro _ i t t' _ _ _
    exact hv i t

end Waymax
