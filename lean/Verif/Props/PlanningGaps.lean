import Verif.Props.PlanningMetrics
/-
Concrete cases for C45 and C46, and C69, C70, C73 - C75: late objects, the planner's authority over the SDC, and the planning
agent's dynamics wrapper (real arithmetic).
-/

namespace Waymax

/-! ### A concrete environment -/

/-- A sim agent that claims the objects in `mask` and sends them to (x, 0). -/
def pushAgent {n T : Nat} (mask : Fin n → Bool) (x : ℝ) : SimAgent Unit Unit Unit n T where
  init := fun _ _ => ()
  selectAction := fun _ _ _ _ =>
    { actorState := (), action := fun _ => { data := ⟨x, 0, 0, 1, 0⟩, valid := true }, isControlled := mask }

/-- Planning environment with state dynamics and the given sim agents. -/
def pushEnv {n T : Nat} (agents : List (SimAgent Unit Unit Unit n T)) : PlanEnv (StateRow ℝ) Unit Unit Unit n T :=
  { dynamics := stateDynamics, cfg := { maxNumObjects := n, initSteps := 2 }, rewards := [], actors := agents
    params := agents.map fun _ => () }

/-- Two cars 10 m apart, car 0 is the SDC. -/
noncomputable def carScen : SimState ℝ 2 3 :=
  { simTrajectory := fun _ _ => invalidPt, logTrajectory := fun i t => ptAt (10 * i.val) t.val 0 0 10
    logTrafficLight := [], objectMetadata := fun i => ⟨i.val, 1, decide (i = 0), true, true, false, false⟩
    timestep := 0, sdcPaths := none, roadgraphPoints := none }

theorem reset_push {n : Nat} (agents : List (SimAgent Unit Unit Unit n 3)) (scen : SimState ℝ n 3) :
    planReset (pushEnv agents) (fun _ m => List.replicate m ()) scen none =
      .ok { sim := { scen with
              timestep := 1
              simTrajectory := fun i t => if t.val < 2 then scen.logTrajectory i t else invalidPt }
            actorStates := agents.map fun a => a.init none
              { sim := { scen with
                  timestep := 1
                  simTrajectory := fun i t => if t.val < 2 then scen.logTrajectory i t else invalidPt }, actorStates := [] } } := by
  have hr := reset_eq (pushEnv agents).cfg scen
  unfold reset at hr
  unfold planReset
  rw [hr]
  simp only [pushEnv, if_true, bind, Except.bind, pure, Except.pure, planKeys]
  have h23 : (2 : Nat) ≤ 3 := by norm_num
  simp only [h23, if_true]
  simp only [Except.ok.injEq, PlanState.mk.injEq]
  refine ⟨rfl, ?_⟩
  apply List.ext_getElem
  · simp
  · intro k h1 h2
    simp

theorem cars_apart (i : Fin 2) : ¬ StartsOverlapping carScen.logTrajectory i := by
  rintro ⟨j, hj, p, ⟨u, v, hu, hv, hp⟩, ⟨u', v', hu', hv', hp'⟩⟩
  have h := congrArg Prod.fst (hp.symm.trans hp')
  simp only [carScen, ptAt, pointAt, heading, leftOf, Real.cos_zero, Real.sin_zero] at h hu hu'
  rw [abs_lt] at hu hu'
  norm_num at hu hu'
  fin_cases i <;> fin_cases j <;> first | exact absurd rfl hj | (norm_num at h; linarith [hu.1, hu.2, hu'.1, hu'.2])

/-- C45 and C44 in action: two agents claim car 1, the later one wins; the planner moves car 0. -/
example : ∃ s0 s1, planReset (pushEnv [pushAgent (fun i => decide (i = 1)) 50, pushAgent (fun i => decide (i = 1)) 60])
      (fun _ m => List.replicate m ()) carScen none = .ok s0 ∧
    planStep (pushEnv [pushAgent (fun i => decide (i = 1)) 50, pushAgent (fun i => decide (i = 1)) 60])
      (fun _ m => List.replicate m ()) s0 { data := ⟨3, 4, 0, 0, 0⟩, valid := true } none = .ok s1 ∧
    (s1.sim.simTrajectory 1 2).x = 60 ∧ (s1.sim.simTrajectory 0 2).x = 3 ∧ (s1.sim.simTrajectory 0 2).y = 4 := by
  obtain ⟨s0, hs0⟩ : ∃ s0, planReset (pushEnv [pushAgent (fun i => decide (i = 1)) 50, pushAgent (fun i => decide (i = 1)) 60])
      (fun _ m => List.replicate m ()) carScen none = .ok s0 := ⟨_, reset_push _ _⟩
  have hs0' := hs0
  rw [reset_push] at hs0'
  have he := Except.ok.inj hs0'
  obtain ⟨s1, hstep⟩ : ∃ s1, planStep (pushEnv [pushAgent (fun i => decide (i = 1)) 50,
      pushAgent (fun i => decide (i = 1)) 60]) (fun _ m => List.replicate m ()) s0
      { data := ⟨3, 4, 0, 0, 0⟩, valid := true } none = .ok s1 := by
    rw [planStep_eq, if_neg (by simp [pushEnv, ← he])]
    exact ⟨_, rfl⟩
  refine ⟨s0, s1, hs0, hstep, ?_⟩
  have ht : ((1 : Fin 3) : Int) = s0.sim.timestep := by rw [← he]; rfl
  have ht' : ((2 : Fin 3) : Int) = s0.sim.timestep + 1 := by rw [← he]; rfl
  have hw1 := C45_who_moves hstep ht ht' 1
  have hw0 := C45_who_moves hstep ht ht' 0
  have hlog : s0.sim.logTrajectory = carScen.logTrajectory := by rw [← he]
  have hmeta : s0.sim.objectMetadata = carScen.objectMetadata := by rw [← he]
  refine ⟨(hw1.1 1 _ ⟨by rw [← he]; rfl, rfl, by rw [hlog]; exact cars_apart 1⟩ ?_).1, ?_⟩
  · intro k' o' hk' hcl
    obtain ⟨k, rfl⟩ : ∃ k, k' = k + 2 := ⟨k' - 2, by omega⟩
    have := hcl.1
    simp [agentOutput, pushEnv] at this
  · have hno : ∀ k o, ¬ Claims (pushEnv [pushAgent (fun i => decide (i = 1)) 50, pushAgent (fun i => decide (i = 1)) 60])
        (fun _ m => List.replicate m ()) s0 none 0 k o := by
      rintro k o ⟨h1, h2, -⟩
      rw [← he] at h1
      match k with
      | 0 => cases h1; exact absurd h2 (by simp [pushAgent])
      | 1 => cases h1; exact absurd h2 (by simp [pushAgent])
      | k + 2 => simp [agentOutput, pushEnv] at h1
    have := hw0.2.1 hno (by rw [hmeta]; rfl)
    exact ⟨this.1, this.2.1⟩

/-- C46: an environment without sim agents exists and steps. -/
example : ∃ s1, (planReset (pushEnv (n := 2) (T := 3) []) (fun _ m => List.replicate m ()) carScen none >>= fun s0 =>
    planMany (pushEnv []) (fun _ m => List.replicate m ()) s0 [({ data := ⟨3, 4, 0, 0, 0⟩, valid := true }, none)]) = .ok s1 ∧
    (s1.sim.simTrajectory 0 2).x = 3 ∧ (s1.sim.simTrajectory 1 2).y = 2 := by
  rw [C46_episode rfl rfl]
  obtain ⟨s0, s1, hE⟩ := episode_exists (T := 3) (stateDynamics (n := 2) (α := ℝ)) (pushEnv (n := 2) (T := 3) []).cfg carScen
    [fun _ => { data := ⟨3, 4, 0, 0, 0⟩, valid := true }] rfl (by decide) (by decide) (by decide)
  have hr := hE.start
  have hm := hE.run
  refine ⟨{ sim := s1, actorStates := [] }, ?_, ?_⟩
  · change ((reset _ carScen >>= _).map _) = _
    rw [hr]
    change ((stepMany _ _ s0 _).map _) = _
    exact congrArg (Except.map _) hm
  · obtain ⟨s1', h1, h2⟩ := stepMany_cons_ok hm
    have hs1 : s1' = s1 := Except.ok.inj h2
    subst hs1
    have ht := hE.timestep_eq
    rw [reset_eq] at hr
    simp only [pushEnv] at hr
    norm_num at hr
    subst hr
    have h0 := C06_step_moves h1 (by decide) (by decide) (t := 1) (t' := 2) rfl rfl 0
    have h1' := C06_step_moves h1 (by decide) (by decide) (t := 1) (t' := 2) rfl rfl 1
    refine ⟨(h0.2.2.1 ?_).1, (h1'.2.2.2 ?_).2.1.trans ?_⟩
    · simp [IsControlled, pushEnv, carScen]
    · simp [IsControlled, pushEnv, carScen]
    · simp [carScen, ptAt]

section
variable {D X K P : Type} {n T : Nat} [NeZero T]

/-- Reset: the simulator part is that of the plain environment's reset, and agent number `k` starts from its own `init`, called
on the reset state with its own random key. -/
theorem C45_reset {E : PlanEnv D X K P n T} {split : K → Nat → List K} (hsplit : ∀ k m, (split k m).length = m)
    (scen : SimState ℝ n T) (rng : Option K) :
    (∀ e, reset E.cfg scen = .error e → planReset E split scen rng = .error e) ∧
    (∀ sim, reset E.cfg scen = .ok sim → ∃ s0, planReset E split scen rng = .ok s0 ∧ s0.sim = sim ∧
      s0.actorStates.length = E.actors.length ∧
      ∀ (k : Nat) (a : SimAgent X K P n T), E.actors[k]? = some a → s0.actorStates[k]? =
        some (a.init (rng.bind fun r => (split r E.actors.length)[k]?) { sim := sim, actorStates := [] })) := by
  have hr : ∀ r, reset E.cfg scen = r → planReset E split scen rng = r.map fun sim =>
      { sim := sim, actorStates := ((planKeys split rng E.actors.length).zip E.actors).map
          fun x => x.2.init x.1 { sim := sim, actorStates := [] } } := by
    rintro r rfl
    unfold planReset reset
    split_ifs
    · cases updateStateByLog _ _ <;> rfl
    · rfl
  refine ⟨fun e he => by rw [hr _ he]; rfl, fun sim hs => ⟨_, by rw [hr _ hs]; rfl, rfl, ?_, ?_⟩⟩
  · cases rng <;> simp [planKeys, hsplit]
  · intro k a ha
    obtain ⟨hk, rfl⟩ := List.getElem?_eq_some_iff.1 ha
    cases rng with
    | none => simp [planKeys, hk]
    | some r =>
      have hk' : k < (split r E.actors.length).length := by rw [hsplit]; exact hk
      have hz : k < ((split r E.actors.length).map some |>.zip E.actors).length := by simp [hk, hk']
      simp only [planKeys, List.getElem?_map, List.getElem?_eq_getElem hz, List.getElem_zip, List.getElem_map, Option.map_some,
        Option.bind_some, List.getElem?_eq_getElem hk']

end

/-! ### C69: objects that enter later -/

/-- The claim: if some sim agent claims an object that is in the scene now but was absent from the first logged frame, then
after the step the object is where the last such agent put it. -/
def LateObjectsControlled (n T : Nat) [NeZero T] : Prop :=
  ∀ (E : PlanEnv (StateRow ℝ) Unit Unit Unit n T) (split : Unit → Nat → List Unit) (s s' : PlanState Unit n T)
    (a : Act (StateRow ℝ)) (_ : planStep E split s a none = .ok s') (t t' : Fin T) (_ : (t : Int) = s.sim.timestep)
    (_ : (t' : Int) = s.sim.timestep + 1) (i : Fin n) (_ : (s.sim.logTrajectory i 0).valid = false)
    (_ : (s.sim.simTrajectory i t).valid = true) (k : Nat) (o : ActorOutput (Fin n → Act (StateRow ℝ)) Unit (Fin n → Bool))
    (_ : agentOutput E split s none k = some o) (_ : o.isControlled i = true)
    (_ : ∀ k' o', k < k' → agentOutput E split s none k' = some o' → o'.isControlled i = false),
    (s'.sim.simTrajectory i t').x = (o.action i).data.x

/-- Two objects that are absent from the first frame, filled with the usual placeholder, and then drive 20 m apart. -/
noncomputable def lateScen2 : SimState ℝ 2 3 :=
  { simTrajectory := fun _ _ => invalidPt
    logTrajectory := fun i t => if t = 0 then invalidPt else ptAt (20 * i.val) t.val 0 0 10
    logTrafficLight := [], objectMetadata := fun i => ⟨i.val, 1, decide (i = 0), true, true, false, false⟩
    timestep := 0, sdcPaths := none, roadgraphPoints := none }

/-- The placeholder boxes of two absent objects lie on top of each other, so both count as overlapping. -/
theorem late_overlap (i : Fin 2) : StartsOverlapping lateScen2.logTrajectory i := by
  have hp : ∀ j, lateScen2.logTrajectory j 0 = invalidPt := fun j => by simp [lateScen2]
  simp only [StartsOverlapping, hp]
  have hin : (-1, -1) ∈ rectInterior (invalidPt (α := ℝ)).x (invalidPt (α := ℝ)).y (invalidPt (α := ℝ)).length
      (invalidPt (α := ℝ)).width (invalidPt (α := ℝ)).yaw := by
    refine ⟨0, 0, ?_, ?_, ?_⟩ <;> simp [invalidPt, ScalarOps.invalid, pointAt]
  refine ⟨1 - i, ?_, _, hin, hin⟩
  fin_cases i <;> decide

/-- The code violates the claim: a sim agent that claims the late object 1 is ignored, and the object replays the log. The
state is the one after `reset`. -/
theorem C69_violated : ¬ LateObjectsControlled 2 3 := by
  intro h
  let E := pushEnv (n := 2) (T := 3) [pushAgent (fun i => decide (i = 1)) 50]
  let split : Unit → Nat → List Unit := fun _ m => List.replicate m ()
  obtain ⟨s0, hs0⟩ : ∃ s0, planReset E split lateScen2 none = .ok s0 := ⟨_, reset_push _ _⟩
  have hs0' := hs0
  rw [reset_push] at hs0'
  have he := Except.ok.inj hs0'
  obtain ⟨s1, hs1⟩ : ∃ s1, planStep E split s0 { data := ⟨3, 4, 0, 0, 0⟩, valid := true } none = .ok s1 := by
    rw [planStep_eq, if_neg (by rw [← he]; simp [E, pushEnv])]
    exact ⟨_, rfl⟩
  have hlog : s0.sim.logTrajectory = lateScen2.logTrajectory := by rw [← he]
  have hmeta : s0.sim.objectMetadata = lateScen2.objectMetadata := by rw [← he]
  have ht : ((1 : Fin 3) : Int) = s0.sim.timestep := by rw [← he]; rfl
  have ht' : ((2 : Fin 3) : Int) = s0.sim.timestep + 1 := by rw [← he]; rfl
  have hinv : (s0.sim.logTrajectory 1 0).valid = false := by
    rw [hlog]
    simp [lateScen2, invalidPt]
  have hx := h E split s0 s1 _ hs1 1 2 ht ht' 1 hinv
    (by rw [← he]; simp [lateScen2, ptAt]) 0 _ (by rw [← he]; rfl) rfl (by
      intro k' o' hk' ho'
      obtain ⟨k, rfl⟩ : ∃ k, k' = k + 1 := ⟨k' - 1, by omega⟩
      simp [agentOutput, E, pushEnv] at ho')
  have hl := (C45_overlapping_follow_log hs1 ht ht' 1 (by rw [hlog]; exact late_overlap 1) (by rw [hmeta]; rfl)).1
  have h50 : (s1.sim.simTrajectory 1 2).x = 50 := hx
  have h20 : (lateScen2.logTrajectory 1 2).x = 20 := by
    simp [lateScen2, ptAt]
  rw [hlog, h20, h50] at hl
  norm_num at hl

section
variable {D X K P : Type} {n T : Nat} [NeZero T]

/-- The part that holds: an object whose box in the first frame (placeholder or not) meets no other box is moved by the last
sim agent that claims it. -/
theorem C69_late_objects_partial {E : PlanEnv D X K P n T} {split : K → Nat → List K} {s s' : PlanState X n T} {a : Act D}
    {rng : Option K} (h : planStep E split s a rng = .ok s') {t t' : Fin T} (ht : (t : Int) = s.sim.timestep)
    (ht' : (t' : Int) = s.sim.timestep + 1) (i : Fin n) (hfree : ¬ StartsOverlapping s.sim.logTrajectory i)
    {k : Nat} {o : ActorOutput (Fin n → Act (StateRow ℝ)) X (Fin n → Bool)} (ho : agentOutput E split s rng k = some o)
    (hc : o.isControlled i = true)
    (hlast : ∀ k' o', k < k' → agentOutput E split s rng k' = some o' → o'.isControlled i = false) :
    let p := s'.sim.simTrajectory i t'
    p.x = (o.action i).data.x ∧ p.y = (o.action i).data.y ∧ p.yaw = (o.action i).data.yaw ∧
      p.velX = (o.action i).data.velX ∧ p.velY = (o.action i).data.velY :=
  (C45_who_moves h ht ht' i).1 k o ⟨ho, hc, hfree⟩ fun k' o' hk' hcl => by
    have := hlast k' o' hk' hcl.1
    rw [hcl.2.1] at this
    exact absurd this (by decide)

/-! ### C70: the planner moves the SDC -/

/-- The part that holds: if no sim agent claims the SDC, it goes where the planner's action puts it. -/
theorem C70_planner_moves_sdc_partial {E : PlanEnv D X K P n T} {split : K → Nat → List K} {s s' : PlanState X n T} {a : Act D}
    {rng : Option K} (h : planStep E split s a rng = .ok s') {t t' : Fin T} (ht : (t : Int) = s.sim.timestep)
    (ht' : (t' : Int) = s.sim.timestep + 1) (i : Fin n) (hs : (s.sim.objectMetadata i).isSdc = true)
    (hno : ∀ k o, agentOutput E split s rng k = some o → o.isControlled i = false) :
    let p := s'.sim.simTrajectory i t'
    let u := E.dynamics.computeUpdate (fun _ => a) (fun j => s.sim.simTrajectory j t) i
    p.x = u.x ∧ p.y = u.y ∧ p.yaw = u.yaw ∧ p.velX = u.velX ∧ p.velY = u.velY :=
  (C45_who_moves h ht ht' i).2.1 (fun k o hcl => by
    have := hno k o hcl.1
    rw [hcl.2.1] at this
    exact absurd this (by decide)) hs

end

/-- The claim, as the constructor's documentation says (sim agents update the objects besides the SDC): the planner's action
decides where the SDC goes, whatever sim agents are configured. -/
def PlannerMovesSdc (n T : Nat) [NeZero T] : Prop :=
  ∀ (E : PlanEnv (StateRow ℝ) Unit Unit Unit n T) (split : Unit → Nat → List Unit) (s s' : PlanState Unit n T)
    (a : Act (StateRow ℝ)) (_ : planStep E split s a none = .ok s') (t t' : Fin T) (_ : (t : Int) = s.sim.timestep)
    (_ : (t' : Int) = s.sim.timestep + 1) (i : Fin n) (_ : (s.sim.objectMetadata i).isSdc = true),
    (s'.sim.simTrajectory i t').x = (E.dynamics.computeUpdate (fun _ => a) (fun j => s.sim.simTrajectory j t) i).x

/-- The code violates it: a sim agent that claims all objects takes the SDC away from the planner. -/
theorem C70_violated : ¬ PlannerMovesSdc 2 3 := by
  intro h
  let E := pushEnv (n := 2) (T := 3) [pushAgent (fun _ => true) 50]
  let split : Unit → Nat → List Unit := fun _ m => List.replicate m ()
  obtain ⟨s0, hs0⟩ : ∃ s0, planReset E split carScen none = .ok s0 := ⟨_, reset_push _ _⟩
  have hs0' := hs0
  rw [reset_push] at hs0'
  have he := Except.ok.inj hs0'
  obtain ⟨s1, hs1⟩ : ∃ s1, planStep E split s0 { data := ⟨3, 4, 0, 0, 0⟩, valid := true } none = .ok s1 := by
    rw [planStep_eq, if_neg (by rw [← he]; simp [E, pushEnv])]
    exact ⟨_, rfl⟩
  have hlog : s0.sim.logTrajectory = carScen.logTrajectory := by rw [← he]
  have hmeta : s0.sim.objectMetadata = carScen.objectMetadata := by rw [← he]
  have ht : ((1 : Fin 3) : Int) = s0.sim.timestep := by rw [← he]; rfl
  have ht' : ((2 : Fin 3) : Int) = s0.sim.timestep + 1 := by rw [← he]; rfl
  have hx := h E split s0 s1 _ hs1 1 2 ht ht' 0 (by rw [hmeta]; rfl)
  have hm := (C45_who_moves hs1 ht ht' 0).1 0 _ ⟨by rw [← he]; rfl, rfl, by rw [hlog]; exact cars_apart 0⟩ (by
      rintro k' o' hk' ⟨ho', -⟩
      obtain ⟨k, rfl⟩ : ∃ k, k' = k + 1 := ⟨k' - 1, by omega⟩
      simp [agentOutput, E, pushEnv] at ho')
  have h50 : (s1.sim.simTrajectory 0 2).x = 50 := hm.1
  have h3 : (s1.sim.simTrajectory 0 2).x = 3 := hx
  rw [h50] at h3
  norm_num at h3

/-! ### C73: the forward function of the planning agent's dynamics -/

/-- The claim: `PlanningAgentDynamics.forward` moves the controlled objects by the wrapped dynamics under the given action, and
honours `allow_new_objects`. -/
def PlanningForwardWorks (n T : Nat) [NeZero T] : Prop :=
  ∀ (d : DynamicsModel ℝ (StateRow ℝ) n) (batch : List Nat) (a : Act (StateRow ℝ)) (traj log : Traj ℝ n T)
    (m : Fin n → Bool) (t : Int) (allow : Bool),
    planningForward d batch 5 a traj log m t allow = .ok (d.forward (fun _ => a) traj log m t allow)

section
variable {D : Type} {n T : Nat} [NeZero T]

omit [NeZero T] in
theorem tiles_validate (batch : List Nat) (dim : Nat) :
    actionValidate (tileObjects (batch ++ [dim]) n) (tileLast (batch ++ [1]) n) = true ↔ n = 1 := by
  simp [actionValidate, tileObjects, tileLast, List.take_append]

/-- Exact behaviour: with one object the wrapped forward is run, never letting new objects in; with any other number of objects
the call fails on its own shape check. -/
theorem C73_forward_exact_partial (d : DynamicsModel ℝ D n) (batch : List Nat) (dim : Nat) (a : Act D) (traj log : Traj ℝ n T)
    (m : Fin n → Bool) (t : Int) (allow : Bool) :
    (n = 1 → planningForward d batch dim a traj log m t allow = .ok (d.forward (fun _ => a) traj log m t false)) ∧
    (n ≠ 1 → planningForward d batch dim a traj log m t allow = .error .assertion) := by
  unfold planningForward
  refine ⟨fun h => ?_, fun h => ?_⟩
  · rw [if_pos ((tiles_validate batch dim).2 h)]
  · rw [if_neg fun hc => h ((tiles_validate batch dim).1 hc)]

end

/-- The code violates it for every scene with more than one object. -/
theorem C73_violated (n T : Nat) [NeZero T] (hn : n ≠ 1) : ¬ PlanningForwardWorks n T := by
  intro h
  have h1 := h stateDynamics [] { data := ⟨0, 0, 0, 0, 0⟩, valid := true } (fun _ _ => invalidPt) (fun _ _ => invalidPt)
    (fun _ => false) 0 true
  rw [(C73_forward_exact_partial _ _ _ _ _ _ _ _ _).2 hn] at h1
  cases h1

/-- And with one object, `allow_new_objects` is ignored: an absent object that the log shows next does not appear. -/
theorem C73_ignores_new_objects_violated : ¬ PlanningForwardWorks 1 2 := by
  intro h
  have h1 := h stateDynamics [] { data := ⟨0, 0, 0, 0, 0⟩, valid := true } (fun _ _ => invalidPt)
    (fun _ _ => ptAt 0 0 0 0 0) (fun _ => false) 0 true
  rw [(C73_forward_exact_partial _ _ _ _ _ _ _ _ _).1 rfl] at h1
  have h2 := congrFun (congrFun (Except.ok.inj h1) 0) 1
  change stateDynamics.forward _ _ _ _ ((0 : Fin 2) : Int) _ _ _ = stateDynamics.forward _ _ _ _ ((0 : Fin 2) : Int) _ _ _ at h2
  rw [forward_apply _ _ _ _ _ _ (t := 0) (t' := 1) rfl rfl, forward_apply _ _ _ _ _ _ (t := 0) (t' := 1) rfl rfl] at h2
  have h3 := congrArg Pt.valid h2
  simp [updatedPt, nextValid, invalidPt, ptAt] at h3

/-! ### C74: the planning agent's inverse, and the expert -/

section
variable {D X K P : Type} {n T : Nat} [NeZero T]

/-- The inverse of the planning agent's dynamics is the SDC's entry of the wrapped inverse: same action, same validity.
`toRow`, `ofRow` translate between actions and rows of the action array. -/
theorem C74_inverse_is_sdc_action {m : Nat} (d : DynamicsModel ℝ D n) {toRow : D → Fin m → ℝ} {ofRow : (Fin m → ℝ) → D}
    (hrow : ∀ x, ofRow (toRow x) = x) (traj : Traj ℝ n T) {md : Fin n → ObjMeta} {k : Fin n} (hk : OnlySdc md k) (t : Int) :
    planningInverse d toRow ofRow traj md t = d.inverse traj md t k := by
  unfold planningInverse selectAction
  simp only [selectByOnehot_eq _ _ k hk, selectByOnehotBool_eq _ _ k hk]
  exact congrArg₂ Act.mk (hrow _) rfl

/-- Row layout of state actions: x, y, yaw, vel_x, vel_y. -/
def stateToRow (r : StateRow ℝ) : Fin 5 → ℝ := ![r.x, r.y, r.yaw, r.velX, r.velY]

/-- Inverse of `stateToRow`. -/
def stateOfRow (v : Fin 5 → ℝ) : StateRow ℝ := ⟨v 0, v 1, v 2, v 3, v 4⟩

omit [NeZero T] in
theorem stateOfRow_toRow (r : StateRow ℝ) : stateOfRow (stateToRow r) = r := rfl

/-- Replaying the log through the planning environment: with state dynamics and no sim agent claiming the SDC, the action
inferred from the log moves the SDC to its next logged pose and velocity. -/
theorem C74_log_replay {E : PlanEnv (StateRow ℝ) X K P n T} (hd : E.dynamics = stateDynamics) {split : K → Nat → List K}
    {s s' : PlanState X n T} {rng : Option K} {k : Fin n} (hk : OnlySdc s.sim.objectMetadata k)
    (h : planStep E split s (planningInverse stateDynamics stateToRow stateOfRow s.sim.logTrajectory s.sim.objectMetadata
      s.sim.timestep) rng = .ok s') {t t' : Fin T} (ht : (t : Int) = s.sim.timestep) (ht' : (t' : Int) = s.sim.timestep + 1)
    (hno : ∀ j o, agentOutput E split s rng j = some o → o.isControlled k = false) :
    let p := s'.sim.simTrajectory k t'
    let l := s.sim.logTrajectory k t'
    p.x = l.x ∧ p.y = l.y ∧ p.yaw = l.yaw ∧ p.velX = l.velX ∧ p.velY = l.velY := by
  have := C70_planner_moves_sdc_partial h ht ht' k ((hk k).2 rfl) hno
  rw [hd, C74_inverse_is_sdc_action stateDynamics stateOfRow_toRow _ hk] at this
  simp only [stateDynamics, stateUpdate, stateInverse, dynIndex_of_eq _ ht'] at this
  exact this

end

/-- Car 0 is the only SDC of the concrete scenario, and no agent is there to claim it. -/
example : OnlySdc carScen.objectMetadata 0 ∧ ∀ s j o, agentOutput (pushEnv (n := 2) (T := 3) []) (fun _ m => List.replicate m ())
    s none j = some o → o.isControlled 0 = false :=
  ⟨by intro i; simp [carScen], by intro s j o h; simp [agentOutput, pushEnv] at h⟩

end Waymax
