import Verif.Spec.Foresight
import Verif.Props.Causal
import Verif.Props.Following
import Verif.Props.IdmRoute
/-
C191: sim agents that follow logged way points know the future of the log.
-/

namespace Waymax

open Real

section
variable {D K P : Type} {n T : Nat} [NeZero T]

open Classical in
/-- The projections onto two logs are equal if the routes are the same. -/
theorem SameRoute.project {log log' : Fin T → Pt ℝ} {q : ℝ × ℝ} (h : SameRoute log log' q) (ext : Bool) :
    projectToTrajectory q.1 q.2 log' ext = projectToTrajectory q.1 q.2 log ext := by
  obtain ⟨t, hn, hn', hw, hend⟩ := h
  have key : ∀ l : Fin T → Pt ℝ, NearestLogged l q t → l t = log t →
      (projectToTrajectory q.1 q.2 l ext).reachedLastPoint = decide (AtEnd l q (log t)) ∧
      projectToTrajectory q.1 q.2 l ext =
        (let w := log t
         let dir := if !ext && decide (AtEnd l q w) then (0, 0) else (cos w.yaw, sin w.yaw)
         let along := dir.1 * (q.1 - w.x) + dir.2 * (q.2 - w.y)
         { x := dir.1 * along + w.x, y := dir.2 * along + w.y, yaw := w.yaw, reachedLastPoint := decide (AtEnd l q w) }) := by
    intro l hl hlt
    obtain ⟨u, hu, hun⟩ := nearest_index l q ⟨t, hl.1⟩
    have hut : u = t := hun.unique hl
    subst hut
    have hsrc : ∀ {β : Type} (f : Fin T → β), dynIndex f ((argminFin fun t =>
        orInf (l t).valid (hypot ((l t).x - q.1) ((l t).y - q.2)) : Nat) : Int) = f u := fun f =>
      dynIndex_of_eq _ (by rw [hu])
    obtain ⟨v, hv, -, hr, -⟩ := project_spec q l ext ⟨u, hl.1⟩
    have hvu : v = u := hv.unique hl
    subst hvu
    have hreach : (projectToTrajectory q.1 q.2 l ext).reachedLastPoint = decide (AtEnd l q (log v)) := by
      rw [← hlt, Bool.eq_iff_iff, hr, decide_eq_true_iff]
    refine ⟨hreach, ?_⟩
    have hreach' := hreach
    simp only [projectToTrajectory] at hreach'
    simp only [projectToTrajectory]
    rw [hreach', hsrc l, hlt]
  rw [(key log' hn' hw).2, (key log hn rfl).2]
  simp only [hend]

/-- What a way-point following agent tells an object to do is the same for two recordings if the object is in the same state, gets
the same speed and has the same route. Objects that are not present need no route. -/
theorem waypoint_same {inv : Bool} {us : UpdateSpeed n T} {s s' : SimState ℝ n T} {i : Fin n} {t : Fin T}
    (hsim : s'.simTrajectory = s.simTrajectory) (hclock : s'.timestep = s.timestep) (ht : (t : Int) = s.timestep)
    (hus : us s' i = us s i) (hok : (us s i).2 = true)
    (hr : (s.simTrajectory i t).valid = true →
      SameRoute (s.logTrajectory i) (s'.logTrajectory i) (coast (s.simTrajectory i t) (us s i).1)) :
    waypointUpdate inv us s' i = waypointUpdate inv us s i := by
  unfold waypointUpdate
  rw [hus, hsim, hclock, dynIndex_of_eq _ ht, hok]
  by_cases hv : (s.simTrajectory i t).valid = true
  · have hp := (hr hv).project (!inv)
    unfold nextByProjection
    simp only [if_true]
    rw [Pt.speed_eq hv]
    unfold coast heading at hp
    simp only at hp
    rw [hp]
  · simp [nextByProjection, hv]

/-- The step of the planning environment cannot tell two recordings apart if its way-point following agents cannot: they set the
same speeds, and every object they drive has the same route in both recordings. The recordings have to agree on the next step, for
the objects that replay their log. -/
theorem C191_step_partial {E : PlanEnv D Unit K P n T} {inv : Bool} {us : UpdateSpeed n T}
    {ctrl : SimState ℝ n T → Fin n → Bool} (hE : E.actors = [simAgent ctrl (waypointUpdate inv us)]) {k : Nat}
    {s s' : PlanState Unit n T} (h : SamePlanRun k s s') (hk : s.sim.timestep + 1 ≤ k) (hctrl : ctrl s'.sim = ctrl s.sim)
    (hus : us s'.sim = us s.sim) (hok : ∀ i, (us s.sim i).2 = true) {t : Fin T} (ht : (t : Int) = s.sim.timestep)
    (hroute : ∀ i, ctrl s.sim i = true → (s.sim.simTrajectory i t).valid = true →
      SameRoute (s.sim.logTrajectory i) (s'.sim.logTrajectory i) (coast (s.sim.simTrajectory i t) (us s.sim i).1))
    (split : K → Nat → List K) (a : Act D) (rng : Option K) :
    Both (SamePlanRun k) (planStep E split s a rng) (planStep E split s' a rng) := by
  unfold planStep
  rw [h.2]
  split
  · exact .error
  · have hcur : s'.sim.currentSim = s.sim.currentSim := by
      unfold SimState.currentSim; rw [h.1.sim, h.1.clock]
    have hloop : ∀ (es : List (SimAgent Unit K P n T × Unit × P × Option K)) (acc : Merged Unit n), (∀ e ∈ es, e.1 ∈ E.actors) →
        ∀ ok : Fin n → Bool, es.foldl (mergeSimAgent s' ok) acc = es.foldl (mergeSimAgent s ok) acc := by
      intro es
      induction es with
      | nil => exact fun _ _ _ => rfl
      | cons e es ih =>
        intro acc he ok
        rw [List.foldl_cons, List.foldl_cons]
        have hmem := he e List.mem_cons_self
        rw [hE, List.mem_singleton] at hmem
        have : mergeSimAgent s' ok acc e = mergeSimAgent s ok acc e := by
          unfold mergeSimAgent
          rw [hmem]
          simp only [simAgent, hctrl, Merged.mk.injEq, and_true]
          funext i
          unfold whereAct
          dsimp only
          by_cases hc : ctrl s.sim i = true
          · rw [waypoint_same h.1.sim h.1.clock ht (congrFun hus i) (hok i) (hroute i hc)]
          · simp [hc]
        rw [this]
        exact ih _ (fun e' he' => he e' (List.mem_cons_of_mem _ he')) ok
    have hmem : ∀ e ∈ E.actors.zip (s.actorStates.zip (E.params.zip (planKeys split rng E.actors.length))), e.1 ∈ E.actors :=
      fun e he => (List.of_mem_zip he).1
    refine .ok ⟨⟨⟨h.1.log, h.1.lights, h.1.objects, h.1.paths, h.1.roadgraph⟩, ?_, ?_, ?_, hk⟩, ?_⟩
    · simp only [hcur, initializedOverlap_start h.1.toSameUntil, h.1.objects, hloop _ _ hmem, h.1.sim, h.1.clock]
      exact forward_logAt _ _ _ _ _ (h.1.logAt (by have := h.1.started; omega) hk)
    · simp only [h.1.clock]
    · have := h.1.started; simp only; omega
    · simp only [hcur, initializedOverlap_start h.1.toSameUntil, h.1.objects, hloop _ _ hmem]

/-- The default IDM agent is such an agent: it sets its speeds without the log. -/
theorem C191_idm_step_partial {E : PlanEnv D Unit K P n T} {M : IdmParams} (hM : M.lookaheadFromCurrentPosition = true)
    (hE : E.actors = [idmAgent M]) {k : Nat} {s s' : PlanState Unit n T} (h : SamePlanRun k s s')
    (hk : s.sim.timestep + 1 ≤ k) {t : Fin T} (ht : (t : Int) = s.sim.timestep)
    (hroute : ∀ i, (s.sim.objectMetadata i).isSdc = false → (s.sim.simTrajectory i t).valid = true → ∀ v ok,
      idmUpdateSpeed M s.sim i = .ok (v, ok) →
      SameRoute (s.sim.logTrajectory i) (s'.sim.logTrajectory i) (coast (s.sim.simTrajectory i t) v))
    (split : K → Nat → List K) (a : Act D) (rng : Option K) :
    Both (SamePlanRun k) (planStep E split s a rng) (planStep E split s' a rng) := by
  have hgood : ∀ i, ∃ v, idmUpdateSpeed M s.sim i = .ok (v, true) := by
    intro i
    cases hr : idmUpdateSpeed M s.sim i with
    | error e =>
      have := (C48_fails_iff M s.sim i).1 ⟨e, hr⟩
      rw [hM] at this
      exact absurd this.1 (by decide)
    | ok r => exact ⟨r.1, congrArg Except.ok (Prod.ext rfl (C47_speed_nonneg hr).2)⟩
  refine C191_step_partial hE h hk ?_ ?_ ?_ ht ?_ split a rng
  · funext i; unfold defaultControlFunc; rw [h.1.objects]
  · funext i
    unfold idmSpeeds
    rw [C162_default_ignores_route hM ht (by rw [h.1.clock]; exact ht) (fun j => by rw [h.1.sim]) i]
  · intro i
    obtain ⟨v, hv⟩ := hgood i
    unfold idmSpeeds
    rw [hv]
  · intro i hc hv
    obtain ⟨v, hsp⟩ := hgood i
    have : (idmSpeeds M s.sim i).1 = v := by unfold idmSpeeds; rw [hsp]
    rw [this]
    refine hroute i ?_ hv v true hsp
    simpa [defaultControlFunc] using hc

omit [NeZero T] in
/-- When the routes are the same although the recordings differ later: what is logged after the common part stays farther away than
the nearest way point of the common part, and neither recording ends there. -/
theorem C191_same_route {log log' : Fin T → Pt ℝ} {q : ℝ × ℝ} {k : Nat} (hsame : ∀ u : Fin T, u.val ≤ k → log' u = log u) {t : Fin T}
    (htk : t.val ≤ k) (hvalid : (log t).valid = true)
    (hnear : ∀ u : Fin T, u.val ≤ k → (log u).valid = true → dist2 (posOf (log t)) q ≤ dist2 (posOf (log u)) q)
    (hfirst : ∀ u < t, (log u).valid = true → dist2 (posOf (log t)) q < dist2 (posOf (log u)) q)
    (hfar : ∀ u : Fin T, k < u.val → ((log u).valid = true → dist2 (posOf (log t)) q ≤ dist2 (posOf (log u)) q) ∧
      ((log' u).valid = true → dist2 (posOf (log t)) q ≤ dist2 (posOf (log' u)) q))
    (hend : ∀ u, LastLogged log u → 0.05 ≤ dist2 (posOf (log u)) (posOf (log t)))
    (hend' : ∀ u, LastLogged log' u → 0.05 ≤ dist2 (posOf (log' u)) (posOf (log t))) : SameRoute log log' q := by
  have hw := hsame t htk
  refine ⟨t, ⟨hvalid, fun u hu => ?_, hfirst⟩, ⟨by rw [hw]; exact hvalid, fun u hu => ?_, fun u hu huv => ?_⟩, hw, ?_⟩
  · by_cases huk : u.val ≤ k
    · exact hnear u huk hu
    · exact (hfar u (by omega)).1 hu
  · rw [hw]
    by_cases huk : u.val ≤ k
    · rw [hsame u huk] at hu ⊢
      exact hnear u huk hu
    · exact (hfar u (by omega)).2 hu
  · have hut : u.val < t.val := hu
    rw [hw, hsame u (by omega)]
    rw [hsame u (by omega)] at huv
    exact hfirst u hu huv
  · unfold AtEnd
    constructor
    · rintro (⟨u, hu, hd⟩ | hd)
      · exact absurd hd (not_lt.2 (hend' u hu))
      · exact .inr hd
    · rintro (⟨u, hu, hd⟩ | hd)
      · exact absurd hd (not_lt.2 (hend u hu))
      · exact .inr hd

end

/-! ### A parked car, and what it does later -/

/-- An environment with one warm-up step. -/
def peekEnv (agents : List (SimAgent Unit Unit Unit 2 3)) : PlanEnv (StateRow ℝ) Unit Unit Unit 2 3 :=
  { pushEnv agents with cfg := { maxNumObjects := 2, initSteps := 1 } }

/-- The SDC, and 10 m ahead of it a car that is parked for two steps and `d` metres further on at the third. -/
noncomputable def leaveScen (d : ℝ) : SimState ℝ 2 3 :=
  { carScen with logTrajectory := fun i t => if i = 1 ∧ t = 2 then ptAt (10 + d) 0 0 0 0 else ptAt (10 * i.val) 0 0 0 0 }

theorem leave_until (d d' : ℝ) : SameUntil 1 (leaveScen d) (leaveScen d') := by
  refine ⟨fun i t ht => ?_, .nil, rfl, rfl, rfl⟩
  have ht2 : t ≠ 2 := by rintro rfl; simp at ht
  simp [leaveScen, ht2]

theorem leave_apart (d : ℝ) (i : Fin 2) : ¬ StartsOverlapping (leaveScen d).logTrajectory i := by
  have h := stop_apart i
  intro h2
  apply h
  obtain ⟨j, hj, p, h1, h3⟩ := h2
  have h0 : ∀ j : Fin 2, (leaveScen d).logTrajectory j 0 = stopScen.logTrajectory j 0 := fun j => by simp [leaveScen, stopScen]
  simp only [h0] at h1 h3
  exact ⟨j, hj, p, h1, h3⟩

theorem reset_peek (agents : List (SimAgent Unit Unit Unit 2 3)) (scen : SimState ℝ 2 3) :
    ∃ s0, planReset (peekEnv agents) (fun _ m => List.replicate m ()) scen none = .ok s0 ∧ SameScenario scen s0.sim ∧
      s0.sim.timestep = 0 ∧ s0.sim.simTrajectory = (fun i t => if t.val < 1 then scen.logTrajectory i t else invalidPt) ∧
      s0.actorStates.length = agents.length := by
  have hr := reset_eq (peekEnv agents).cfg scen
  unfold reset at hr
  unfold planReset
  rw [hr]
  simp only [peekEnv, pushEnv, if_true, bind, Except.bind, pure, Except.pure, planKeys]
  have h23 : (1 : Nat) ≤ 3 := by norm_num
  simp only [h23, if_true]
  exact ⟨_, rfl, ⟨rfl, rfl, rfl, rfl, rfl⟩, by simp, rfl, by simp⟩

theorem peek_episode (agent : SimAgent Unit Unit Unit 2 3) (scen : SimState ℝ 2 3) :
    ∃ s0 s1, planReset (peekEnv [agent]) (fun _ m => List.replicate m ()) scen none = .ok s0 ∧ SameScenario scen s0.sim ∧
      s0.sim.timestep = 0 ∧ s0.sim.simTrajectory = (fun i t => if t.val < 1 then scen.logTrajectory i t else invalidPt) ∧
      planStep (peekEnv [agent]) (fun _ m => List.replicate m ()) s0 { data := ⟨3, 4, 0, 0, 0⟩, valid := true } none = .ok s1 ∧
      s0.actorStates.length = 1 := by
  obtain ⟨s0, h1, h2, h3, h4, h5⟩ := reset_peek [agent] scen
  refine ⟨s0, ?_⟩
  rw [planStep_eq, if_neg (by rw [h5]; simp [peekEnv, pushEnv])]
  exact ⟨_, h1, h2, h3, h4, rfl, h5⟩

/-- Where the car is after the warm-up, and how it is logged. -/
theorem leave_log (d : ℝ) (t : Fin 3) : (leaveScen d).logTrajectory 1 t = ptAt (if t = 2 then 10 + d else 10) 0 0 0 0 := by
  by_cases h : t = 2 <;> simp [leaveScen, h]

/-- The SDC is behind the car, so the car's road is free and the IDM agent accelerates from standstill. -/
theorem leave_speed {d : ℝ} {s : SimState ℝ 2 3} (ht : s.timestep = 0)
    (hsim : s.simTrajectory = (fun i t => if t.val < 1 then (leaveScen d).logTrajectory i t else invalidPt)) :
    idmUpdateSpeed {} s 1 = .ok (0.2, true) := by
  have h0 : s.simTrajectory 0 0 = ptAt 0 0 0 0 0 := by rw [hsim]; simp [leaveScen]
  have h1 : s.simTrajectory 1 0 = ptAt 10 0 0 0 0 := by rw [hsim]; simp [leaveScen]
  obtain ⟨speed, hs, hfree, -⟩ := C48_default (P := {}) rfl (by norm_num) (by norm_num) (s := s) (i := 1) (t := 0)
    (by rw [ht]; rfl) (by rw [h1]; rfl)
  rw [hs]
  have hv : speedOf (s.simTrajectory 1 0) = 0 := by rw [h1]; simp [speedOf, norm2, ptAt]
  have := hfree ?_
  · rw [this]
    simp only [hv, speedAfter, idmFree]
    norm_num
  · rintro k hk j ⟨hne, -, -, p, ⟨u, v, hu, hw, hp⟩, ⟨u', v', hu', hw', hp'⟩⟩
    have hj : j = 0 := by omega
    subst hj
    have h := congrArg Prod.fst (hp.symm.trans hp')
    simp only [h0, h1, aheadOf, ptAt, pointAt, heading, leftOf, Real.cos_zero, Real.sin_zero] at h hu hu'
    rw [abs_lt] at hu hu'
    norm_num at hu hu' h
    have : (0 : ℝ) ≤ k := Nat.cast_nonneg k
    linarith [hu.1, hu.2, hu'.1, hu'.2]

/-- The car of `leaveScen`, driven by the IDM agent for one step: it starts to move exactly if the recording says that it will
leave, which happens only in the following step. -/
theorem C191_parked_car (d : ℝ) (hd : 0.05 ≤ d) :
    (∃ s0 s1, planReset (peekEnv [idmAgent {}]) (fun _ m => List.replicate m ()) (leaveScen 0) none = .ok s0 ∧
      planStep (peekEnv [idmAgent {}]) (fun _ m => List.replicate m ()) s0 { data := ⟨3, 4, 0, 0, 0⟩, valid := true } none = .ok s1 ∧
      (s1.sim.simTrajectory 1 1).velX = 0) ∧
    (∃ s0 s1, planReset (peekEnv [idmAgent {}]) (fun _ m => List.replicate m ()) (leaveScen d) none = .ok s0 ∧
      planStep (peekEnv [idmAgent {}]) (fun _ m => List.replicate m ()) s0 { data := ⟨3, 4, 0, 0, 0⟩, valid := true } none = .ok s1 ∧
      (s1.sim.simTrajectory 1 1).velX = 0.2) := by
  have key : ∀ e : ℝ, 0 ≤ e → ∃ s0 s1, planReset (peekEnv [idmAgent {}]) (fun _ m => List.replicate m ()) (leaveScen e) none = .ok s0 ∧
      planStep (peekEnv [idmAgent {}]) (fun _ m => List.replicate m ()) s0 { data := ⟨3, 4, 0, 0, 0⟩, valid := true } none = .ok s1 ∧
      ∃ q t0, NearestLogged ((leaveScen e).logTrajectory 1) q t0 ∧ q = (10.01, 0) ∧
        (¬ AtEnd ((leaveScen e).logTrajectory 1) q ((leaveScen e).logTrajectory 1 t0) → (s1.sim.simTrajectory 1 1).velX = 0.2) ∧
        (AtEnd ((leaveScen e).logTrajectory 1) q ((leaveScen e).logTrajectory 1 t0) → (s1.sim.simTrajectory 1 1).velX = 0) := by
    intro e he
    obtain ⟨s0, s1, hr, hsc, hts, htr, hst, -⟩ := peek_episode (idmAgent {}) (leaveScen e)
    refine ⟨s0, s1, hr, hst, ?_⟩
    have hD : DrivenBy (peekEnv [idmAgent {}]) 0 defaultControlFunc (waypointUpdate false (idmSpeeds {})) 1 (leaveScen e) := by
      refine ⟨rfl, rfl, car_claims _ rfl, ?_, leave_apart e 1⟩
      intro k' a hk h
      obtain ⟨k, rfl⟩ : ∃ k, k' = k + 1 := ⟨k' - 1, by omega⟩
      simp [peekEnv, pushEnv] at h
    have ht : ((0 : Fin 3) : Int) = s0.sim.timestep := by rw [hts]; rfl
    have ht' : ((1 : Fin 3) : Int) = s0.sim.timestep + 1 := by rw [hts]; rfl
    have hd := driven_step hD (split := fun _ m => List.replicate m ()) (by simp) hsc hst ht ht'
    have hc : s0.sim.simTrajectory 1 0 = ptAt 10 0 0 0 0 := by rw [htr]; simp [leaveScen]
    have hsp : idmSpeeds {} s0.sim 1 = (0.2, true) := by unfold idmSpeeds; rw [leave_speed hts htr]
    obtain ⟨t0, hn, hgo, hstop, -⟩ := waypoint_spec (inv := false) (us := idmSpeeds {}) (i := 1) ht (by rw [hc]; rfl) (by rw [hsp])
      ⟨0, by rw [hsc.log]; rw [leave_log]; rfl⟩
    rw [hsc.log] at hn hgo hstop
    refine ⟨_, t0, hn, ?_, fun h => ?_, fun h => ?_⟩
    · rw [hsp, hc]
      simp [coast, ptAt, speedOf, norm2, heading]
      norm_num
    · rw [hd.1.2.2.2.1, (hgo h).2.2.1, hsp, hc]
      simp [heading, ptAt]
    · rw [hd.1.2.2.2.1, (hstop h rfl).2.2.1, hc]
      rfl
  have hq : ∀ e (t : Fin 3), dist2 (posOf ((leaveScen e).logTrajectory 1 t)) (10.01, 0) = |(if t = 2 then 10 + e else 10) - 10.01| := by
    intro e t
    rw [leave_log]
    simp [dist2, posOf, ptAt, Real.sqrt_sq_eq_abs]
  constructor
  · obtain ⟨s0, s1, hr, hst, q, t0, hn, rfl, -, hstop⟩ := key 0 le_rfl
    refine ⟨s0, s1, hr, hst, hstop (.inl ⟨2, ⟨by rw [leave_log]; rfl, fun u _ => by omega⟩, ?_⟩)⟩
    rw [leave_log, leave_log]
    simp [dist2, posOf, ptAt]
    norm_num
  · obtain ⟨s0, s1, hr, hst, q, t0, hn, rfl, hgo, -⟩ := key d (by linarith)
    refine ⟨s0, s1, hr, hst, hgo ?_⟩
    have ht0 : t0 ≠ 2 := by
      rintro rfl
      have := hn.2.1 0 (by rw [leave_log]; rfl)
      rw [hq, hq, if_pos rfl, if_neg (by decide)] at this
      rw [abs_of_nonneg (by linarith), abs_of_nonpos (by norm_num)] at this
      linarith
    rintro (⟨u, hu, hlt⟩ | hfar)
    · have hu2 : u = 2 := by
        have h1 := hu.2 2 (by rw [leave_log]; rfl)
        omega
      subst hu2
      rw [leave_log, leave_log, if_pos rfl, if_neg ht0] at hlt
      simp [dist2, posOf, ptAt, Real.sqrt_sq_eq_abs] at hlt
      rw [abs_of_nonneg (by linarith)] at hlt
      linarith
    · rw [hq, if_neg ht0] at hfar
      norm_num at hfar

/-- Planning episodes with the default IDM agent depend on what is logged later. -/
theorem C191_violated : ¬ KnowsNoFuture (StateRow ℝ) (idmAgent {} : SimAgent Unit Unit Unit 2 3) := by
  intro hall
  obtain ⟨⟨a0, a1, har, has, hav⟩, ⟨b0, b1, hbr, hbs, hbv⟩⟩ := C191_parked_car 1 (by norm_num)
  have h := hall (peekEnv [idmAgent {}]) 1 rfl rfl (by rfl) _ _ (leave_until 0 1) (fun _ m => List.replicate m ()) none
    [({ data := ⟨3, 4, 0, 0, 0⟩, valid := true }, none)] (by rfl)
  rw [har, hbr] at h
  simp only [bind, Except.bind] at h
  unfold planMany at h
  rw [has, hbs] at h
  simp only [bind, Except.bind, planMany] at h
  cases h with
  | ok h =>
    have := h.1.sim
    rw [this, hav] at hbv
    norm_num at hbv

/-- The hypotheses of `C191_same_route` can be met by recordings that differ later: the car leaves, by 5 m or by 9 m. -/
theorem leave_same : SameRoute ((leaveScen 5).logTrajectory 1) ((leaveScen 9).logTrajectory 1) (10.01, 0) ∧
    (leaveScen 5).logTrajectory 1 2 ≠ (leaveScen 9).logTrajectory 1 2 := by
  have hq : ∀ e (t : Fin 3), dist2 (posOf ((leaveScen e).logTrajectory 1 t)) (10.01, 0) = |(if t = 2 then 10 + e else 10) - 10.01| := by
    intro e t
    rw [leave_log]
    simp [dist2, posOf, ptAt, Real.sqrt_sq_eq_abs]
  have hlast : ∀ e u, LastLogged ((leaveScen e).logTrajectory 1) u → u = 2 := fun e u hu => by
    have h1 := hu.2 2 (by rw [leave_log]; rfl)
    omega
  constructor
  · refine C191_same_route (k := 1) (t := 0) (fun u hu => (leave_until 5 9).log 1 u hu) (by decide) (by rw [leave_log]; rfl) ?_ ?_ ?_ ?_ ?_
    · intro u hu _
      have : u ≠ 2 := by rintro rfl; simp at hu
      rw [hq, hq, if_neg this, if_neg (by decide)]
    · intro u hu
      exact absurd hu (by simp)
    · intro u hu
      have : u = 2 := by omega
      subst this
      rw [hq, hq, hq, if_pos rfl, if_neg (by decide), if_pos rfl]
      norm_num [abs_of_nonneg, abs_of_nonpos]
    · intro u hu
      rw [hlast 5 u hu, leave_log, leave_log, if_pos rfl, if_neg (by decide)]
      norm_num [dist2, posOf, ptAt]
      exact Real.le_sqrt_of_sq_le (by norm_num)
    · intro u hu
      rw [hlast 9 u hu, leave_log, leave_log, if_pos rfl, if_neg (by decide)]
      norm_num [dist2, posOf, ptAt]
      exact Real.le_sqrt_of_sq_le (by norm_num)
  · rw [leave_log, leave_log]
    intro h
    have := congrArg Pt.x h
    norm_num [ptAt] at this

/-- The hypotheses of `C191_idm_step_partial` can be met in a state reached by a reset: the IDM agent drives the car the same way
whether it leaves by 5 m or by 9 m. -/
example : ∃ s0 s0' s1 s1', planReset (peekEnv [idmAgent {}]) (fun _ m => List.replicate m ()) (leaveScen 5) none = .ok s0 ∧
    planReset (peekEnv [idmAgent {}]) (fun _ m => List.replicate m ()) (leaveScen 9) none = .ok s0' ∧
    planStep (peekEnv [idmAgent {}]) (fun _ m => List.replicate m ()) s0 { data := ⟨3, 4, 0, 0, 0⟩, valid := true } none = .ok s1 ∧
    planStep (peekEnv [idmAgent {}]) (fun _ m => List.replicate m ()) s0' { data := ⟨3, 4, 0, 0, 0⟩, valid := true } none = .ok s1' ∧
    SamePlanRun 1 s1 s1' ∧ s1'.sim.logTrajectory ≠ s1.sim.logTrajectory := by
  obtain ⟨s0, s1, hr, hsc, hts, htr, hst, hl⟩ := peek_episode (idmAgent {}) (leaveScen 5)
  obtain ⟨s0', s1', hr', hsc', hts', htr', hst', hl'⟩ := peek_episode (idmAgent {}) (leaveScen 9)
  have hrun : SamePlanRun 1 s0 s0' := by
    refine ⟨⟨⟨fun i t ht => ?_, ?_, ?_, ?_, ?_⟩, ?_, ?_, ?_, ?_⟩, ?_⟩
    · rw [hsc.log, hsc'.log]; exact (leave_until 5 9).log i t ht
    · rw [hsc.lights, hsc'.lights]; exact .nil
    · rw [hsc.objects, hsc'.objects]; rfl
    · rw [hsc.paths, hsc'.paths]; rfl
    · rw [hsc.roads, hsc'.roads]; rfl
    · rw [htr, htr']
      funext i t
      by_cases h : t.val < 1
      · simp only [h, if_true]
        exact (leave_until 5 9).log i t (by omega)
      · simp only [h, if_false]
    · rw [hts, hts']
    · rw [hts]
    · rw [hts]; decide
    · exact List.ext_getElem (hl'.trans hl.symm) fun _ _ _ => rfl
  have h := C191_idm_step_partial (E := peekEnv [idmAgent {}]) (M := {}) rfl rfl hrun (by rw [hts]; rfl) (t := 0) (by rw [hts]; rfl)
    (by
      intro i hi _ v ok hv
      have hi1 : i = 1 := by
        rw [hsc.objects] at hi
        by_contra hne
        have : i = 0 := by omega
        subst this
        simp [leaveScen, carScen] at hi
      subst hi1
      rw [leave_speed hts htr] at hv
      cases hv
      rw [hsc.log, hsc'.log]
      have hc : s0.sim.simTrajectory 1 0 = ptAt 10 0 0 0 0 := by rw [htr]; simp [leaveScen]
      have hq : coast (s0.sim.simTrajectory 1 0) 0.2 = (10.01, 0) := by
        rw [hc]
        simp [coast, ptAt, speedOf, norm2, heading]
        norm_num
      rw [hq]
      exact leave_same.1)
    (fun _ m => List.replicate m ()) { data := ⟨3, 4, 0, 0, 0⟩, valid := true } none
  rw [hst, hst'] at h
  cases h with
  | ok h =>
    refine ⟨s0, s0', s1, s1', hr, hr', hst, hst', h, fun he => ?_⟩
    have l1 : s1.sim.logTrajectory = s0.sim.logTrajectory := by
      rw [planStep_eq] at hst
      split at hst
      · cases hst
      · cases hst; rfl
    have l2 : s1'.sim.logTrajectory = s0'.sim.logTrajectory := by
      rw [planStep_eq] at hst'
      split at hst'
      · cases hst'
      · cases hst'; rfl
    rw [l1, l2, hsc.log, hsc'.log] at he
    exact leave_same.2 (congrFun (congrFun he 1) 2).symm

end Waymax
