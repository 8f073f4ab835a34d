import Verif.Spec.Planning
import Verif.Props.Overlap
import Verif.Props.StateDyn
import Verif.Props.Reward
/-
C44 - C46, C69 - C74: merging actors and the planning environment.
-/

namespace Waymax

/-! ### C44: merging actions -/

section
variable {D X : Type} {n : Nat}

theorem whereAct_apply (mask : Fin n → Bool) (a b : Fin n → Act D) (i : Fin n) :
    whereAct mask a b i = if mask i then a i else b i := by
  unfold whereAct; cases mask i <;> rfl

/-- The fold shared by `merge_actions` and the planning environment. -/
theorem fold_unclaimed {O : Type} (mask : O → Fin n → Bool) (act : O → Fin n → Act D) (outs : List O) (acc : Fin n → Act D)
    (i : Fin n) (h : ∀ o ∈ outs, mask o i = false) :
    (outs.foldl (fun a o => whereAct (mask o) (act o) a) acc) i = acc i := by
  induction outs generalizing acc with
  | nil => rfl
  | cons o outs ih =>
    rw [List.foldl_cons, ih _ fun o' ho' => h o' (List.mem_cons_of_mem _ ho'), whereAct_apply, h o List.mem_cons_self]
    rfl

theorem fold_claimed {O : Type} (mask : O → Fin n → Bool) (act : O → Fin n → Act D) (pre : List O) (o : O) (post : List O)
    (acc : Fin n → Act D) (i : Fin n) (ho : mask o i = true) (h : ∀ o' ∈ post, mask o' i = false) :
    ((pre ++ o :: post).foldl (fun a o => whereAct (mask o) (act o) a) acc) i = act o i := by
  rw [List.foldl_append, List.foldl_cons, fold_unclaimed mask act post _ i h, whereAct_apply, ho]
  rfl

/-- Each object gets the action of the last actor that controls it. -/
theorem C44_last_claimant (pre : List (ActorOutput (Fin n → Act D) X (Fin n → Bool)))
    (o : ActorOutput (Fin n → Act D) X (Fin n → Bool)) (post : List (ActorOutput (Fin n → Act D) X (Fin n → Bool)))
    (i : Fin n) (ho : o.isControlled i = true) (hpost : ∀ o' ∈ post, o'.isControlled i = false) :
    ∃ m, mergeActions (pre ++ o :: post) = .ok m ∧ m i = o.action i := by
  cases pre with
  | nil => exact ⟨_, rfl, fold_unclaimed (·.isControlled) (·.action) post _ i hpost⟩
  | cons p pre => exact ⟨_, rfl, fold_claimed (·.isControlled) (·.action) pre o post _ i ho hpost⟩

/-- An object that no actor controls gets the first actor's action. -/
theorem C44_unclaimed (first : ActorOutput (Fin n → Act D) X (Fin n → Bool))
    (rest : List (ActorOutput (Fin n → Act D) X (Fin n → Bool))) (i : Fin n)
    (h : ∀ o ∈ first :: rest, o.isControlled i = false) :
    ∃ m, mergeActions (first :: rest) = .ok m ∧ m i = first.action i :=
  ⟨_, rfl, fold_unclaimed (·.isControlled) (·.action) rest _ i fun o ho => h o (List.mem_cons_of_mem _ ho)⟩

/-- If no two actors control the same object, the merged action of every controlled object is the same for every order of the
actors, namely that of the one actor controlling it. -/
theorem C44_order_irrelevant {outs outs' : List (ActorOutput (Fin n → Act D) X (Fin n → Bool))} (hp : outs.Perm outs')
    (hd : outs.Pairwise fun a b => ∀ i, ¬ (a.isControlled i = true ∧ b.isControlled i = true))
    {m m' : Fin n → Act D} (hm : mergeActions outs = .ok m) (hm' : mergeActions outs' = .ok m') (i : Fin n)
    (o : ActorOutput (Fin n → Act D) X (Fin n → Bool)) (ho : o ∈ outs) (hoi : o.isControlled i = true) :
    m i = o.action i ∧ m' i = o.action i := by
  have key : ∀ (l : List (ActorOutput (Fin n → Act D) X (Fin n → Bool))) (r : Fin n → Act D), o ∈ l →
      l.Pairwise (fun a b => ∀ i, ¬ (a.isControlled i = true ∧ b.isControlled i = true)) → mergeActions l = .ok r →
      r i = o.action i := by
    intro l r hol hpw hr
    obtain ⟨pre, post, rfl⟩ := List.append_of_mem hol
    obtain ⟨r', hr', h⟩ := C44_last_claimant pre o post i hoi fun o' ho' => by
      have h2 := (List.pairwise_append.1 hpw).2.1
      have h3 := (List.pairwise_cons.1 h2).1 o' ho' i
      cases hc : o'.isControlled i with
      | false => rfl
      | true => exact absurd ⟨hoi, hc⟩ h3
    rw [hr] at hr'
    cases hr'
    exact h
  refine ⟨key outs m ho hd hm, key outs' m' (hp.mem_iff.1 ho) ?_ hm'⟩
  exact hp.pairwise hd fun {a b} h i hh => h i ⟨hh.2, hh.1⟩

/-- Exactly the empty list is rejected. -/
theorem C44_empty_rejected (outs : List (ActorOutput (Fin n → Act D) X (Fin n → Bool))) :
    (∃ e, mergeActions outs = .error e) ↔ outs = [] := by
  cases outs with
  | nil => exact ⟨fun _ => rfl, fun _ => ⟨_, rfl⟩⟩
  | cons o os => exact ⟨fun ⟨e, h⟩ => by simp [mergeActions] at h, fun h => by simp at h⟩

end

/-- An actor that claims the objects in `mask` and answers `v` for all. -/
def exOutput (mask : Fin 3 → Bool) (v : Nat) : ActorOutput (Fin 3 → Act Nat) Unit (Fin 3 → Bool) :=
  { actorState := (), action := fun _ => { data := v, valid := true }, isControlled := mask }

/-- Two actors with disjoint masks, one object claimed by nobody: both orders give 7 and 8 to the claimed ones, and differ on the
unclaimed one. -/
example :
    let a := exOutput (fun i => decide (i = 0)) 7
    let b := exOutput (fun i => decide (i = 1)) 8
    (∃ m, mergeActions [a, b] = .ok m ∧ (m 0).data = 7 ∧ (m 1).data = 8 ∧ (m 2).data = 7) ∧
    (∃ m, mergeActions [b, a] = .ok m ∧ (m 0).data = 7 ∧ (m 1).data = 8 ∧ (m 2).data = 8) ∧
    [a, b].Pairwise fun a b => ∀ i, ¬ (a.isControlled i = true ∧ b.isControlled i = true) :=
  ⟨⟨_, rfl, rfl, rfl, rfl⟩, ⟨_, rfl, rfl, rfl, rfl⟩, by
    simp only [List.pairwise_cons, List.mem_singleton, List.not_mem_nil, false_implies, implies_true, List.Pairwise.nil,
      and_true, forall_eq, exOutput]
    decide⟩

/-! ### C45: who moves each object -/

section
variable {D X K P : Type} {n T : Nat} [NeZero T]

theorem initializedOverlap_iff (log : Traj ℝ n T) (i : Fin n) :
    initializedOverlap log i = true ↔ StartsOverlapping log i := by
  unfold initializedOverlap StartsOverlapping
  simp only [decide_eq_true_eq]
  have h0 : ∀ j, dynIndex (log j) 0 = log j 0 := fun j => dynIndex_of_eq _ (by simp)
  simp only [(C26_pairwise _ _ _).1, C25_overlap_exact, Pt.box, h0]
  constructor
  · rintro ⟨j, hne, h⟩; exact ⟨j, hne.symm, h⟩
  · rintro ⟨j, hne, h⟩; exact ⟨j, hne.symm, h⟩

/-- The outputs of the sim agents in loop order. -/
def loopOutputs (E : PlanEnv D X K P n T) (split : K → Nat → List K) (s : PlanState X n T) (rng : Option K) :
    List (ActorOutput (Fin n → Act (StateRow ℝ)) X (Fin n → Bool)) :=
  (E.actors.zip (s.actorStates.zip (E.params.zip (planKeys split rng E.actors.length)))).map fun e =>
    e.1.selectAction e.2.2.1 s e.2.1 e.2.2.2

omit [NeZero T] in
theorem loopOutputs_get (E : PlanEnv D X K P n T) (split : K → Nat → List K) (s : PlanState X n T) (rng : Option K) (k : Nat) :
    (loopOutputs E split s rng)[k]? = agentOutput E split s rng k := by
  unfold loopOutputs agentOutput
  rw [List.getElem?_map]
  simp only [List.getElem?_zip_eq_some, List.zip, List.getElem?_zipWith]
  cases ha : E.actors[k]? with
  | none => simp
  | some a =>
    cases hx : s.actorStates[k]? with
    | none => simp
    | some x =>
      cases hp : E.params[k]? with
      | none => simp
      | some p =>
        have hk : k < E.actors.length := (List.getElem?_eq_some_iff.1 ha).1
        cases rng with
        | none => simp [planKeys, hk]
        | some r => cases hs : (split r E.actors.length)[k]? <;> simp [planKeys, hs]

omit [NeZero T] in
theorem merged_eq (s : PlanState X n T) (ok : Fin n → Bool) (es : List (SimAgent X K P n T × X × P × Option K))
    (acc : Merged X n) :
    let outs := es.map fun e => e.1.selectAction e.2.2.1 s e.2.1 e.2.2.2
    es.foldl (mergeSimAgent s ok) acc =
      { action := outs.foldl (fun a o => whereAct (fun i => o.isControlled i && ok i) o.action a) acc.action
        controlled := fun i => acc.controlled i || outs.any fun o => o.isControlled i && ok i
        actorStates := acc.actorStates ++ outs.map (·.actorState) } := by
  intro outs
  induction es generalizing acc with
  | nil => simp [outs]
  | cons e es ih =>
    rw [List.foldl_cons, ih]
    simp only [outs, List.map_cons, List.foldl_cons, List.any_cons, mergeSimAgent, List.append_assoc, List.singleton_append,
      Bool.or_assoc]

theorem planStep_eq (E : PlanEnv D X K P n T) (split : K → Nat → List K) (s : PlanState X n T) (a : Act D) (rng : Option K) :
    planStep E split s a rng =
      if E.actors.length ≠ s.actorStates.length then .error .valueError
      else
        let outs := loopOutputs E split s rng
        let ok := fun i => !(initializedOverlap s.sim.logTrajectory i)
        let action := outs.foldl (fun a o => whereAct (fun i => o.isControlled i && ok i) o.action a)
          (fun i => (E.dynamics.computeUpdate (fun _ => a) s.sim.currentSim i).asAction)
        let controlled := fun i => (s.sim.objectMetadata i).isSdc || outs.any fun o => o.isControlled i && ok i
        .ok { sim := { s.sim with
                simTrajectory := stateDynamics.forward action s.sim.simTrajectory s.sim.logTrajectory controlled s.sim.timestep
                  E.cfg.allowNewObjectsAfterWarmup
                timestep := s.sim.timestep + 1 }
              actorStates := outs.map (·.actorState) } := by
  unfold planStep
  simp only
  split
  · rfl
  · rw [merged_eq]
    rfl

/-- What one step writes for object `i`, in terms of the agents' claims. -/
theorem planStep_point {E : PlanEnv D X K P n T} {split : K → Nat → List K} {s s' : PlanState X n T} {a : Act D}
    {rng : Option K} (h : planStep E split s a rng = .ok s') {t t' : Fin T} (ht : (t : Int) = s.sim.timestep)
    (ht' : (t' : Int) = s.sim.timestep + 1) (i : Fin n) :
    let outs := loopOutputs E split s rng
    let ok := fun i => !(initializedOverlap s.sim.logTrajectory i)
    let action := outs.foldl (fun a o => whereAct (fun i => o.isControlled i && ok i) o.action a)
      (fun i => (E.dynamics.computeUpdate (fun _ => a) (fun j => s.sim.simTrajectory j t) i).asAction)
    let controlled := fun i => (s.sim.objectMetadata i).isSdc || outs.any fun o => o.isControlled i && ok i
    ∀ u, s'.sim.simTrajectory i u =
      if u = t' then updatedPt false E.cfg.allowNewObjectsAfterWarmup (controlled i) (stateUpdate (action i))
        (s.sim.simTrajectory i t) (s.sim.logTrajectory i t') else s.sim.simTrajectory i u := by
  intro outs ok action controlled u
  rw [planStep_eq] at h
  split at h
  · exact absurd h (by simp)
  · simp only [Except.ok.injEq] at h
    have hc : s.sim.currentSim = fun j => s.sim.simTrajectory j t := by
      funext j; exact dynIndex_of_eq _ ht
    rw [← h]
    simp only
    rw [forward_apply stateDynamics _ _ _ _ _ ht ht', hc]
    rfl

theorem claims_iff {E : PlanEnv D X K P n T} {split : K → Nat → List K} {s : PlanState X n T} {rng : Option K} {i : Fin n}
    {k : Nat} {o : ActorOutput (Fin n → Act (StateRow ℝ)) X (Fin n → Bool)} :
    Claims E split s rng i k o ↔ (loopOutputs E split s rng)[k]? = some o ∧
      (o.isControlled i && !(initializedOverlap s.sim.logTrajectory i)) = true := by
  unfold Claims
  rw [loopOutputs_get, ← initializedOverlap_iff]
  simp

theorem any_claim_iff {E : PlanEnv D X K P n T} {split : K → Nat → List K} {s : PlanState X n T} {rng : Option K} {i : Fin n} :
    ((loopOutputs E split s rng).any fun o => o.isControlled i && !(initializedOverlap s.sim.logTrajectory i)) = true ↔
      ∃ k o, Claims E split s rng i k o := by
  rw [List.any_eq_true]
  constructor
  · rintro ⟨o, ho, h⟩
    obtain ⟨k, hk⟩ := List.getElem?_of_mem ho
    exact ⟨k, o, claims_iff.2 ⟨hk, h⟩⟩
  · rintro ⟨k, o, h⟩
    obtain ⟨hk, hc⟩ := claims_iff.1 h
    exact ⟨o, List.mem_of_getElem? hk, hc⟩

/-- Pose and velocity of every object after a step. Object `i` is moved by the last sim agent that claims it and may control
it; if there is none, the SDC is moved by the planner's action (through the environment's dynamics) and every other object is
at its logged pose. -/
theorem C45_who_moves {E : PlanEnv D X K P n T} {split : K → Nat → List K} {s s' : PlanState X n T} {a : Act D}
    {rng : Option K} (h : planStep E split s a rng = .ok s') {t t' : Fin T} (ht : (t : Int) = s.sim.timestep)
    (ht' : (t' : Int) = s.sim.timestep + 1) (i : Fin n) :
    let p := s'.sim.simTrajectory i t'
    let u := E.dynamics.computeUpdate (fun _ => a) (fun j => s.sim.simTrajectory j t) i
    let l := s.sim.logTrajectory i t'
    (∀ k o, Claims E split s rng i k o → (∀ k' o', k < k' → ¬ Claims E split s rng i k' o') →
      p.x = (o.action i).data.x ∧ p.y = (o.action i).data.y ∧ p.yaw = (o.action i).data.yaw ∧
        p.velX = (o.action i).data.velX ∧ p.velY = (o.action i).data.velY) ∧
    ((∀ k o, ¬ Claims E split s rng i k o) → (s.sim.objectMetadata i).isSdc = true →
      p.x = u.x ∧ p.y = u.y ∧ p.yaw = u.yaw ∧ p.velX = u.velX ∧ p.velY = u.velY) ∧
    ((∀ k o, ¬ Claims E split s rng i k o) → (s.sim.objectMetadata i).isSdc = false →
      p.x = l.x ∧ p.y = l.y ∧ p.yaw = l.yaw ∧ p.velX = l.velX ∧ p.velY = l.velY) := by
  intro p u l
  have hp := planStep_point h ht ht' i t'
  rw [if_pos rfl] at hp
  have hnone : (∀ k o, ¬ Claims E split s rng i k o) → ∀ o ∈ loopOutputs E split s rng,
      (o.isControlled i && !(initializedOverlap s.sim.logTrajectory i)) = false := by
    intro hn o ho
    by_contra hc
    exact absurd (any_claim_iff.1 (List.any_eq_true.2 ⟨o, ho, by simpa using hc⟩)) (by
      rintro ⟨k, o, hk⟩; exact hn k o hk)
  refine ⟨fun k o hk hlast => ?_, fun hn hs => ?_, fun hn hs => ?_⟩
  · obtain ⟨hget, hc⟩ := claims_iff.1 hk
    have hany := any_claim_iff.2 ⟨k, o, hk⟩
    have hsplit : loopOutputs E split s rng =
        (loopOutputs E split s rng).take k ++ o :: (loopOutputs E split s rng).drop (k + 1) := by
      obtain ⟨hlt, he⟩ := List.getElem?_eq_some_iff.1 hget
      rw [← he, ← List.drop_eq_getElem_cons hlt, List.take_append_drop]
    have hact := fold_claimed (fun (o : ActorOutput (Fin n → Act (StateRow ℝ)) X (Fin n → Bool)) i =>
      o.isControlled i && !(initializedOverlap s.sim.logTrajectory i)) (·.action) ((loopOutputs E split s rng).take k) o
      ((loopOutputs E split s rng).drop (k + 1))
      (fun i => (E.dynamics.computeUpdate (fun _ => a) (fun j => s.sim.simTrajectory j t) i).asAction) i hc (by
        intro o' ho'
        obtain ⟨j, hj⟩ := List.getElem?_of_mem ho'
        rw [List.getElem?_drop] at hj
        by_contra hcc
        exact hlast (k + 1 + j) o' (by omega) (claims_iff.2 ⟨hj, by simpa using hcc⟩))
    rw [← hsplit] at hact
    simp only [p, hp, hact, hany, Bool.or_true, updatedPt, newField, stateUpdate, if_true, Bool.false_eq_true, if_false,
      and_self]
  · have hact := fold_unclaimed (fun (o : ActorOutput (Fin n → Act (StateRow ℝ)) X (Fin n → Bool)) i =>
      o.isControlled i && !(initializedOverlap s.sim.logTrajectory i)) (·.action) (loopOutputs E split s rng)
      (fun i => (E.dynamics.computeUpdate (fun _ => a) (fun j => s.sim.simTrajectory j t) i).asAction) i (hnone hn)
    simp only [p, u, hp, hact, hs, Bool.true_or, updatedPt, newField, stateUpdate, if_true, Bool.false_eq_true, if_false]
    simp only [Upd.asAction, and_self]
  · have hany : ((loopOutputs E split s rng).any fun o =>
        o.isControlled i && !(initializedOverlap s.sim.logTrajectory i)) = false := by
      by_contra hc
      obtain ⟨k, o, hk⟩ := any_claim_iff.1 (by simpa using hc)
      exact hn k o hk
    simp only [p, l, hp, hany, hs, Bool.or_false, updatedPt, newField, Bool.false_eq_true, if_false, and_self]

/-- The rest of the step: existence in the scene, time stamp, size and height of the moved point; nothing else of the
trajectory changes, the clock advances by one, the scenario stays, and every sim agent's internal state is the one it
returned. -/
theorem C45_rest_of_step {E : PlanEnv D X K P n T} {split : K → Nat → List K} {s s' : PlanState X n T} {a : Act D}
    {rng : Option K} (h : planStep E split s a rng = .ok s') {t t' : Fin T} (ht : (t : Int) = s.sim.timestep)
    (ht' : (t' : Int) = s.sim.timestep + 1) (i : Fin n) :
    let p := s'.sim.simTrajectory i t'
    let c := s.sim.simTrajectory i t
    let l := s.sim.logTrajectory i t'
    let moved := (s.sim.objectMetadata i).isSdc = true ∨ ∃ k o, Claims E split s rng i k o
    (p.valid = true ↔ (c.valid = true ∧ moved) ∨
      (if E.cfg.allowNewObjectsAfterWarmup then l.valid = true else c.valid = true ∧ l.valid = true)) ∧
    p.timestampMicros = l.timestampMicros ∧
    p.z = c.z ∧ p.length = c.length ∧ p.width = c.width ∧ p.height = c.height ∧
    (∀ u, u ≠ t' → s'.sim.simTrajectory i u = s.sim.simTrajectory i u) ∧
    s'.sim.timestep = s.sim.timestep + 1 ∧ SameScenario s.sim s'.sim ∧
    (∀ k, s'.actorStates[k]? = (agentOutput E split s rng k).map (·.actorState)) := by
  intro p c l moved
  have hpt := planStep_point h ht ht' i
  have hp := hpt t'
  rw [if_pos rfl] at hp
  refine ⟨?_, by simp only [p, hp]; rfl, by simp only [p, hp]; rfl, by simp only [p, hp]; rfl, by simp only [p, hp]; rfl,
    by simp only [p, hp]; rfl, fun u hu => by rw [hpt u, if_neg hu], ?_⟩
  · have hm : ((s.sim.objectMetadata i).isSdc || (loopOutputs E split s rng).any fun o =>
        o.isControlled i && !(initializedOverlap s.sim.logTrajectory i)) = true ↔ moved := by
      rw [Bool.or_eq_true, any_claim_iff]
    simp only [p, hp, updatedPt]
    generalize ((s.sim.objectMetadata i).isSdc || (loopOutputs E split s rng).any fun o =>
        o.isControlled i && !(initializedOverlap s.sim.logTrajectory i)) = b at hm
    rw [← hm]
    change nextValid E.cfg.allowNewObjectsAfterWarmup b c.valid l.valid = true ↔ _
    cases c.valid <;> cases l.valid <;> cases b <;> cases E.cfg.allowNewObjectsAfterWarmup <;> simp [nextValid]
  · rw [planStep_eq] at h
    split at h
    · exact absurd h (by simp)
    · simp only [Except.ok.injEq] at h
      rw [← h]
      refine ⟨rfl, ⟨rfl, rfl, rfl, rfl, rfl⟩, fun k => ?_⟩
      rw [List.getElem?_map, loopOutputs_get]

/-- An object that overlaps another one in the first logged frame is not moved by any sim agent: if it is not the SDC it
replays the log. -/
theorem C45_overlapping_follow_log {E : PlanEnv D X K P n T} {split : K → Nat → List K} {s s' : PlanState X n T} {a : Act D}
    {rng : Option K} (h : planStep E split s a rng = .ok s') {t t' : Fin T} (ht : (t : Int) = s.sim.timestep)
    (ht' : (t' : Int) = s.sim.timestep + 1) (i : Fin n) (ho : StartsOverlapping s.sim.logTrajectory i)
    (hs : (s.sim.objectMetadata i).isSdc = false) :
    let p := s'.sim.simTrajectory i t'
    let l := s.sim.logTrajectory i t'
    p.x = l.x ∧ p.y = l.y ∧ p.yaw = l.yaw ∧ p.velX = l.velX ∧ p.velY = l.velY :=
  (C45_who_moves h ht ht' i).2.2 (fun _ _ hc => hc.2.2 ho) hs

/-- A step fails only when the number of actor states is not the number of sim agents. -/
theorem C45_fails_iff (E : PlanEnv D X K P n T) (split : K → Nat → List K) (s : PlanState X n T) (a : Act D) (rng : Option K) :
    (∃ e, planStep E split s a rng = .error e) ↔ E.actors.length ≠ s.actorStates.length := by
  rw [planStep_eq]
  split
  · rename_i h; exact ⟨fun _ => h, fun _ => ⟨_, rfl⟩⟩
  · rename_i h; exact ⟨fun ⟨e, he⟩ => by simp at he, fun hh => absurd hh h⟩

theorem length_loopOutputs {E : PlanEnv D X K P n T} {split : K → Nat → List K} (hsplit : ∀ k m, (split k m).length = m)
    (hE : E.actors.length = E.params.length) {s : PlanState X n T} (hs : E.actors.length = s.actorStates.length)
    (rng : Option K) : (loopOutputs E split s rng).length = E.actors.length := by
  have hk : (planKeys split rng E.actors.length).length = E.actors.length := by
    unfold planKeys
    cases rng <;> simp [hsplit]
  simp only [loopOutputs, List.length_map, List.length_zip, hk]
  omega

/-- Environments built by the constructor never fail in an episode: after `reset` any number of steps succeed, with any
actions and keys. (`split k m`, jax.random.split, yields `m` keys.) -/
theorem C45_never_fails {reg : Dict (Metric n T)} {d : DynamicsModel ℝ D n} {cfg : EnvConfig} {rewards : Dict ℝ}
    {actors : List (SimAgent X K P n T)} {params : List P} {E : PlanEnv D X K P n T}
    (hE : planInit reg d cfg rewards actors params = .ok E) {split : K → Nat → List K} (hsplit : ∀ k m, (split k m).length = m)
    {scen : SimState ℝ n T} {rng : Option K} {s0 : PlanState X n T} (h0 : planReset E split scen rng = .ok s0)
    (acts : List (Act D × Option K)) :
    ∃ s1, planMany E split s0 acts = .ok s1 ∧ s1.sim.timestep = s0.sim.timestep + acts.length ∧
      s1.actorStates.length = E.actors.length := by
  have hlen : E.actors.length = E.params.length := by
    unfold planInit at hE
    cases hr : linearRewardInit reg rewards with
    | error e => simp [hr, bind, Except.bind] at hE
    | ok r =>
      simp only [hr, bind, Except.bind, pure, Except.pure, throw, throwThe, MonadExceptOf.throw] at hE
      split at hE
      · simp at hE
      · split at hE
        · simp at hE
        · rename_i hc
          simp only [Except.ok.injEq] at hE
          rw [← hE]
          simpa using hc
  have hs0 : s0.actorStates.length = E.actors.length := by
    have hk : (planKeys split rng E.actors.length).length = E.actors.length := by
      unfold planKeys
      cases rng <;> simp [hsplit]
    unfold planReset at h0
    simp only [bind, Except.bind, pure, Except.pure] at h0
    split at h0
    · simp at h0
    · simp only [Except.ok.injEq] at h0
      rw [← h0]
      simp [hk]
  clear h0
  induction acts generalizing s0 with
  | nil => exact ⟨s0, rfl, by simp, hs0⟩
  | cons a as ih =>
    have hstep := planStep_eq E split s0 a.1 a.2
    rw [if_neg (by rw [hs0]; simp)] at hstep
    have hl := length_loopOutputs hsplit hlen hs0.symm a.2
    obtain ⟨s1, hs1⟩ : ∃ s1, planStep E split s0 a.1 a.2 = .ok s1 := ⟨_, hstep⟩
    have hs1' := hs1
    rw [hstep] at hs1'
    simp only [Except.ok.injEq] at hs1'
    obtain ⟨s2, h1, h2, h3⟩ := ih (s0 := s1) (by rw [← hs1']; simp only [List.length_map, hl])
    refine ⟨s2, ?_, ?_, h3⟩
    · unfold planMany
      rw [hs1]
      exact h1
    · rw [h2, ← hs1']
      simp only [List.length_cons]
      push_cast
      ring

/-! ### C46: no sim agents -/

theorem stateDynamics_forward_asAction (d : DynamicsModel ℝ D n) (a : Fin n → Act D) (sim ref : Traj ℝ n T) (m : Fin n → Bool)
    (t : Int) (inj : Bool) :
    stateDynamics.forward (fun i => (d.computeUpdate a (fun i => dynIndex (sim i) t) i).asAction) sim ref m t inj =
      d.forward a sim ref m t inj := rfl

/-- Without sim agents, one step of the planning environment is one step of the base environment that controls the SDC with
the same dynamics, the planner's action being given to it. -/
theorem C46_step {E : PlanEnv D X K P n T} (hE : E.actors = []) (hc : E.cfg.controlledObject = .SDC)
    (split : K → Nat → List K) (sim : SimState ℝ n T) (a : Act D) (rng : Option K) :
    planStep E split { sim := sim, actorStates := [] } a rng =
      (step E.dynamics E.cfg sim fun _ => a).map fun s' => { sim := s', actorStates := [] } := by
  rw [planStep_eq]
  simp only [hE, loopOutputs, List.length_nil, List.zip_nil_left, List.map_nil, List.foldl_nil, List.any_nil, Bool.or_false]
  rw [if_neg (by simp)]
  unfold step envControlMask
  rw [if_neg (by rw [hc]; simp), hc]
  rfl

/-- The same for `reset` and whole episodes of any length: simulated trajectories, clocks and failures agree. -/
theorem C46_episode {E : PlanEnv D X K P n T} (hE : E.actors = []) (hc : E.cfg.controlledObject = .SDC)
    (split : K → Nat → List K) (scen : SimState ℝ n T) (rng : Option K) (acts : List (Act D × Option K)) :
    (planReset E split scen rng >>= fun s0 => planMany E split s0 acts) =
      (reset E.cfg scen >>= fun s0 => stepMany E.dynamics E.cfg s0 (acts.map fun a _ => a.1)).map
        fun s' => { sim := s', actorStates := [] } := by
  have hr : planReset E split scen rng = (reset E.cfg scen).map fun s => { sim := s, actorStates := [] } := by
    unfold planReset reset
    simp only [hE, List.zip_nil_right, List.map_nil]
    split
    · rw [updateStateByLog_eq]
      split <;> rfl
    · rfl
  have hm : ∀ (acts : List (Act D × Option K)) (s : SimState ℝ n T), planMany E split { sim := s, actorStates := [] } acts =
      (stepMany E.dynamics E.cfg s (acts.map fun a _ => a.1)).map fun s' => { sim := s', actorStates := [] } := by
    intro acts
    induction acts with
    | nil => intro s; rfl
    | cons a as ih =>
      intro s
      unfold planMany
      rw [C46_step hE hc, List.map_cons]
      unfold stepMany
      cases step E.dynamics E.cfg s fun _ => a.1 with
      | error e => rfl
      | ok s' => exact ih s'
  rw [hr]
  cases reset E.cfg scen with
  | error e => rfl
  | ok s0 => exact hm acts s0

end

end Waymax
