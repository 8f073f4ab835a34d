import Verif.Spec.BatchPlanning
import Verif.Props.BatchRolloutAgrees
import Verif.Props.Planning
import Verif.Model.Waypoint
/-
C121: the planning environment on a batch is, scenario by scenario, the planning environment on the scenario.
-/

namespace Waymax

section
variable {pre : List Nat} {n T : Nat}

/-! ### Arrays -/

theorem repeat_ok {β : Type} {x : Nd β} {q : List Nat} {m : Nat} (hx : x.shape = q ++ [m]) (n : Nat) :
    ∃ r, x.repeatBeforeLast n = .ok r ∧ r.shape = q ++ [n, m] ∧ ∀ p i k, r.get (p ++ [i, k]) = x.get (p ++ [k]) := by
  unfold Nd.repeatBeforeLast
  rw [assertThat_ok (by rw [hx]; simp), exc_ok_bind, hx, List.dropLast_concat, List.getLastD_concat]
  refine ⟨_, rfl, rfl, fun p i k => ?_⟩
  dsimp only
  rw [snoc2, List.dropLast_concat, List.dropLast_concat, List.getLastD_concat]

theorem where3_row {β : Type} {c : Nd Bool} {a b : Nd β} {q : List Nat} {M : Nat} (hc : c.shape = q) (ha : a.shape = q ++ [M])
    (hb : b.shape = q ++ [M]) :
    ∃ r, Nd.where3 c.expandLast a b = .ok r ∧ r.shape = q ++ [M] ∧
      ∀ p m, InRange q p → m < M → r.get (p ++ [m]) = if c.get p = true then a.get (p ++ [m]) else b.get (p ++ [m]) := by
  obtain ⟨ab, e1, s1, g1⟩ := zip_shaped (fun (u v : β) => (u, v)) ha hb
  obtain ⟨r, e2, s2, g2⟩ := zip_row (fun (c : Bool) (uv : β × β) => if c then uv.1 else uv.2) hc s1
  refine ⟨r, by simp only [Nd.where3, e1, exc_ok_bind, e2], s2, fun p m hp hm => ?_⟩
  rw [g2 p m hp hm, g1 _ (hp.snoc hm)]

theorem asAction_ok {α : Type} {u : UpdNd α} (hu : u.HasShape (pre ++ [n, 1])) :
    ∃ a, u.asAction = .ok a ∧ a.Shaped pre n 5 ∧
      ∀ p, a.scenario stateRowOf n p = fun i => (u.at_ (p ++ [i.val, 0])).asAction := by
  have hsp : ∀ {β : Type} {x : Nd β}, x.shape = pre ++ [n, 1] → x.shape = (pre ++ [n]) ++ [1] := fun h => by rw [h, snoc2]
  obtain ⟨a1, e1, s1, g1⟩ := concatLast_ok (hsp hu.x) (hsp hu.y)
  obtain ⟨a2, e2, s2, g2⟩ := concatLast_ok s1 (hsp hu.yaw)
  obtain ⟨a3, e3, s3, g3⟩ := concatLast_ok s2 (hsp hu.velX)
  obtain ⟨a4, e4, s4, g4⟩ := concatLast_ok s3 (hsp hu.velY)
  refine ⟨{ data := a4, valid := u.valid }, ?_, ⟨by rw [s4, snoc2], hu.valid⟩, fun p => ?_⟩
  · unfold UpdNd.asAction
    rw [e1, exc_ok_bind, e2, exc_ok_bind, e3, exc_ok_bind, e4, exc_ok_bind]
    rfl
  · funext i
    unfold ActNd.scenario stateRowOf UpdNd.at_ Upd.asAction
    have h4 : ∀ k, a4.get (p ++ [i.val, k]) = a4.get ((p ++ [i.val]) ++ [k]) := fun k => by rw [snoc2]
    simp only [h4, g1, g2, g3, g4, snoc2 p i.val 0]
    norm_num

/-- The one action of each scenario, repeated for the objects of the scenario. -/
theorem planningUpdate_ok {D : Type} {dn : DynNd ℝ} {dim : Nat} {row : (Nat → ℝ) → D} {d : DynamicsModel ℝ D n} (hd : dn.Refines n dim row d)
    {a : ActNd ℝ} (ha : a.OnePerScenario pre dim) {cur : TrajNd ℝ} (hc : cur.HasShape (pre ++ [n, 1])) :
    ∃ u, planningUpdateNd dn a cur = .ok u ∧ u.HasShape (pre ++ [n, 1]) ∧ ∀ p, InRange pre p → ∀ i : Fin n,
      u.at_ (p ++ [i.val, 0]) = planningComputeUpdate d (a.planner row p) (fun j => cur.at_ (p ++ [j.val, 0])) i := by
  have hn : cur.numObjects = .ok n := by
    unfold TrajNd.numObjects TrajNd.shape
    rw [hc.x]
    simp
  obtain ⟨r1, e1, s1, g1⟩ := repeat_ok ha.data n
  obtain ⟨r2, e2, s2, g2⟩ := repeat_ok ha.valid n
  obtain ⟨u, e3, s3, g3⟩ := hd pre { data := r1, valid := r2 } cur ⟨s1, s2⟩ hc
  refine ⟨u, ?_, s3, fun p hp i => ?_⟩
  · unfold planningUpdateNd
    rw [hn, exc_ok_bind, e1, exc_ok_bind, e2, exc_ok_bind]
    dsimp only
    unfold ActNd.validate
    dsimp only
    rw [s1, s2, assertThat_ok (by
      constructor
      · rw [List.length_append, snoc2, snoc2]
        simp [List.take_append]
      · rw [snoc2]; simp), exc_ok_bind]
    exact e3
  · rw [g3 p hp i]
    unfold planningComputeUpdate
    congr 1
    funext j
    unfold ActNd.scenario ActNd.planner
    simp only [g1, g2]

/-- `_initialized_overlap` on a batch. -/
theorem initializedOverlap_ok [NeZero T] {log : TrajNd ℝ} (h : log.HasShape (pre ++ [n, T])) :
    ∃ o, initializedOverlapNd log = .ok o ∧ o.shape = pre ++ [n] ∧ ∀ p, InRange pre p → ∀ i : Fin n,
      o.get (p ++ [i.val]) = initializedOverlap (fun j (k : Fin T) => log.at_ (p ++ [j.val, k.val])) i := by
  classical
  have hT : 1 ≤ T := Nat.one_le_iff_ne_zero.mpr (NeZero.ne T)
  obtain ⟨t, e1, s1, g1⟩ := mapLeaves_rename (f := fun _ x => x.dynIndexV 0 (-1)) (s' := pre ++ [n])
    (φ := fun idx => idx.insertIdx (pre ++ [n]).length (startIdx T 1 0)) h
    (fun β x hx => by
      unfold Nd.dynIndexV
      rw [hx, snoc2, normAxis_last', exc_ok_bind, getD_snoc]
      dsimp only
      rw [assertThat_ok hT, exc_ok_bind]
      congr 2
      simp [List.eraseIdx_append_of_length_le])
  have hb : boxesNd t = .ok { shape := pre ++ [n], get := fun idx => (t.at_ idx).box } := by
    unfold boxesNd
    rw [assertThat_ok ⟨by rw [s1.x, s1.y], by rw [s1.x, s1.length], by rw [s1.x, s1.width], by rw [s1.x, s1.yaw]⟩, s1.x]
    rfl
  have hat : ∀ p, InRange pre p → ∀ j : Fin n, t.at_ (p ++ [j.val]) = dynIndex (fun k : Fin T => log.at_ (p ++ [j.val, k.val])) 0 := by
    intro p hp j
    rw [g1]
    have : (p ++ [j.val]).insertIdx (pre ++ [n]).length (startIdx T 1 0) = p ++ [j.val, startIdx T 1 0] := by
      have hl : (pre ++ [n]).length = (p ++ [j.val]).length := by simp [hp.length]
      rw [hl, List.insertIdx_length_self]
      simp
    rw [this]
    rfl
  unfold initializedOverlapNd
  rw [e1, exc_ok_bind, hb, exc_ok_bind]
  refine ⟨_, rfl, ?_, fun p hp i => ?_⟩
  · simp [Nd.anyLast, pairwiseOverlapsNd]
  · unfold Nd.anyLast initializedOverlap
    have hget : ∀ j : Fin n, (pairwiseOverlapsNd { shape := pre ++ [n], get := fun idx => (t.at_ idx).box }).get ((p ++ [i.val]) ++ [j.val]) = true ↔
        computePairwiseOverlaps (fun k => (dynIndex (fun l : Fin T => log.at_ (p ++ [k.val, l.val])) 0).box) i j := by
      intro j
      unfold pairwiseOverlapsNd computePairwiseOverlaps
      dsimp only
      rw [List.dropLast_concat, List.getLastD_concat, List.getLastD_concat, List.dropLast_concat]
      by_cases hij : i = j
      · simp [hij]
      · rw [if_neg (fun e => hij (Fin.ext e)), if_neg hij]
        refine Iff.trans (@decide_eq_true_iff _ _) ?_
        rw [hat p hp i, hat p hp j]
    have hl : (pairwiseOverlapsNd { shape := pre ++ [n], get := fun idx => (t.at_ idx).box }).shape.getLastD 0 = n := by
      simp [pairwiseOverlapsNd]
    dsimp only
    rw [hl, Bool.eq_iff_iff, List.any_eq_true]
    refine Iff.trans ?_ (@decide_eq_true_iff _ _).symm
    constructor
    · rintro ⟨k, hk, h⟩
      exact ⟨⟨k, List.mem_range.1 hk⟩, (hget ⟨k, List.mem_range.1 hk⟩).1 h⟩
    · rintro ⟨j, h⟩
      exact ⟨j.val, List.mem_range.2 j.isLt, (hget j).2 h⟩


/-! ### The loop over the sim agents -/

section
variable {X X' K P : Type} {Q : List Nat → X → X' → Prop}

/-- Merged actions of the documented shapes. -/
structure MergedNd.Shaped (m : MergedNd X) (pre : List Nat) (n : Nat) : Prop where
  action : m.action.Shaped pre n 5
  controlled : m.controlled.shape = pre ++ [n]

/-- At batch index `p` the merged actions show those of one scenario. -/
structure MergedNd.Reads (m : MergedNd X) (n : Nat) (Q : List Nat → X → X' → Prop) (p : List Nat) (m' : Merged X' n) : Prop where
  action : m.action.scenario stateRowOf n p = m'.action
  controlled : ∀ i : Fin n, m.controlled.get (p ++ [i.val]) = m'.controlled i
  actors : List.Forall₂ (Q p) m.actorStates m'.actorStates

theorem merge_ok {g : AgentPair X X' K P n T} (hg : SimAgentNd.Refines g.batch g.single g.params pre Q) {s : PlanStateNd X}
    (hs : s.sim.Shaped pre n T) (ht : s.sim.timestep.shape = []) {ok : Nd Bool} (hok : ok.shape = pre ++ [n]) {acc : MergedNd X}
    (hacc : acc.Shaped pre n) (x : X) (key : Option K) :
    ∃ acc1, mergeSimAgentNd s ok acc (g.batch, x, g.params, key) = .ok acc1 ∧ acc1.Shaped pre n ∧
      ∀ p (s' : PlanState X' n T) x' acc', InRange pre p → s.Shows pre n T Q p s' → Q p x x' → acc.Reads n Q p acc' →
        acc1.Reads n Q p (mergeSimAgent s' (fun i => ok.get (p ++ [i.val])) acc' (g.single p, x', g.params, key)) := by
  obtain ⟨o, e1, s1, s2, g1⟩ := hg.select key s x hs ht
  obtain ⟨c, e2, s3, g2⟩ := zip_shaped (fun a b : Bool => a && b) s2 hok
  have hsp : ∀ {β : Type} {y : Nd β} {m : Nat}, y.shape = pre ++ [n, m] → y.shape = (pre ++ [n]) ++ [m] := fun h => by rw [h, snoc2]
  obtain ⟨d, e3, s4, g3⟩ := where3_row s3 (hsp s1.data) (hsp hacc.action.data)
  obtain ⟨v, e4, s5, g4⟩ := where3_row s3 (hsp s1.valid) (hsp hacc.action.valid)
  obtain ⟨m, e5, s6, g5⟩ := zip_shaped (fun a b : Bool => a || b) hacc.controlled s3
  refine ⟨{ action := { data := d, valid := v }, controlled := m, actorStates := acc.actorStates ++ [o.actorState] }, ?_,
    ⟨⟨by rw [s4, snoc2], by rw [s5, snoc2]⟩, s6⟩, fun p s' x' acc' hp hsh hx ha => ?_⟩
  · unfold mergeSimAgentNd
    dsimp only
    rw [e1, exc_ok_bind, e2, exc_ok_bind, e3, exc_ok_bind, e4, exc_ok_bind, e5, exc_ok_bind]
    rfl
  · obtain ⟨q1, q2, q3⟩ := g1 p s' x' hp hsh hx
    have hc : ∀ i : Fin n, c.get (p ++ [i.val]) = (((g.single p).selectAction g.params s' x' key).isControlled i && ok.get (p ++ [i.val])) :=
      fun i => by rw [g2 _ (hp.snoc i.isLt), q2]
    refine ⟨?_, fun i => ?_, ?_⟩
    · unfold mergeSimAgent
      dsimp only
      funext i
      rw [whereAct_apply]
      have h1 := congrFun q1 i
      have h2 := congrFun ha.action i
      rw [← h1, ← h2, ← hc i]
      unfold ActNd.scenario
      have hd : ∀ k, k < 5 → d.get (p ++ [i.val, k]) = if c.get (p ++ [i.val]) = true then o.action.data.get (p ++ [i.val, k])
          else acc.action.data.get (p ++ [i.val, k]) := fun k hk => by
        rw [snoc2, g3 _ _ (hp.snoc i.isLt) hk]
      have hv := g4 _ 0 (hp.snoc i.isLt) (by omega : 0 < 1)
      rw [← snoc2] at hv
      unfold stateRowOf
      simp only [hv, hd 0 (by omega), hd 1 (by omega), hd 2 (by omega), hd 3 (by omega), hd 4 (by omega)]
      split <;> rfl
    · unfold mergeSimAgent
      dsimp only
      rw [g5 _ (hp.snoc i.isLt), ha.controlled i, hc i]
    · unfold mergeSimAgent
      exact List.rel_append ha.actors (.cons q3 .nil)

theorem loop_ok {agents : List (AgentPair X X' K P n T)} (hg : ∀ g ∈ agents, SimAgentNd.Refines g.batch g.single g.params pre Q)
    {s : PlanStateNd X} (hs : s.sim.Shaped pre n T) (ht : s.sim.timestep.shape = []) {ok : Nd Bool} (hok : ok.shape = pre ++ [n]) :
    ∀ (xs : List X) (keys : List (Option K)) (acc : MergedNd X), acc.Shaped pre n →
    ∃ acc1, ((agents.map AgentPair.batch).zip (xs.zip ((agents.map AgentPair.params).zip keys))).foldlM (mergeSimAgentNd s ok) acc = .ok acc1 ∧
      acc1.Shaped pre n ∧
      ∀ p (s' : PlanState X' n T) xs' acc', InRange pre p → s.Shows pre n T Q p s' → List.Forall₂ (Q p) xs xs' → acc.Reads n Q p acc' →
        acc1.Reads n Q p (((agents.map fun g => g.single p).zip (xs'.zip ((agents.map AgentPair.params).zip keys))).foldl
          (mergeSimAgent s' fun i => ok.get (p ++ [i.val])) acc') := by
  induction agents with
  | nil => exact fun xs keys acc h => ⟨acc, rfl, h, fun p s' xs' acc' _ _ _ h => h⟩
  | cons g agents ih =>
    intro xs keys acc hacc
    cases xs with
    | nil =>
      refine ⟨acc, rfl, hacc, fun p s' xs' acc' _ _ hx h => ?_⟩
      cases hx
      exact h
    | cons x xs =>
      cases keys with
      | nil =>
        refine ⟨acc, rfl, hacc, fun p s' xs' acc' _ _ hx h => ?_⟩
        cases hx
        exact h
      | cons key keys =>
        obtain ⟨a1, e1, s1, g1⟩ := merge_ok (hg g (by simp)) hs ht hok hacc x key
        obtain ⟨a2, e2, s2, g2⟩ := ih (fun g hg' => hg g (by simp [hg'])) xs keys a1 s1
        refine ⟨a2, ?_, s2, fun p s' xs' acc' hp hsh hx h => ?_⟩
        · simp only [List.map_cons, List.zip_cons_cons, List.foldlM_cons, e1, exc_ok_bind]
          exact e2
        · cases hx with
          | cons hx hxs => exact g2 p s' _ _ hp hsh hxs (g1 p s' _ _ hp hsh hx h)

end

/-! ### C121: reset and step -/

section
variable {D X X' K P : Type} {Q : List Nat → X → X' → Prop} [NeZero T]

/-- One step of a batch in the planning environment, with any sim agents, is that step of each scenario; it raises when the scenarios do. -/
theorem C121_step {dn : DynNd ℝ} {dim : Nat} {row : (Nat → ℝ) → D} {d : DynamicsModel ℝ D n} (hd : dn.Refines n dim row d) (cfg : EnvConfig)
    (rewards : Dict ℝ) {agents : List (AgentPair X X' K P n T)} (hg : ∀ g ∈ agents, SimAgentNd.Refines g.batch g.single g.params pre Q)
    (split : K → Nat → List K) (rng : Option K) {s : PlanStateNd X} {a : ActNd ℝ} (ha : a.OnePerScenario pre dim) {p : List Nat}
    (hp : InRange pre p) {s' : PlanState X' n T} (hs : s.Shows pre n T Q p s') :
    ExRel (fun s1 s1' => s1.Shows pre n T Q p s1') (planStepNd (envOfPairs dn cfg rewards agents) split s a rng)
      (planStep (envOfPairsAt d cfg rewards agents p) split s' (a.planner row p) rng) := by
  obtain ⟨cur, e1, s1, g1⟩ := slice_traj hs.shaped.sim hs.time
  obtain ⟨u, e2, s2, g2⟩ := planningUpdate_ok hd ha s1
  obtain ⟨pa, e3, s3, g3⟩ := asAction_ok s2
  obtain ⟨ov, e4, s4, g4⟩ := initializedOverlap_ok hs.shaped.log
  unfold planStepNd planStep
  rw [e1, exc_ok_bind]
  unfold envOfPairs envOfPairsAt
  dsimp only
  rw [e2, exc_ok_bind, e3, exc_ok_bind, e4, exc_ok_bind, List.length_map, List.length_map]
  have hlen := hs.actors.length_eq
  by_cases hl : agents.length = s.actorStates.length
  swap
  · rw [assertThat_error hl, if_pos (by rw [← hlen]; exact hl)]
    rfl
  rw [assertThat_ok hl, if_neg (by rw [← hlen]; exact fun h => h hl), exc_ok_bind]
  obtain ⟨m, e5, s5, g5⟩ := loop_ok hg hs.shaped hs.time (ok := ov.map fun b => !b) s4 s.actorStates (planKeys split rng agents.length)
    { action := pa, controlled := s.sim.objectMetadata.isSdc, actorStates := [] } ⟨s3, hs.shaped.metadata.isSdc⟩
  rw [e5, exc_ok_bind]
  obtain ⟨tr, e6, s6, g6⟩ := forward_batch (C105_state n) s5.action hs.shaped.sim hs.shaped.log s5.controlled hs.time
    cfg.allowNewObjectsAfterWarmup
  rw [e6, exc_ok_bind]
  have hread := g5 p s' s'.actorStates
    { action := fun i => (planningComputeUpdate d (a.planner row p) s'.sim.currentSim i).asAction
      controlled := fun i => (s'.sim.objectMetadata i).isSdc, actorStates := [] } hp hs hs.actors
    ⟨by
      rw [g3 p]
      funext i
      rw [g2 p hp i]
      congr 2
      funext j
      rw [g1 p hp j, hs.sim]
      unfold SimState.currentSim StateNd.scenario
      simp [hs.time], fun i => by rw [hs.sim]; rfl, .nil⟩
  have hov : (fun i : Fin n => (ov.map fun b => !b).get (p ++ [i.val])) = fun i => !initializedOverlap s'.sim.logTrajectory i := by
    funext i
    show (!ov.get (p ++ [i.val])) = _
    rw [g4 p hp i, hs.sim]
    rfl
  rw [hov] at hread
  refine ⟨⟨s6, hs.shaped.log, hs.shaped.metadata⟩, hs.time, ?_, hread.actors⟩
  dsimp only
  rw [hs.sim] at hread ⊢
  unfold StateNd.scenario at hread ⊢
  simp only [SimState.mk.injEq, true_and, and_true]
  refine ⟨?_, ?_⟩
  · funext i t
    rw [g6 p hp i t, hread.action]
    congr 1
    · funext j
      exact (hread.controlled j).symm
    · simp [hs.time]
  · rfl

/-- `reset` of a batch in the planning environment is `reset` of each scenario; it raises when the scenarios do. -/
theorem C121_reset (dn : DynNd ℝ) (d : DynamicsModel ℝ D n) (cfg : EnvConfig) (rewards : Dict ℝ) {agents : List (AgentPair X X' K P n T)}
    (hg : ∀ g ∈ agents, SimAgentNd.Refines g.batch g.single g.params pre Q) (split : K → Nat → List K) (rng : Option K) {S : StateNd ℝ}
    (hS : S.Shaped pre n T) {p : List Nat} (hp : InRange pre p) :
    ExRel (fun s s' => s.Shows pre n T Q p s') (planResetNd (envOfPairs dn cfg rewards agents) split S rng)
      (planReset (envOfPairsAt d cfg rewards agents p) split (S.scenario n T p) rng) := by
  have hb := C105_reset cfg hS
  show ExRel _ (resetNd cfg S >>= _) (reset cfg (S.scenario n T p) >>= _)
  cases hr : resetNd cfg S with
  | error e =>
    rw [hr] at hb
    have hb2 := hb p hp
    beta_reduce at hb2
    rw [hb2]
    rfl
  | ok s =>
    rw [hr] at hb
    have hb2 := hb.2.2 p hp
    beta_reduce at hb2
    rw [hb2]
    refine ⟨hb.1, hb.2.1, rfl, ?_⟩
    have hsh : PlanStateNd.Shows ({ sim := s, actorStates := [] } : PlanStateNd X) pre n T Q p { sim := s.scenario n T p, actorStates := [] } :=
      ⟨hb.1, hb.2.1, rfl, .nil⟩
    unfold envOfPairs envOfPairsAt
    dsimp only
    rw [List.length_map, List.length_map, List.zip_map_right, List.zip_map_right, List.map_map, List.map_map, List.forall₂_map_left_iff,
      List.forall₂_map_right_iff, List.forall₂_same]
    rintro ⟨key, g⟩ hmem
    exact (hg g (List.of_mem_zip hmem).2).init key _ p _ hp hsh

/-- Any number of steps. -/
theorem C121_steps {dn : DynNd ℝ} {dim : Nat} {row : (Nat → ℝ) → D} {d : DynamicsModel ℝ D n} (hd : dn.Refines n dim row d) (cfg : EnvConfig)
    (rewards : Dict ℝ) {agents : List (AgentPair X X' K P n T)} (hg : ∀ g ∈ agents, SimAgentNd.Refines g.batch g.single g.params pre Q)
    (split : K → Nat → List K) {p : List Nat} (hp : InRange pre p) (as : List (ActNd ℝ × Option K))
    (ha : ∀ a ∈ as, a.1.OnePerScenario pre dim) {s : PlanStateNd X} {s' : PlanState X' n T} (hs : s.Shows pre n T Q p s') :
    ExRel (fun s1 s1' => s1.Shows pre n T Q p s1') (planManyNd (envOfPairs dn cfg rewards agents) split s as)
      (planMany (envOfPairsAt d cfg rewards agents p) split s' (as.map fun a => (a.1.planner row p, a.2))) := by
  induction as generalizing s s' with
  | nil => exact hs
  | cons a as ih =>
    unfold planManyNd planMany
    exact (C121_step hd cfg rewards hg split a.2 (ha a (by simp)) hp hs).bind fun s1 s1' h => ih (fun a h => ha a (by simp [h])) h

/-- An episode: `reset` and any number of steps, with any sim agents and actions. -/
theorem C121_episode {dn : DynNd ℝ} {dim : Nat} {row : (Nat → ℝ) → D} {d : DynamicsModel ℝ D n} (hd : dn.Refines n dim row d) (cfg : EnvConfig)
    (rewards : Dict ℝ) {agents : List (AgentPair X X' K P n T)} (hg : ∀ g ∈ agents, SimAgentNd.Refines g.batch g.single g.params pre Q)
    (split : K → Nat → List K) (rng : Option K) {S : StateNd ℝ} (hS : S.Shaped pre n T) (as : List (ActNd ℝ × Option K))
    (ha : ∀ a ∈ as, a.1.OnePerScenario pre dim) {p : List Nat} (hp : InRange pre p) :
    ExRel (fun s s' => s.Shows pre n T Q p s')
      (planResetNd (envOfPairs dn cfg rewards agents) split S rng >>= fun s => planManyNd (envOfPairs dn cfg rewards agents) split s as)
      (planReset (envOfPairsAt d cfg rewards agents p) split (S.scenario n T p) rng >>= fun s =>
        planMany (envOfPairsAt d cfg rewards agents p) split s (as.map fun a => (a.1.planner row p, a.2))) :=
  (C121_reset dn d cfg rewards hg split rng hS hp).bind fun _ _ h => C121_steps hd cfg rewards hg split hp as ha h

end

end

end Waymax
