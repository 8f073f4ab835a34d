import Verif.Props.Batch
import Verif.Examples
import Verif.Props.TimeTensors
/-
Batches and the time step. C105: the flags of a batch. C106: a batch whose scenarios have their own time steps, as the
documentation describes `timestep`, can be read but not stepped. C107: the state returned by `reset` of a batch does not
satisfy the shape check of its own class.
-/

namespace Waymax

section
variable {α : Type} {pre : List Nat} {n T : Nat}

theorem StateNd.Shaped.shape_eq {S : StateNd α} (h : S.Shaped pre n T) : S.shape = pre := by
  unfold StateNd.shape
  rw [h.metadata.ids, List.dropLast_concat]

theorem StateNd.Shaped.numTimesteps_eq {S : StateNd α} (h : S.Shaped pre n T) : S.logTrajectory.numTimesteps = T := by
  unfold TrajNd.numTimesteps TrajNd.shape
  rw [h.log.x, snoc2, List.getLastD_concat]

theorem zip_scalar {β γ δ : Type} (f : β → γ → δ) {x : Nd β} {y : Nd γ} {s : List Nat} (hx : x.shape = s) (hy : y.shape = []) :
    ∃ r, Nd.zip f x y = .ok r ∧ r.shape = s ∧ ∀ idx, InRange s idx → r.get idx = f (x.get idx) (y.get []) := by
  have hb : Nd.broadcastShape s [] = some s := by
    have : ∀ l : List Nat, Nd.broadcastRev l [] = some l := fun l => by cases l <;> rfl
    simp [Nd.broadcastShape, this]
  unfold Nd.zip
  rw [hx, hy, hb]
  refine ⟨_, rfl, rfl, fun idx hidx => ?_⟩
  simp only [broadcastIdx_self hidx]
  simp [Nd.broadcastIdx]

/-- The flags of a batch. `termination` and `truncation` have the batch shape and hold each scenario's flag. -/
theorem C105_flags {S : StateNd α} (h : S.Shaped pre n T) (ht : S.timestep.shape = [] ∨ S.timestep.shape = pre) :
    (terminationNd S).shape = pre ∧ (∀ p, InRange pre p → (terminationNd S).get p = termination (S.scenario n T p)) ∧
    ∃ f, truncationNd S = .ok f ∧ f.shape = pre ∧ ∀ p, InRange pre p → f.get p = truncation (S.scenario n T p) := by
  refine ⟨h.shape_eq, fun _ _ => rfl, ?_⟩
  unfold truncationNd
  rcases ht with ht | ht
  · obtain ⟨r, e, s, g⟩ := zip_scalar (fun (_ : Unit) (b : Bool) => b) (x := { shape := S.shape, get := fun _ => () })
      (y := S.remainingTimesteps.map fun r => decide (r < 1)) h.shape_eq ht
    refine ⟨r, e, s, fun p hp => ?_⟩
    rw [g p hp]
    simp [StateNd.remainingTimesteps, Nd.map, truncation, SimState.remainingTimesteps, StateNd.scenario, ht, h.numTimesteps_eq]
  · obtain ⟨r, e, s, g⟩ := zip_shaped (fun (_ : Unit) (b : Bool) => b) (x := { shape := S.shape, get := fun _ => () })
      (y := S.remainingTimesteps.map fun r => decide (r < 1)) h.shape_eq ht
    refine ⟨r, e, s, fun p hp => ?_⟩
    rw [g p hp]
    have hl : p.take pre.length = p := by rw [hp.length]; exact List.take_length
    simp [StateNd.remainingTimesteps, Nd.map, truncation, SimState.remainingTimesteps, StateNd.scenario, ht, h.numTimesteps_eq, hl]

/-- `is_done` has the shape of the time step and holds each scenario's flag. -/
theorem C105_is_done {S : StateNd α} (h : S.Shaped pre n T) :
    S.isDone.shape = S.timestep.shape ∧
    ∀ p, S.isDone.get (p.take S.timestep.shape.length) = (S.scenario n T p).isDone := by
  refine ⟨rfl, fun p => ?_⟩
  simp [StateNd.isDone, Nd.map, SimState.isDone, StateNd.scenario, h.numTimesteps_eq]

/-! ### C106 -/

theorem take_append_of_length {p q : List Nat} {k : Nat} (h : k = p.length) : (p ++ q).take k = p := by
  subst h; simp

theorem normAxis_two (rank : Nat) (h : 1 ≤ rank) : Nd.normAxis rank (-1) = .ok (rank - 1) := normAxis_last h

/-- Cutting the last axis at start indices with batch axes. -/
theorem dynSliceV_each {β : Type} {x : Nd β} (hs : x.shape = pre ++ [n, T]) {start : Nd Int} (h0 : start.shape = pre) {k : Nat}
    (hk : k ≤ T) :
    x.dynSliceV start k (-1) = .ok
      { shape := pre ++ [n, k]
        get := fun idx => x.get (idx.modify (pre.length + 1) fun i => i + startIdx T k (start.get (idx.take pre.length))) } := by
  unfold Nd.dynSliceV
  rw [h0]
  dsimp only
  have h1 : x.shape.take pre.length = pre := by rw [hs]; exact take_append_of_length rfl
  have h2 : x.shape.length - pre.length = 2 := by rw [hs]; simp
  have h3 : x.shape.getD (pre.length + 1) 0 = T := by
    rw [hs, snoc2]; exact getD_append_cons (by simp)
  have h4 : x.shape.set (pre.length + 1) k = pre ++ [n, k] := by
    rw [hs, snoc2, set_append_cons (by simp)]; simp
  rw [assertThat_ok h1, exc_ok_bind, h2, normAxis_last (by omega), exc_ok_bind]
  simp only [Nat.add_one_sub_one, Nat.reduceSub]
  rw [h3, assertThat_ok hk, exc_ok_bind, h4]
  rfl

theorem dynSliceV_each_error {β : Type} {x : Nd β} (hs : x.shape = pre ++ [n, T]) {start : Nd Int} (h0 : start.shape = pre)
    {k : Nat} (hk : ¬ k ≤ T) : x.dynSliceV start k (-1) = .error .typeError := by
  unfold Nd.dynSliceV
  rw [h0]
  dsimp only
  have h1 : x.shape.take pre.length = pre := by rw [hs]; exact take_append_of_length rfl
  have h2 : x.shape.length - pre.length = 2 := by rw [hs]; simp
  have h3 : x.shape.getD (pre.length + 1) 0 = T := by
    rw [hs, snoc2]; exact getD_append_cons (by simp)
  rw [assertThat_ok h1, exc_ok_bind, h2, normAxis_last (by omega), exc_ok_bind]
  simp only [Nat.add_one_sub_one, Nat.reduceSub]
  rw [h3, assertThat_error hk]
  rfl

/-- One step of a trajectory, cut at each scenario's own time index. -/
theorem slice_each {t : TrajNd α} (ht : t.HasShape (pre ++ [n, T])) {start : Nd Int} (h0 : start.shape = pre) [NeZero T] :
    ∃ t', t.slice start 1 = .ok t' ∧ t'.HasShape (pre ++ [n, 1]) ∧ ∀ p, InRange pre p → ∀ i : Fin n,
      t'.at_ (p ++ [i.val, 0]) = dynIndex (fun k : Fin T => t.at_ (p ++ [i.val, k.val])) (start.get p) := by
  have hT : 1 ≤ T := Nat.one_le_iff_ne_zero.mpr (NeZero.ne T)
  obtain ⟨t', h1, h2, h3⟩ := mapLeaves_rename (f := fun _ x => x.dynSliceV start 1 (-1)) (s' := pre ++ [n, 1])
    (φ := fun idx => idx.modify (pre.length + 1) fun i => i + startIdx T 1 (start.get (idx.take pre.length))) ht
    (fun β x hx => dynSliceV_each hx h0 hT)
  refine ⟨t', h1, h2, fun p hp i => ?_⟩
  rw [h3, take_append_of_length hp.length]
  have : (p ++ [i.val, 0]).modify (pre.length + 1) (fun j => j + startIdx T 1 (start.get p)) =
      p ++ [i.val, startIdx T 1 (start.get p)] := by
    have hh := modify_append_cons (p := p ++ [i.val]) (q := []) (k := pre.length + 1)
      (f := fun j => j + startIdx T 1 (start.get p)) (by simp [hp.length]) 0
    simpa using hh
  rw [this]
  unfold dynIndex dynSlice
  rfl

/-- The current states of a batch, whether its scenarios share the time step or have their own. -/
theorem C106_current [NeZero T] {S : StateNd α} (h : S.Shaped pre n T) (ht : S.timestep.shape = [] ∨ S.timestep.shape = pre) :
    ∃ cur log, S.simTrajectory.slice S.timestep 1 = .ok cur ∧ S.logTrajectory.slice S.timestep 1 = .ok log ∧
      cur.HasShape (pre ++ [n, 1]) ∧ log.HasShape (pre ++ [n, 1]) ∧
      ∀ p, InRange pre p → ∀ i : Fin n, cur.at_ (p ++ [i.val, 0]) = (S.scenario n T p).currentSim i ∧
        log.at_ (p ++ [i.val, 0]) = (S.scenario n T p).currentLog i := by
  rcases ht with ht | ht
  · obtain ⟨c, e1, s1, g1⟩ := slice_traj h.sim ht
    obtain ⟨l, e2, s2, g2⟩ := slice_traj h.log ht
    refine ⟨c, l, e1, e2, s1, s2, fun p hp i => ?_⟩
    rw [g1 p hp i, g2 p hp i]
    simp [SimState.currentSim, SimState.currentLog, StateNd.scenario, ht]
  · obtain ⟨c, e1, s1, g1⟩ := slice_each h.sim ht
    obtain ⟨l, e2, s2, g2⟩ := slice_each h.log ht
    refine ⟨c, l, e1, e2, s1, s2, fun p hp i => ?_⟩
    have hl : p.take pre.length = p := by rw [hp.length]; exact List.take_length
    rw [g1 p hp i, g2 p hp i]
    simp [SimState.currentSim, SimState.currentLog, StateNd.scenario, ht, hl]

variable [ScalarOps α]

/-- C106, full expectation: a batch of the documented shapes, with a time step of shape `(...)`, can be stepped by dynamics that
accept it. -/
def C106_full : Prop :=
  ∀ (pre : List Nat) (n T : Nat) (cfg : EnvConfig) (S : StateNd ℝ) (a : ActNd ℝ), 0 < T → cfg.controlledObject ≠ .NON_SDC →
    S.Shaped pre n T → S.timestep.shape = pre → a.Shaped pre n 5 → ∃ s', stepNd (stateNd ℝ) cfg S a = .ok s'

/-- No dynamics, configuration, state or action makes a step with a batched time step succeed. -/
theorem C106_never (dn : DynNd α) (cfg : EnvConfig) (S : StateNd α) (a : ActNd α) (ht : S.timestep.shape ≠ []) (s' : StateNd α) :
    stepNd dn cfg S a ≠ .ok s' := by
  have hu : ∀ (β : Type) (x y : Nd β), x.updSliceV y (S.timestep.map fun t => t + 1) (some (Nd.scalar 0)) (some 1) (-1) =
      .error .valueError := by
    intro β x y
    unfold Nd.updSliceV
    dsimp only
    rw [assertThat_error]
    · rfl
    · simp only [Nd.map, Option.getD_some, Nd.scalar]
      exact fun h => ht h.symm
  have hup : ∀ t u : TrajNd α, t.updSlice u (S.timestep.map fun t => t + 1) (some (Nd.scalar 0)) (some 1) = .error .valueError := by
    intro t u
    unfold TrajNd.updSlice TrajNd.zipLeaves
    dsimp only
    rw [hu]
    rfl
  have happ : ∀ upd sim ref isC allow r, applyUpdateNd upd sim ref isC S.timestep allow false ≠ .ok (r : TrajNd α) := by
    intro upd sim ref isC allow r hr
    unfold applyUpdateNd at hr
    simp only [bind_eq_ok] at hr
    obtain ⟨cur, -, fb, -, dflt, -, -, -, x, -, y, -, yaw, -, vx, -, vy, -, v, -, hr⟩ := hr
    rw [hup] at hr
    cases hr
  intro hstep
  unfold stepNd at hstep
  simp only [bind_eq_ok] at hstep
  obtain ⟨m, -, traj, hf, -⟩ := hstep
  unfold DynNd.forward at hf
  simp only [bind_eq_ok] at hf
  obtain ⟨-, -, -, -, cur, -, upd, -, -, -, hf⟩ := hf
  exact happ _ _ _ _ _ _ hf

/-- The error: the index `0` of the update is mapped over a batch axis it does not have. -/
theorem C106_step_error {D : Type} [NeZero T] {dn : DynNd α} {dim : Nat} {row : (Nat → α) → D} {d : DynamicsModel α D n}
    (hd : dn.Refines n dim row d) (cfg : EnvConfig) (hco : cfg.controlledObject ≠ .NON_SDC) {S : StateNd α}
    (h : S.Shaped pre n T) (ht : S.timestep.shape = pre) (hpre : pre ≠ []) {a : ActNd α} (ha : a.Shaped pre n dim)
    (hbatch : ∃ p, InRange pre p) : stepNd dn cfg S a = .error .valueError := by
  have ht' : (S.timestep.map fun t => t + 1).shape = pre := ht
  unfold stepNd
  rcases controlMask_batch cfg h with ⟨m, e, sm, -⟩ | ⟨e, he, g⟩
  · rw [e, exc_ok_bind]
    obtain ⟨cur, e1, s1, g1⟩ := slice_each h.sim ht
    obtain ⟨df, e2, s2, g2⟩ := slice_each h.log ht'
    obtain ⟨fb, e3, s3, -⟩ := fallback_batch s1
    obtain ⟨u, e4, s4, -⟩ := hd pre a cur ha s1
    have hc : m.expandLast.shape = pre ++ [n, 1] := by simp [Nd.expandLast, sm]
    have hup : ∀ t u : TrajNd α, t.updSlice u (S.timestep.map fun t => t + 1) (some (Nd.scalar 0)) (some 1) = .error .valueError := by
      intro t u
      unfold TrajNd.updSlice TrajNd.zipLeaves Nd.updSliceV
      dsimp only
      rw [assertThat_error]
      · rfl
      · simp only [Nd.map, Option.getD_some, Nd.scalar, ht]
        exact fun h => hpre h.symm
    have happ : applyUpdateNd u S.simTrajectory S.logTrajectory m S.timestep cfg.allowNewObjectsAfterWarmup false =
        .error .valueError := by
      obtain ⟨x, f1, -, -⟩ := newField_batch false hc s4.valid s4.x s3.x s2.x
      obtain ⟨y, f2, -, -⟩ := newField_batch false hc s4.valid s4.y s3.y s2.y
      obtain ⟨yaw, f3, -, -⟩ := newField_batch false hc s4.valid s4.yaw s3.yaw s2.yaw
      obtain ⟨vx, f4, -, -⟩ := newField_batch false hc s4.valid s4.velX s3.velX s2.velX
      obtain ⟨vy, f5, -, -⟩ := newField_batch false hc s4.valid s4.velY s3.velY s2.velY
      obtain ⟨v, f6, -, -⟩ := nextValid_batch cfg.allowNewObjectsAfterWarmup hc s1.valid s2.valid
      unfold applyUpdateNd
      dsimp only
      rw [e1, exc_ok_bind, e3, exc_ok_bind, e2, exc_ok_bind, assertThat_ok ⟨by rw [hc, s4.x], by rw [s4.x, s2.x]⟩, exc_ok_bind,
        f1, exc_ok_bind, f2, exc_ok_bind, f3, exc_ok_bind, f4, exc_ok_bind, f5, exc_ok_bind, f6, exc_ok_bind, hup]
    have hf : dn.forward a S.simTrajectory S.logTrajectory m S.timestep cfg.allowNewObjectsAfterWarmup = .error .valueError := by
      have ha1 : S.simTrajectory.shape.dropLast = a.shape := by
        unfold TrajNd.shape ActNd.shape
        rw [h.sim.x, ha.valid, snoc2, snoc2, List.dropLast_concat, List.dropLast_concat]
      have hsh : S.simTrajectory.shape = pre ++ [n] ++ [T] := by unfold TrajNd.shape; rw [h.sim.x, snoc2]
      have hlh : S.logTrajectory.shape = pre ++ [n] ++ [T] := by unfold TrajNd.shape; rw [h.log.x, snoc2]
      have hah : a.shape = pre ++ [n] := by rw [← ha1, hsh, List.dropLast_concat]
      unfold DynNd.forward
      dsimp only
      rw [assertThat_ok ha1, exc_ok_bind, assertThat_ok, exc_ok_bind, e1, exc_ok_bind, e4, exc_ok_bind]
      · have hv : u.validate = .ok () := by
          unfold UpdNd.validate
          rw [assertThat_ok]
          rw [s4.x, s4.y, s4.yaw, s4.velX, s4.velY, s4.valid]
          simp
        rw [hv, exc_ok_bind, happ]
      · have htk : ((pre ++ [n]) ++ [T]).take (pre ++ [n]).length = pre ++ [n] := List.take_left
        rw [hsh, hlh, hah, sm, htk]
        simp
    rw [hf]
    rfl
  · exfalso
    obtain ⟨p, hp⟩ := hbatch
    have := g p hp
    unfold envControlMask at this
    split at this
    · cases this
    · cases hcc : cfg.controlledObject <;> simp [hcc, getControlMask] at this hco

/-- Two scenarios at two different steps. -/
noncomputable def exTwo : StateNd ℝ where
  simTrajectory :=
    { x := { shape := [2, 1, 3], get := fun idx => (idx.getD 0 0 : ℝ) }, y := { shape := [2, 1, 3], get := fun _ => 0 }
      z := { shape := [2, 1, 3], get := fun _ => 0 }, velX := { shape := [2, 1, 3], get := fun _ => 1 }
      velY := { shape := [2, 1, 3], get := fun _ => 0 }, yaw := { shape := [2, 1, 3], get := fun _ => 0 }
      valid := { shape := [2, 1, 3], get := fun _ => true }, timestampMicros := { shape := [2, 1, 3], get := fun _ => 0 }
      length := { shape := [2, 1, 3], get := fun _ => 4 }, width := { shape := [2, 1, 3], get := fun _ => 2 }
      height := { shape := [2, 1, 3], get := fun _ => 1 } }
  logTrajectory :=
    { x := { shape := [2, 1, 3], get := fun idx => (idx.getD 0 0 + idx.getD 2 0 : ℝ) }, y := { shape := [2, 1, 3], get := fun _ => 0 }
      z := { shape := [2, 1, 3], get := fun _ => 0 }, velX := { shape := [2, 1, 3], get := fun _ => 1 }
      velY := { shape := [2, 1, 3], get := fun _ => 0 }, yaw := { shape := [2, 1, 3], get := fun _ => 0 }
      valid := { shape := [2, 1, 3], get := fun _ => true }, timestampMicros := { shape := [2, 1, 3], get := fun _ => 0 }
      length := { shape := [2, 1, 3], get := fun _ => 4 }, width := { shape := [2, 1, 3], get := fun _ => 2 }
      height := { shape := [2, 1, 3], get := fun _ => 1 } }
  logTrafficLight := { shape := [2, 0, 3], get := fun _ => ⟨0, 0, 0, 0, 0, false⟩ }
  objectMetadata :=
    { ids := { shape := [2, 1], get := fun _ => 7 }, objectTypes := { shape := [2, 1], get := fun _ => 1 }
      isSdc := { shape := [2, 1], get := fun _ => true }, isModeled := { shape := [2, 1], get := fun _ => true }
      isValid := { shape := [2, 1], get := fun _ => true }, objectsOfInterest := { shape := [2, 1], get := fun _ => false }
      isControlled := { shape := [2, 1], get := fun _ => true } }
  timestep := { shape := [2], get := fun idx => (idx.getD 0 0 : Int) }
  sdcPaths := none
  roadgraphPoints := none

theorem exTwo_shaped : exTwo.Shaped [2] 1 3 :=
  ⟨⟨rfl, rfl, rfl, rfl, rfl, rfl, rfl, rfl, rfl, rfl, rfl⟩, ⟨rfl, rfl, rfl, rfl, rfl, rfl, rfl, rfl, rfl, rfl, rfl⟩,
    ⟨rfl, rfl, rfl, rfl, rfl, rfl, rfl⟩⟩

/-- State actions for both scenarios. -/
noncomputable def exTwoAct : ActNd ℝ where
  data := { shape := [2, 1, 5], get := fun idx => (idx.getD 0 0 : ℝ) }
  valid := { shape := [2, 1, 1], get := fun _ => true }

theorem exTwoAct_shaped : exTwoAct.Shaped [2] 1 5 := ⟨rfl, rfl⟩

theorem C106_violated : ¬ C106_full := by
  intro h
  obtain ⟨s', hs⟩ := h [2] 1 3 { maxNumObjects := 1, controlledObject := .SDC } exTwo exTwoAct (by omega) (by simp) exTwo_shaped rfl exTwoAct_shaped
  exact C106_never _ _ _ _ (by simp [exTwo]) _ hs

/-- What holds: a batch whose scenarios share the time step is stepped, and so is one scenario. Missing: a time step of the
documented batch shape, see `C106_violated`. -/
theorem C106_shared_step_partial {D : Type} [NeZero T] {dn : DynNd α} {dim : Nat} {row : (Nat → α) → D}
    {d : DynamicsModel α D n} (hd : dn.Refines n dim row d) (cfg : EnvConfig) (hco : cfg.controlledObject ≠ .NON_SDC)
    {S : StateNd α} (h : S.Shaped pre n T) (ht : S.timestep.shape = []) {a : ActNd α} (ha : a.Shaped pre n dim)
    (hbatch : ∃ p, InRange pre p) : ∃ s', stepNd dn cfg S a = .ok s' ∧ s'.timestep.shape = [] := by
  have h1 := C105_step hd cfg h ht ha
  cases hs : stepNd dn cfg S a with
  | ok s' => rw [hs] at h1; exact ⟨s', rfl, h1.2.1⟩
  | error e =>
    exfalso
    rw [hs] at h1
    have h1' : ∀ p, InRange pre p → step d cfg (S.scenario n T p) (a.scenario row n p) = .error e := h1
    obtain ⟨p, hp⟩ := hbatch
    have h2 := h1' p hp
    unfold step envControlMask at h2
    split at h2
    · cases h2
    · cases hcc : cfg.controlledObject <;> simp [hcc, getControlMask] at h2 hco

/-! ### Log replay with a batched time step -/

omit [ScalarOps α] in
/-- Writing along the last axis at each scenario's own index. -/
theorem updSliceV_each {β : Type} {x y : Nd β} (hx : x.shape = pre ++ [n, T]) (hy : y.shape = pre ++ [n, T])
    {start : Nd Int} (h0 : start.shape = pre) {k : Nat} (hk : k ≤ T) :
    ∃ r, x.updSliceV y start none (some k) (-1) = .ok r ∧ r.shape = pre ++ [n, T] ∧ ∀ p, InRange pre p → ∀ i < n, ∀ t < T,
      r.get (p ++ [i, t]) =
        if startIdx T k (start.get p) ≤ t ∧ t < startIdx T k (start.get p) + k then
          y.get (p ++ [i, t - startIdx T k (start.get p) + startIdx T k (start.get p)])
        else x.get (p ++ [i, t]) := by
  unfold Nd.updSliceV
  have h1 : x.shape.take pre.length = pre := by rw [hx]; exact take_append_of_length rfl
  have h1' : y.shape.take pre.length = pre := by rw [hy]; exact take_append_of_length rfl
  have h2 : x.shape.length - pre.length = 2 := by rw [hx]; simp
  have h3 : x.shape.getD (pre.length + 1) 0 = T := by
    rw [hx, snoc2]; exact getD_append_cons (by simp)
  simp only [Option.getD_none, assertThat_ok, exc_ok_bind, h0, h1, h1', and_self, h2]
  rw [normAxis_last (by omega), exc_ok_bind]
  simp only [Nd.cutUpdate]
  rw [dynSliceV_each hy h0 hk, exc_ok_bind]
  unfold Nd.writeSlice
  have h5 : List.Forall₂ (· ≤ ·) (pre ++ [n, k]) x.shape := by
    rw [hx, snoc2, snoc2]; exact forall2_le_snoc _ |>.2 hk
  have h6 : (pre ++ [n, k]).getD (pre.length + 1) 0 = k := by
    rw [snoc2]; exact getD_append_cons (by simp)
  simp only [Nat.reduceSub, assertThat_ok h5, exc_ok_bind, exc_pure, h3, h6]
  refine ⟨_, rfl, hx, fun p hp i hi t ht => ?_⟩
  have hl : pre.length = p.length := hp.length
  have g1 : (p ++ [i, t]).getD (pre.length + 1) 0 = t := by rw [hl, snoc2]; exact getD_append_cons (by simp)
  have g2 : ∀ f : Nat → Nat, (p ++ [i, t]).modify (pre.length + 1) f = p ++ [i, f t] := fun f => by
    rw [snoc2, modify_append_cons (by simp [hl]), ← snoc2]
  have g3 : (p ++ [i, t]).take pre.length = p := take_append_of_length hl
  simp only [g1, g2, g3]
  have g4 : List.Forall₂ (· < ·) (p ++ [i, t - startIdx T k (start.get p)]) (pre ++ [n, k]) ↔ t - startIdx T k (start.get p) < k := by
    rw [snoc2, snoc2]; exact forall2_lt_snoc (hp.snoc hi)
  simp only [g4]
  by_cases hw : startIdx T k (start.get p) ≤ t ∧ t < startIdx T k (start.get p) + k
  · rw [if_pos hw, if_pos ⟨hw.1, by omega⟩]
    congr 1
    have g5 : (p ++ [i, t - startIdx T k (start.get p)]).take pre.length = p := take_append_of_length hl
    rw [g5, snoc2, modify_append_cons (by simp [hl]), ← snoc2]
  · rw [if_neg hw, if_neg (by omega)]

/-- Replaying the log advances each scenario of a batch from its own time step. -/
theorem C106_log_replay {S : StateNd α} (h : S.Shaped pre n T) (ht : S.timestep.shape = pre) {k : Nat} (hk : k ≤ T) :
    ∃ s', updateStateByLogNd S k = .ok s' ∧ s'.Shaped pre n T ∧ s'.timestep.shape = pre ∧
      ∀ p, InRange pre p → updateStateByLog (S.scenario n T p) k = .ok (s'.scenario n T p) := by
  unfold updateStateByLogNd
  let st := fun idx : List Nat => startIdx T k (S.timestep.get (idx.take pre.length) + 1)
  obtain ⟨t', e, s, g⟩ := zipLeaves_select
    (f := fun _ x y => x.updSliceV y (S.timestep.map fun t => t + 1) none (some k) (-1))
    (c := fun idx => st idx ≤ idx.getLastD 0 ∧ idx.getLastD 0 < st idx + k)
    (φ := fun idx => idx.dropLast ++ [idx.getLastD 0 - st idx + st idx])
    (P := fun idx => ∃ p i t, idx = p ++ [i, t] ∧ InRange pre p ∧ i < n ∧ t < T) h.sim h.log
    (fun β x y hx hy => by
      obtain ⟨r, e, sh, g⟩ := updSliceV_each hx hy (start := S.timestep.map fun t => t + 1) ht hk
      refine ⟨r, e, sh, ?_⟩
      rintro idx ⟨p, i, t, rfl, hp, hi, htT⟩
      have hst : st (p ++ [i, t]) = startIdx T k ((S.timestep.map fun t => t + 1).get p) := by
        simp only [st, take_append_of_length hp.length, Nd.map]
      have hla : (p ++ [i, t]).getLastD 0 = t := by rw [snoc2, List.getLastD_concat]
      have hdr : (p ++ [i, t]).dropLast = p ++ [i] := by rw [snoc2, List.dropLast_concat]
      rw [g p hp i hi t htT, hst, hla, hdr, ← snoc2])
  have e' : S.simTrajectory.updSlice S.logTrajectory (S.timestep.map fun t => t + 1) none (some k) = .ok t' := e
  rw [e', exc_ok_bind]
  refine ⟨_, rfl, ⟨s, h.log, h.metadata⟩, ht, fun p hp => ?_⟩
  have hl : p.take pre.length = p := by rw [hp.length]; exact List.take_length
  have hts : (S.scenario n T p).timestep = S.timestep.get p := by simp [StateNd.scenario, ht, hl]
  have htr : updateTrajBySlice (S.scenario n T p).simTrajectory (S.scenario n T p).logTrajectory
      ((S.scenario n T p).timestep + 1) none (some k) = .ok fun i j => t'.at_ (p ++ [i.val, j.val]) := by
    simp only [updateTrajBySlice, hk, dif_pos, if_true, Option.getD_none]
    congr 1
    funext i j
    have hg := g (p ++ [i.val, j.val]) ⟨p, i.val, j.val, rfl, hp, i.isLt, j.isLt⟩
    have hst : st (p ++ [i.val, j.val]) = startIdx T k (S.timestep.get p + 1) := by
      simp only [st, take_append_of_length hp.length]
    rw [hg, hst, snoc2, List.getLastD_concat, List.dropLast_concat, hts]
    unfold dynUpdateSlice
    by_cases hw : startIdx T k (S.timestep.get p + 1) ≤ j.val ∧ j.val < startIdx T k (S.timestep.get p + 1) + k
    · rw [if_pos hw, dif_pos hw]
      have hj : startIdx T k (S.timestep.get p + 1) + (j.val - startIdx T k (S.timestep.get p + 1)) =
        j.val - startIdx T k (S.timestep.get p + 1) + startIdx T k (S.timestep.get p + 1) := by omega
      simp only [dynSlice, ← snoc2]
      exact congrArg (fun k => S.logTrajectory.at_ (p ++ [i.val, k])) hj
    · rw [if_neg hw, dif_neg hw, ← snoc2]
      rfl
  unfold updateStateByLog
  rw [htr]
  simp only [exc_ok_bind, exc_pure]
  simp [StateNd.scenario, Nd.map, ht, hl]

/-! ### C107 -/

/-- C107, full expectation: the state returned by `reset` passes `validate` when the given state does. -/
def C107_full : Prop :=
  ∀ (pre : List Nat) (n T : Nat) (cfg : EnvConfig) (S s' : StateNd ℝ), S.Shaped pre n T → S.validate = .ok () →
    resetNd cfg S = .ok s' → s'.validate = .ok ()

theorem reset_shape {cfg : EnvConfig} {S s' : StateNd α} (h : S.Shaped pre n T) (hr : resetNd cfg S = .ok s') :
    s'.Shaped pre n T ∧ s'.timestep.shape = [] ∧ s'.logTrafficLight = S.logTrafficLight ∧
      s'.roadgraphPoints = S.roadgraphPoints := by
  have hb := C105_reset cfg h
  rw [hr] at hb
  refine ⟨hb.1, hb.2.1, ?_⟩
  unfold resetNd updateStateByLogNd at hr
  simp only [bind_eq_ok] at hr
  obtain ⟨-, -, -, -, t, -, hr⟩ := hr
  have := Except.ok.inj hr
  subst this
  exact ⟨rfl, rfl⟩

/-- After `reset` of a batch with at least one batch axis, `validate` always fails. -/
theorem C107_batch_rejected {cfg : EnvConfig} {S s' : StateNd α} (h : S.Shaped pre n T) (hpre : pre ≠ [])
    (hr : resetNd cfg S = .ok s') : s'.validate = .error .assertion := by
  obtain ⟨h1, h2, -⟩ := reset_shape h hr
  unfold StateNd.validate
  rw [h1.shape_eq]
  dsimp only
  rw [assertThat_error]
  intro hall
  have := hall s'.timestep.shape (by simp)
  rw [h2] at this
  simp only [List.take_nil] at this
  have hx : s'.simTrajectory.shape = pre ++ [n, T] := h1.sim.x
  rw [hx, take_append_of_length rfl] at this
  exact hpre this.symm

theorem C107_violated : ¬ C107_full := by
  intro h
  have hb := C105_reset { maxNumObjects := 1, controlledObject := .SDC, initSteps := 1 } exTwo_shaped
  cases hr : resetNd { maxNumObjects := 1, controlledObject := .SDC, initSteps := 1 } exTwo with
  | error e =>
    rw [hr] at hb
    have := (show ∀ p, _ → _ from hb) [0] (by constructor <;> simp)
    simp [reset, updateStateByLog, updateTrajBySlice] at this
  | ok s' =>
    have h1 := h [2] 1 3 _ exTwo s' exTwo_shaped (by
      unfold StateNd.validate
      rw [assertThat_ok]
      simp [StateNd.shape, TrajNd.shape, exTwo]) hr
    rw [C107_batch_rejected exTwo_shaped (by simp) hr] at h1
    cases h1

/-- What holds: after `reset` of one scenario, `validate` succeeds. Missing: batches, see `C107_violated`. -/
theorem C107_unbatched_partial {cfg : EnvConfig} {S s' : StateNd α} (h : S.Shaped [] n T) (hr : resetNd cfg S = .ok s') :
    s'.validate = .ok () := by
  obtain ⟨h1, h2, -⟩ := reset_shape h hr
  unfold StateNd.validate
  rw [h1.shape_eq]
  dsimp only
  rw [assertThat_ok]
  simp

end

/-! ### Examples -/

/-- The two scenarios of `exTwo` differ: they are at steps 0 and 1 and their cars at different places. -/
example : (exTwo.scenario 1 3 [0]).timestep = 0 ∧ (exTwo.scenario 1 3 [1]).timestep = 1 ∧
    ((exTwo.scenario 1 3 [0]).currentLog 0).x = 0 ∧ ((exTwo.scenario 1 3 [1]).currentLog 0).x = 2 := by
  refine ⟨rfl, rfl, ?_, ?_⟩
  · rw [show (exTwo.scenario 1 3 [0]).currentLog 0 = (exTwo.scenario 1 3 [0]).logTrajectory 0 0 from dynIndex_of_eq _ rfl]
    simp [StateNd.scenario, TrajNd.at_, exTwo]
  · rw [show (exTwo.scenario 1 3 [1]).currentLog 0 = (exTwo.scenario 1 3 [1]).logTrajectory 0 1 from dynIndex_of_eq _ rfl]
    simp [StateNd.scenario, TrajNd.at_, exTwo]
    norm_num

/-- A batched episode of `exTwo`: reset, then one step with state dynamics; each car is where its own action puts it. -/
example : ∃ s', (resetNd { maxNumObjects := 1, controlledObject := .SDC, initSteps := 1 } exTwo >>= fun s =>
      stepManyNd (stateNd ℝ) { maxNumObjects := 1, controlledObject := .SDC, initSteps := 1 } s [exTwoAct]) = .ok s' ∧
    s'.simTrajectory.x.get [0, 0, 1] = 0 ∧ s'.simTrajectory.x.get [1, 0, 1] = 1 := by
  refine ⟨_, rfl, ?_, ?_⟩
  · show ((0 : Nat) : ℝ) = 0
    simp
  · show ((1 : Nat) : ℝ) = 1
    simp

end Waymax
