import Verif.Props.Batch
import Verif.Spec.Specs
import Verif.Lemmas.Broadcast
import Verif.Props.BatchObservation
import Verif.Props.BatchPlanningMetrics
/-
C139: which shapes of action data a step accepts, and what it makes of them.
-/

namespace Waymax

section
variable {α : Type} [ScalarOps α] {pre : List Nat} {n T : Nat} [NeZero T]

omit [ScalarOps α] in
theorem slice_current {sim : TrajNd α} {ts : Nd Int} (hs : sim.HasShape (pre ++ [n, T])) (ht : ts.shape = []) :
    ∃ cur, sim.slice ts 1 = .ok cur ∧ cur.HasShape (pre ++ [n, 1]) := by
  obtain ⟨cur, e, s, -⟩ := slice_traj hs ht
  exact ⟨cur, e, s⟩

omit [NeZero T] in
/-- The checks of `forward` on actions with a validity flag for each object. -/
theorem forward_eq {dn : DynNd α} {a : ActNd α} {sim ref : TrajNd α} {isC : Nd Bool} {ts : Nd Int} {cur : TrajNd α}
    (ha : a.valid.shape = pre ++ [n, 1]) (hs : sim.HasShape (pre ++ [n, T])) (hr : ref.HasShape (pre ++ [n, T]))
    (hc : isC.shape = pre ++ [n]) {allow : Bool} (hcur : sim.slice ts 1 = .ok cur) :
    dn.forward a sim ref isC ts allow = (dn.computeUpdate a cur >>= fun u => u.validate >>= fun _ =>
      applyUpdateNd u sim ref isC ts allow) := by
  have hav : a.shape = pre ++ [n] := by
    unfold ActNd.shape
    rw [ha, snoc2, List.dropLast_concat]
  have htk : ∀ k, ((pre ++ [n]) ++ [k]).take (pre ++ [n]).length = pre ++ [n] := fun k => List.take_left
  unfold DynNd.forward TrajNd.shape
  rw [assertThat_ok (by rw [hs.x, hav, snoc2, List.dropLast_concat]), exc_ok_bind]
  dsimp only
  rw [hc, assertThat_ok (by rw [hs.x, hr.x, hav, snoc2, htk]; simp), exc_ok_bind, hcur, exc_ok_bind]

/-- `forward` succeeds exactly when the update could be computed and has one entry for each object. -/
theorem forward_ok_iff {dn : DynNd α} {a : ActNd α} {sim ref : TrajNd α} {isC : Nd Bool} {ts : Nd Int} {cur : TrajNd α}
    (ha : a.valid.shape = pre ++ [n, 1]) (hs : sim.HasShape (pre ++ [n, T])) (hr : ref.HasShape (pre ++ [n, T]))
    (hc : isC.shape = pre ++ [n]) (ht : ts.shape = []) (allow : Bool) (hcur : sim.slice ts 1 = .ok cur) :
    (∃ t', dn.forward a sim ref isC ts allow = .ok t') ↔
      ∃ u, dn.computeUpdate a cur = .ok u ∧ u.HasShape (pre ++ [n, 1]) := by
  rw [forward_eq ha hs hr hc hcur]
  constructor
  · rintro ⟨t', h⟩
    cases hu : dn.computeUpdate a cur with
    | error e => rw [hu] at h; cases h
    | ok u =>
      rw [hu, exc_ok_bind] at h
      cases hv : u.validate with
      | error e => rw [hv] at h; cases h
      | ok w =>
        rw [hv, exc_ok_bind] at h
        have hval := of_assertThat hv
        obtain ⟨c, e1, s1⟩ := slice_current hs ht
        obtain ⟨f, e2, s2, -⟩ := fallback_batch s1
        obtain ⟨df, e3, s3⟩ := slice_current hr (ts := ts.map fun t => t + 1) ht
        unfold applyUpdateNd at h
        rw [e1, exc_ok_bind, e2, exc_ok_bind, e3, exc_ok_bind] at h
        dsimp only at h
        cases hx : assertThat (isC.expandLast.shape = u.x.shape ∧ u.x.shape = df.x.shape) .assertion with
        | error e => rw [hx] at h; cases h
        | ok w =>
          have hxs := (of_assertThat hx).2
          rw [s3.x] at hxs
          exact ⟨u, rfl, ⟨hxs, hval.1.trans hxs, hval.2.1.trans hxs, hval.2.2.1.trans hxs, hval.2.2.2.1.trans hxs,
            hval.2.2.2.2.trans hxs⟩⟩
  · rintro ⟨u, hu, hsh⟩
    obtain ⟨t', e, -⟩ := applyUpdate_batch hsh hs hr hc ht allow false
    refine ⟨t', ?_⟩
    rw [hu, exc_ok_bind]
    unfold UpdNd.validate
    rw [assertThat_ok (by rw [hsh.x, hsh.y, hsh.yaw, hsh.velX, hsh.velY, hsh.valid]; simp), exc_ok_bind]
    exact e

/-- The same for a step, when the environment can tell which objects are controlled. -/
theorem step_ok_iff {dn : DynNd α} {cfg : EnvConfig} (hcfg : cfg.controlledObject ≠ .NON_SDC) {S : StateNd α}
    (h : S.Shaped pre n T) (ht : S.timestep.shape = []) {a : ActNd α} (ha : a.valid.shape = pre ++ [n, 1]) {cur : TrajNd α}
    (hcur : S.simTrajectory.slice S.timestep 1 = .ok cur) :
    (∃ S', stepNd dn cfg S a = .ok S') ↔ ∃ u, dn.computeUpdate a cur = .ok u ∧ u.HasShape (pre ++ [n, 1]) := by
  rw [← forward_ok_iff ha h.sim h.log h.metadata.isSdc ht cfg.allowNewObjectsAfterWarmup hcur]
  rcases controlMask_batch cfg h with ⟨m, e, s, -⟩ | ⟨e, he, -⟩
  · rw [forward_ok_iff ha h.sim h.log h.metadata.isSdc ht cfg.allowNewObjectsAfterWarmup hcur,
      ← forward_ok_iff ha h.sim h.log s ht cfg.allowNewObjectsAfterWarmup hcur]
    unfold stepNd
    rw [e, exc_ok_bind]
    constructor
    · rintro ⟨S', hS⟩
      cases hf : dn.forward a S.simTrajectory S.logTrajectory m S.timestep cfg.allowNewObjectsAfterWarmup with
      | error e => rw [hf] at hS; cases hS
      | ok t' => exact ⟨t', rfl⟩
    · rintro ⟨t', hf⟩
      rw [hf]
      exact ⟨_, rfl⟩
  · exfalso
    unfold envControlMaskNd at he
    split at he
    · have hT : 1 ≤ T := Nat.one_le_iff_ne_zero.mpr (NeZero.ne T)
      unfold Nd.dynIndexV at he
      rw [h.sim.valid, snoc2, normAxis_last', exc_ok_bind, getD_snoc] at he
      dsimp only at he
      rw [assertThat_ok hT] at he
      cases he
    · cases hco : cfg.controlledObject with
      | NON_SDC => exact hcfg hco
      | _ => simp [getControlMaskNd, hco] at he

/-- A step whose update is, entry by entry, the one-scenario update for the actions `rows`. -/
theorem step_of_update {D : Type} {dn : DynNd α} {d : DynamicsModel α D n} (cfg : EnvConfig) {S : StateNd α}
    (h : S.Shaped pre n T) (ht : S.timestep.shape = []) {a : ActNd α} (ha : a.valid.shape = pre ++ [n, 1])
    (rows : List Nat → Fin n → Act D)
    (hu : ∀ cur : TrajNd α, cur.HasShape (pre ++ [n, 1]) → ∃ u, dn.computeUpdate a cur = .ok u ∧ u.HasShape (pre ++ [n, 1]) ∧
      ∀ p, InRange pre p → ∀ i : Fin n,
        u.at_ (p ++ [i.val, 0]) = d.computeUpdate (rows p) (fun j => cur.at_ (p ++ [j.val, 0])) i) :
    BatchAgrees pre n T (stepNd dn cfg S a) fun p => step d cfg (S.scenario n T p) (rows p) := by
  unfold stepNd
  rcases controlMask_batch cfg h with ⟨m, e, s, g⟩ | ⟨e, he, g⟩
  · obtain ⟨cur, e1, s1, g1⟩ := slice_traj h.sim ht
    obtain ⟨u, e2, s2, g2⟩ := hu cur s1
    obtain ⟨t', e3, s3, g3⟩ := applyUpdate_batch s2 h.sim h.log s ht cfg.allowNewObjectsAfterWarmup false
    have hfw : dn.forward a S.simTrajectory S.logTrajectory m S.timestep cfg.allowNewObjectsAfterWarmup = .ok t' := by
      rw [forward_eq ha h.sim h.log s e1, e2, exc_ok_bind]
      unfold UpdNd.validate
      rw [assertThat_ok (by rw [s2.x, s2.y, s2.yaw, s2.velX, s2.velY, s2.valid]; simp), exc_ok_bind]
      exact e3
    rw [e, exc_ok_bind, hfw, exc_ok_bind]
    refine ⟨⟨s3, h.log, h.metadata⟩, ht, fun p hp => ?_⟩
    simp only [step]
    rw [g p hp]
    have htk : (S.scenario n T p).timestep = S.timestep.get [] := by simp [StateNd.scenario, ht]
    have htr : (d.forward (rows p) (S.scenario n T p).simTrajectory (S.scenario n T p).logTrajectory
        (fun i => m.get (p ++ [i.val])) (S.scenario n T p).timestep cfg.allowNewObjectsAfterWarmup) =
        fun i t => t'.at_ (p ++ [i.val, t.val]) := by
      funext i t
      rw [g3 p hp i t, htk]
      unfold DynamicsModel.forward
      congr 2
      funext j
      rw [g2 p hp j]
      congr 1
      funext k
      exact (g1 p hp k).symm
    rw [exc_ok_bind, htr, htk]
    simp [StateNd.scenario, Nd.map, ht]
  · rw [he]
    intro p hp
    simp only [step]
    rw [g p hp]
    rfl

/-! ### State dynamics -/

omit [ScalarOps α] [NeZero T] in
theorem shape_of_sliceLast {β : Type} {x : Nd β} {a b : Nat} (hab : a < b) (h : (x.sliceLast a b).shape = pre ++ [n, b - a]) :
    ∃ m, b ≤ m ∧ x.shape = pre ++ [n, m] := by
  unfold Nd.sliceLast at h
  simp only at h
  rw [snoc2] at h
  obtain ⟨h1, h2⟩ := List.append_inj' h rfl
  simp only [List.cons.injEq, and_true] at h2
  have hne : x.shape ≠ [] := by
    intro h0
    rw [h0] at h2
    simp at h2
    omega
  refine ⟨x.shape.getLastD 0, by omega, ?_⟩
  rw [snoc2, ← h1]
  conv_lhs => rw [← List.dropLast_append_getLast hne]
  rw [List.getLastD_eq_getLast?, List.getLast?_eq_getLast_of_ne_nil hne]
  rfl

/-- State actions: rows of five numbers or more. -/
theorem C139_state_accepts {cfg : EnvConfig} (hcfg : cfg.controlledObject ≠ .NON_SDC) {S : StateNd α} (h : S.Shaped pre n T)
    (ht : S.timestep.shape = []) {a : ActNd α} (ha : a.valid.shape = pre ++ [n, 1]) :
    (∃ S', stepNd (stateNd α) cfg S a = .ok S') ↔ ∃ m, 5 ≤ m ∧ a.data.shape = pre ++ [n, m] := by
  obtain ⟨cur, hcur, -⟩ := slice_current h.sim ht
  rw [step_ok_iff hcfg h ht ha hcur]
  constructor
  · rintro ⟨u, hu, hs⟩
    simp only [stateNd, Except.ok.injEq] at hu
    subst hu
    exact shape_of_sliceLast (a := 4) (b := 5) (by omega) hs.velY
  · rintro ⟨m, hm, hd⟩
    rw [snoc2] at hd
    have hk : ∀ k < 5, (a.data.sliceLast k (k + 1)).shape = pre ++ [n, 1] := by
      intro k hk
      rw [sliceLast_shape hd (by omega), snoc2]
      simp
    exact ⟨_, rfl, hk 0 (by omega), hk 1 (by omega), hk 2 (by omega), hk 3 (by omega), hk 4 (by omega), ha⟩

/-- Only the first five are read. -/
theorem C139_state_reads (cfg : EnvConfig) {S : StateNd α} (h : S.Shaped pre n T) (ht : S.timestep.shape = []) {a : ActNd α}
    (ha : a.valid.shape = pre ++ [n, 1]) {m : Nat} (hm : 5 ≤ m) (hd : a.data.shape = pre ++ [n, m]) :
    BatchAgrees pre n T (stepNd (stateNd α) cfg S a) fun p =>
      step stateDynamics cfg (S.scenario n T p) (a.scenario stateRowOf n p) := by
  refine step_of_update cfg h ht ha _ fun cur _ => ?_
  rw [snoc2] at hd
  have hk : ∀ k < 5, (a.data.sliceLast k (k + 1)).shape = pre ++ [n, 1] := by
    intro k hk
    rw [sliceLast_shape hd (by omega), snoc2]
    simp
  refine ⟨_, rfl, ⟨hk 0 (by omega), hk 1 (by omega), hk 2 (by omega), hk 3 (by omega), hk 4 (by omega), ha⟩, fun p _ i => ?_⟩
  simp only [UpdNd.at_, snoc2, sliceLast_get, stateDynamics, stateUpdate, ActNd.scenario, stateRowOf, Nat.zero_add]

end

/-! ### Delta dynamics -/

section
variable {pre : List Nat} {n T : Nat} [NeZero T]

omit [NeZero T] in
theorem deltaGlobal_shape {P : DeltaParams} {a : ActNd ℝ} {cur : TrajNd ℝ} {u : UpdNd ℝ} (hu : deltaGlobalUpdateNd P a cur = .ok u)
    (hs : u.velX.shape = pre ++ [n, 1]) : a.data.shape = pre ++ [n, 3] := by
  unfold deltaGlobalUpdateNd at hu
  dsimp only at hu
  by_cases h3 : a.data.shape.getLastD 0 % 3 = 0
  · rw [assertThat_ok h3, exc_ok_bind] at hu
    cases h1 : Nd.zip (fun u v : ℝ => u + v) cur.x (a.data.sliceLast 0 (a.data.shape.getLastD 0 / 3)) with
    | error e => rw [h1] at hu; cases hu
    | ok x =>
      rw [h1, exc_ok_bind] at hu
      cases h2 : Nd.zip (fun u v : ℝ => u + v) cur.y (a.data.sliceLast (a.data.shape.getLastD 0 / 3) (2 * (a.data.shape.getLastD 0 / 3))) with
      | error e => rw [h2] at hu; cases hu
      | ok y =>
        rw [h2, exc_ok_bind] at hu
        cases h4 : Nd.zip (fun u v : ℝ => u + v) cur.yaw (a.data.sliceLast (2 * (a.data.shape.getLastD 0 / 3)) (a.data.shape.getLastD 0)) with
        | error e => rw [h4] at hu; cases hu
        | ok w =>
          rw [h4, exc_ok_bind] at hu
          cases h5 : Nd.zip (fun u v => u && v) cur.valid a.valid with
          | error e => rw [h5] at hu; cases hu
          | ok v =>
            rw [h5, exc_ok_bind] at hu
            cases hu
            simp only [Nd.map] at hs
            have h6 : a.data.shape.getLastD 0 / 3 = 1 := by
              simp only [Nd.sliceLast] at hs
              rw [snoc2] at hs
              have := (List.append_inj' hs rfl).2
              simp only [List.cons.injEq, and_true] at this
              omega
            rw [h6] at hs
            obtain ⟨m, -, hd⟩ := shape_of_sliceLast (by omega) hs
            rw [hd, snoc2, List.getLastD_concat] at h6 h3
            rw [hd, show m = 3 by omega]
  · rw [assertThat_error h3] at hu
    cases hu

/-- Displacements: rows of exactly three numbers. -/
theorem C139_deltaGlobal_accepts (P : DeltaParams) {cfg : EnvConfig} (hcfg : cfg.controlledObject ≠ .NON_SDC) {S : StateNd ℝ}
    (h : S.Shaped pre n T) (ht : S.timestep.shape = []) {a : ActNd ℝ} (ha : a.valid.shape = pre ++ [n, 1]) :
    (∃ S', stepNd (deltaGlobalNd P) cfg S a = .ok S') ↔ a.data.shape = pre ++ [n, 3] := by
  obtain ⟨cur, hcur, hc⟩ := slice_current h.sim ht
  rw [step_ok_iff hcfg h ht ha hcur]
  constructor
  · rintro ⟨u, hu, hs⟩
    exact deltaGlobal_shape hu hs.velX
  · intro hd
    obtain ⟨u, e, s, -⟩ := deltaGlobalUpdate_batch P ⟨hd, ha⟩ hc
    exact ⟨u, e, s⟩

/-- The numbers of local displacements that are read. -/
theorem deltaLocal_cut (P : DeltaParams) {a : ActNd ℝ} {m : Nat} (hm : 3 ≤ m) (hd : a.data.shape = pre ++ [n, m]) (cur : TrajNd ℝ) :
    deltaLocalUpdateNd P a cur = deltaLocalUpdateNd P { a with data := a.data.sliceLast 0 3 } cur := by
  rw [snoc2] at hd
  have h3 : (a.data.sliceLast 0 3).shape = (pre ++ [n]) ++ [3] := sliceLast_shape hd hm
  have hA : (a.data.sliceLast 0 3).sliceLast 0 2 = a.data.sliceLast 0 2 := by
    unfold Nd.sliceLast
    simp [hd, Nat.min_eq_left hm, Nat.min_eq_left (show 2 ≤ m by omega)]
  have hB : (a.data.sliceLast 0 3).sliceLast 2 3 = a.data.sliceLast 2 3 := by
    unfold Nd.sliceLast
    simp [hd, Nat.min_eq_left hm]
  unfold deltaLocalUpdateNd rotateNd
  simp only [hA, hB]

theorem rotateNd_last {yaw data r : Nd ℝ} (h : rotateNd yaw data = .ok r) : r.shape.getLastD 0 = 2 := by
  unfold rotateNd at h
  dsimp only at h
  obtain ⟨_, _, h⟩ := bind_eq_ok.1 h
  obtain ⟨_, _, h⟩ := bind_eq_ok.1 h
  obtain ⟨_, _, h⟩ := bind_eq_ok.1 h
  obtain ⟨_, _, h⟩ := bind_eq_ok.1 h
  obtain ⟨q, _, h⟩ := bind_eq_ok.1 h
  cases h
  simp only [List.getLastD_concat]

theorem concatLast_inv {β : Type} {x y r : Nd β} (h : Nd.concatLast x y = .ok r) :
    x.shape.dropLast = y.shape.dropLast ∧ r.shape = x.shape.dropLast ++ [x.shape.getLastD 0 + y.shape.getLastD 0] := by
  unfold Nd.concatLast at h
  obtain ⟨_, h1, h⟩ := bind_eq_ok.1 h
  cases h
  refine ⟨?_, rfl⟩
  unfold assertThat at h1
  split at h1
  · assumption
  · cases h1

/-- Local displacements: rows of three numbers or more. -/
theorem C139_deltaLocal_accepts (P : DeltaParams) {cfg : EnvConfig} (hcfg : cfg.controlledObject ≠ .NON_SDC) {S : StateNd ℝ}
    (h : S.Shaped pre n T) (ht : S.timestep.shape = []) {a : ActNd ℝ} (ha : a.valid.shape = pre ++ [n, 1]) :
    (∃ S', stepNd (deltaLocalNd P) cfg S a = .ok S') ↔ ∃ m, 3 ≤ m ∧ a.data.shape = pre ++ [n, m] := by
  obtain ⟨cur, hcur, hc⟩ := slice_current h.sim ht
  rw [step_ok_iff hcfg h ht ha hcur]
  constructor
  · rintro ⟨u, hu, hs⟩
    simp only [deltaLocalNd] at hu
    unfold deltaLocalUpdateNd at hu
    dsimp only at hu
    obtain ⟨_, _, hu⟩ := bind_eq_ok.1 hu
    obtain ⟨rot, hrot, hu⟩ := bind_eq_ok.1 hu
    obtain ⟨arr, harr, hu⟩ := bind_eq_ok.1 hu
    obtain ⟨_, _, hu⟩ := bind_eq_ok.1 hu
    obtain ⟨h1, h2⟩ := concatLast_inv harr
    have h3 := deltaGlobal_shape hu hs.velX
    dsimp only at h3
    rw [h2, rotateNd_last hrot, snoc2] at h3
    have h4 := List.append_inj' h3 rfl
    have h5 : min 3 (a.data.shape.getLastD 0) - 2 = 1 := by
      have := h4.2
      simp only [Nd.sliceLast, List.getLastD_concat, List.cons.injEq, and_true] at this
      omega
    have h6 : a.data.shape.dropLast = pre ++ [n] := by
      rw [← h4.1, h1]
      simp [Nd.sliceLast]
    refine ⟨a.data.shape.getLastD 0, by omega, ?_⟩
    have hne : a.data.shape ≠ [] := by
      intro h0
      rw [h0] at h6
      simp at h6
    rw [snoc2, ← h6, List.getLastD_eq_getLast?, List.getLast?_eq_some_getLast hne]
    exact (List.dropLast_append_getLast hne).symm
  · rintro ⟨m, hm, hd⟩
    have h3 : ActNd.Shaped { a with data := a.data.sliceLast 0 3 } pre n 3 :=
      ⟨by rw [snoc2]; exact sliceLast_shape (by rw [hd, snoc2]) hm, ha⟩
    obtain ⟨u, e, s, -⟩ := C105_deltaLocal P n pre _ cur h3 hc
    exact ⟨u, (deltaLocal_cut P hm hd cur).trans e, s⟩

/-- Only the first three are read. -/
theorem C139_deltaLocal_reads (P : DeltaParams) (cfg : EnvConfig) {S : StateNd ℝ} (h : S.Shaped pre n T)
    (ht : S.timestep.shape = []) {a : ActNd ℝ} (ha : a.valid.shape = pre ++ [n, 1]) {m : Nat} (hm : 3 ≤ m)
    (hd : a.data.shape = pre ++ [n, m]) :
    BatchAgrees pre n T (stepNd (deltaLocalNd P) cfg S a) fun p =>
      step (deltaLocal P) cfg (S.scenario n T p) (a.scenario deltaRowOf n p) := by
  refine step_of_update cfg h ht ha _ fun cur hc => ?_
  have h3 : ActNd.Shaped { a with data := a.data.sliceLast 0 3 } pre n 3 :=
    ⟨by rw [snoc2]; exact sliceLast_shape (by rw [hd, snoc2]) hm, ha⟩
  obtain ⟨u, e, s, g⟩ := C105_deltaLocal P n pre _ cur h3 hc
  refine ⟨u, (deltaLocal_cut P hm hd cur).trans e, s, fun p hp i => ?_⟩
  rw [g p hp i]
  congr 1
  funext j
  simp only [ActNd.scenario, deltaRowOf, snoc2, sliceLast_get, Nat.add_zero]

/-! ### Bicycle dynamics -/

omit [NeZero T] in
theorem broadcastRev_absorbed {s t r : List Nat} (h : Nd.broadcastRev s t = some r) (h' : Nd.broadcastRev t r = some t) : r = t := by
  induction s generalizing t r with
  | nil => simpa [Nd.broadcastRev] using h.symm
  | cons a s ih =>
    cases t with
    | nil =>
      simp only [Nd.broadcastRev, Option.some.injEq] at h h'
      exact h'
    | cons b t =>
      simp only [Nd.broadcastRev, Option.bind_eq_bind] at h
      cases hr : Nd.broadcastRev s t with
      | none => simp [hr] at h
      | some q =>
        rw [hr, Option.bind_some] at h
        obtain ⟨c, hc, rfl⟩ : ∃ c, (c = a ∨ c = b) ∧ r = c :: q := by
          split_ifs at h <;> simp only [Option.some.injEq] at h <;> exact ⟨_, by tauto, h.symm⟩
        simp only [Nd.broadcastRev, Option.bind_eq_bind] at h'
        cases hq : Nd.broadcastRev t q with
        | none => simp [hq] at h'
        | some w =>
          rw [hq, Option.bind_some] at h'
          split_ifs at h' with h1 h2 h3 <;> simp only [Option.some.injEq, List.cons.injEq] at h'
          · rw [h1, ih hr (by rw [hq, h'.2])]
          · rw [h'.1, ih hr (by rw [hq, h'.2])]
          · exfalso
            rcases hc with hc | hc
            · subst hc
              by_cases hab : c = b
              · exact h1 hab.symm
              · rw [if_neg hab] at h
                rw [if_pos h3] at h
                simp only [Option.some.injEq, List.cons.injEq, and_true] at h
                exact h1 h
            · exact h1 hc.symm

omit [NeZero T] in
theorem broadcast_absorbed {s t r : List Nat} (h : Nd.broadcastShape s t = some r) (h' : Nd.broadcastShape t r = some t) : r = t := by
  unfold Nd.broadcastShape at h h'
  cases h1 : Nd.broadcastRev s.reverse t.reverse with
  | none => simp [h1] at h
  | some q =>
    rw [h1, Option.map_some, Option.some.injEq] at h
    cases h2 : Nd.broadcastRev t.reverse r.reverse with
    | none => simp [h2] at h'
    | some w =>
      rw [h2, Option.map_some, Option.some.injEq] at h'
      have hw : w = t.reverse := by rw [← h', List.reverse_reverse]
      have hq : r.reverse = q := by rw [← h, List.reverse_reverse]
      rw [hw] at h2
      rw [hq] at h2
      have := broadcastRev_absorbed h1 h2
      rw [← h, this, List.reverse_reverse]

omit [NeZero T] in
theorem broadcastRev_length {s t r : List Nat} (h : Nd.broadcastRev s t = some r) : s.length ≤ r.length := by
  induction s generalizing t r with
  | nil => simp
  | cons a s ih =>
    cases t with
    | nil => simp only [Nd.broadcastRev, Option.some.injEq] at h; rw [← h]
    | cons b t =>
      simp only [Nd.broadcastRev, Option.bind_eq_bind] at h
      cases hr : Nd.broadcastRev s t with
      | none => simp [hr] at h
      | some q =>
        rw [hr, Option.bind_some] at h
        have := ih hr
        split_ifs at h <;> simp only [Option.some.injEq] at h <;> rw [← h] <;> simpa using this

omit [NeZero T] in
theorem broadcast_length {s t r : List Nat} (h : Nd.broadcastShape s t = some r) : s.length ≤ r.length := by
  unfold Nd.broadcastShape at h
  cases h1 : Nd.broadcastRev s.reverse t.reverse with
  | none => simp [h1] at h
  | some q =>
    rw [h1, Option.map_some, Option.some.injEq] at h
    have := broadcastRev_length h1
    rw [← h]
    simpa using this

omit [NeZero T] in
/-- Element-wise operation with an array that broadcasts into the other. -/
theorem zip_into {β γ δ : Type} (f : β → γ → δ) {x : Nd β} {y : Nd γ} {s t : List Nat} (hx : x.shape = s) (hy : y.shape = t)
    (h : Nd.broadcastShape s t = some t) :
    ∃ r, Nd.zip f x y = .ok r ∧ r.shape = t ∧ ∀ idx, InRange t idx → r.get idx = f (x.get (Nd.broadcastIdx s idx)) (y.get idx) := by
  unfold Nd.zip
  rw [hx, hy, h]
  refine ⟨_, rfl, rfl, fun idx hidx => ?_⟩
  simp only [broadcastIdx_self hidx]

omit [NeZero T] in
theorem broadcastIdx_snoc {s q : List Nat} {k : Nat} (h : s.length ≤ q.length) :
    Nd.broadcastIdx (s ++ [1]) (q ++ [k]) = Nd.broadcastIdx s q ++ [0] := by
  unfold Nd.broadcastIdx
  have hl : (q ++ [k]).length - (s ++ [1]).length = q.length - s.length := by simp
  rw [hl, List.drop_append_of_le_length (by omega), List.zipWith_append (by simp; omega)]
  simp

/-- The numbers that the bicycle model reads for the objects of the scenario at `p`: an axis of length one, or a missing leading
axis, is shared by all, and a missing second number is the first one again. -/
def ActNd.readBicycle (a : ActNd ℝ) (n : Nat) (p : List Nat) : Fin n → Act AccelSteer := fun i =>
  { data := bicycleRowOf fun k =>
      a.data.get (Nd.broadcastIdx a.data.shape.dropLast (p ++ [i.val]) ++ [min k (a.data.shape.getLastD 0 - 1)])
    valid := a.valid.get (p ++ [i.val, 0]) }

omit [NeZero T] in
theorem bicycle_reads (P : BicycleParams) {a : ActNd ℝ} {cur : TrajNd ℝ} {s : List Nat} {m : Nat} (hm : 1 ≤ m)
    (hd : a.data.shape = s ++ [m]) (hb : Nd.broadcastShape (s ++ [1]) (pre ++ [n, 1]) = some (pre ++ [n, 1]))
    (ha : a.valid.shape = pre ++ [n, 1]) (hc : cur.HasShape (pre ++ [n, 1])) :
    ∃ u, (bicycleNd P).computeUpdate a cur = .ok u ∧ u.HasShape (pre ++ [n, 1]) ∧ ∀ p, InRange pre p → ∀ i : Fin n,
      u.at_ (p ++ [i.val, 0]) = (bicycle P).computeUpdate (a.readBicycle n p) (fun j => cur.at_ (p ++ [j.val, 0])) i := by
  let arr : Nd ℝ :=
    { shape := s ++ [2]
      get := fun idx => if idx.getLastD 0 = 0 then clip (a.data.get (idx.dropLast ++ [min 0 (m - 1)])) (-P.accelBound) P.accelBound
        else clip (a.data.get (idx.dropLast ++ [min 1 (m - 1)])) (-P.steeringBound) P.steeringBound }
  have harr : bicycleClipNd P a.data = .ok arr := by
    unfold bicycleClipNd
    rw [indexLastClamp_shaped hd hm, exc_ok_bind, indexLastClamp_shaped hd hm, exc_ok_bind]
    unfold Nd.stackLast2
    simp only [Nd.map]
    rw [assertThat_ok trivial]
    rfl
  have harrs : arr.shape = s ++ [2] := rfl
  let accel : Nd ℝ := (arr.sliceLast 0 1).map fun v => if P.normalizeActions then v * P.maxAccel else v
  let steer : Nd ℝ := (arr.sliceLast 1 2).map fun v => if P.normalizeActions then v * P.maxSteering else v
  have hacc : accel.shape = s ++ [1] := sliceLast_shape harrs (by omega)
  have hste : steer.shape = s ++ [1] := sliceLast_shape harrs (by omega)
  obtain ⟨speed, e1, s1, g1⟩ := zip_shaped (fun u v : ℝ => √(u ^ 2 + v ^ 2)) hc.velX hc.velY
  obtain ⟨x0, e2, s2, g2⟩ := zip_shaped (fun u v : ℝ => u + v) hc.x (y := cur.velX.map fun v => v * P.dt) hc.velX
  obtain ⟨ax, e3, s3, g3⟩ := zip_into (fun a c : ℝ => a * c) (x := accel.map fun v => 0.5 * v) hacc
    (y := cur.yaw.map Real.cos) hc.yaw hb
  obtain ⟨x, e4, s4, g4⟩ := zip_shaped (fun u v : ℝ => u + v) s2 (y := ax.map fun v => v * P.dt ^ 2) s3
  obtain ⟨y0, e5, s5, g5⟩ := zip_shaped (fun u v : ℝ => u + v) hc.y (y := cur.velY.map fun v => v * P.dt) hc.velY
  obtain ⟨ay, e6, s6, g6⟩ := zip_into (fun a c : ℝ => a * c) (x := accel.map fun v => 0.5 * v) hacc
    (y := cur.yaw.map Real.sin) hc.yaw hb
  obtain ⟨y, e7, s7, g7⟩ := zip_shaped (fun u v : ℝ => u + v) s5 (y := ay.map fun v => v * P.dt ^ 2) s6
  obtain ⟨dist, e8, s8, g8⟩ := zip_into (fun v u : ℝ => u + v) (x := accel.map fun v => 0.5 * v * P.dt ^ 2) hacc
    (y := speed.map fun v => v * P.dt) s1 hb
  rw [← zip_flip (fun u v : ℝ => u + v)] at e8
  obtain ⟨dy, e9, s9, g9⟩ := zip_into (fun u v : ℝ => u * v) hste s8 hb
  obtain ⟨ys, e10, s10, g10⟩ := zip_shaped (fun u v : ℝ => u + v) hc.yaw s9
  obtain ⟨vel, e11, s11, g11⟩ := zip_into (fun v u : ℝ => u + v) (x := accel.map fun v => v * P.dt) hacc s1 hb
  rw [← zip_flip (fun u v : ℝ => u + v)] at e11
  obtain ⟨vx, e12, s12, g12⟩ := zip_shaped (fun u v : ℝ => u * v) s11 (y := (ys.map wrapYaws).map Real.cos) s10
  obtain ⟨vy, e13, s13, g13⟩ := zip_shaped (fun u v : ℝ => u * v) s11 (y := (ys.map wrapYaws).map Real.sin) s10
  obtain ⟨va, e14, s14, g14⟩ := zip_shaped (fun u v => u && v) hc.valid ha
  refine ⟨{ x := x, y := y, yaw := ys.map wrapYaws, velX := vx, velY := vy, valid := va }, ?_, ⟨s4, s7, s10, s12, s13, s14⟩,
    fun p hp i => ?_⟩
  · unfold bicycleNd bicycleUpdateNd
    dsimp only
    rw [e1, exc_ok_bind, harr, exc_ok_bind, e2, exc_ok_bind, e3, exc_ok_bind, e4, exc_ok_bind, e5, exc_ok_bind, e6, exc_ok_bind, e7, exc_ok_bind, e8, exc_ok_bind,
      e9, exc_ok_bind, e10, exc_ok_bind, e11, exc_ok_bind, e12, exc_ok_bind, e13, exc_ok_bind, e14, exc_ok_bind]
    rfl
  · have hidx : InRange (pre ++ [n, 1]) (p ++ [i.val, 0]) := hp.snoc2 i.isLt Nat.one_pos
    have hlen : s.length ≤ (p ++ [i.val]).length := by
      have h1 := broadcast_length hb
      have h2 := hp.length
      simp at h1 ⊢
      omega
    have hbi : Nd.broadcastIdx (s ++ [1]) (p ++ [i.val, 0]) = Nd.broadcastIdx s (p ++ [i.val]) ++ [0] := by
      rw [snoc2, broadcastIdx_snoc hlen]
    have ha0 : accel.get (Nd.broadcastIdx (s ++ [1]) (p ++ [i.val, 0])) = (bicyclePhysical P (a.readBicycle n p i).data).accel := by
      rw [hbi]
      simp only [accel, Nd.map, sliceLast_get, arr, List.getLastD_concat, List.dropLast_concat, bicyclePhysical, bicycleClip,
        ActNd.readBicycle, bicycleRowOf, Nat.zero_add, if_true, hd]
      split <;> rfl
    have hs0 : steer.get (Nd.broadcastIdx (s ++ [1]) (p ++ [i.val, 0])) = (bicyclePhysical P (a.readBicycle n p i).data).steering := by
      rw [hbi]
      simp only [steer, Nd.map, sliceLast_get, arr, List.getLastD_concat, List.dropLast_concat, bicyclePhysical, bicycleClip,
        ActNd.readBicycle, bicycleRowOf, Nat.zero_add, Nat.one_ne_zero, if_false, hd]
      split <;> rfl
    simp only [UpdNd.at_, g1 _ hidx, g2 _ hidx, g3 _ hidx, g4 _ hidx, g5 _ hidx, g6 _ hidx, g7 _ hidx, g8 _ hidx, g9 _ hidx,
      g10 _ hidx, g11 _ hidx, g12 _ hidx, g13 _ hidx, g14 _ hidx, Nd.map, bicycle, DynamicsModel.ofSingle, bicycleUpdate,
      TrajNd.at_, ha0, hs0]
    rfl

omit [NeZero T] in
theorem bicycle_shape {P : BicycleParams} {a : ActNd ℝ} {cur : TrajNd ℝ} {u : UpdNd ℝ} (hu : (bicycleNd P).computeUpdate a cur = .ok u)
    (hc : cur.HasShape (pre ++ [n, 1])) (hs : u.x.shape = pre ++ [n, 1]) :
    ∃ s m, 1 ≤ m ∧ a.data.shape = s ++ [m] ∧ Nd.broadcastShape (s ++ [1]) (pre ++ [n, 1]) = some (pre ++ [n, 1]) := by
  by_cases hm : 1 ≤ a.data.shape.getLastD 0
  · have hne : a.data.shape ≠ [] := by
      intro h0
      rw [h0] at hm
      simp at hm
    obtain ⟨s, m, hd⟩ : ∃ s m, a.data.shape = s ++ [m] := ⟨_, _, (List.dropLast_append_getLast hne).symm⟩
    rw [hd, List.getLastD_concat] at hm
    refine ⟨s, m, hm, hd, ?_⟩
    unfold bicycleNd bicycleUpdateNd at hu
    dsimp only at hu
    obtain ⟨speed, e1, s1, g1⟩ := zip_shaped (fun u v : ℝ => √(u ^ 2 + v ^ 2)) hc.velX hc.velY
    obtain ⟨x0, e2, s2, g2⟩ := zip_shaped (fun u v : ℝ => u + v) hc.x (y := cur.velX.map fun v => v * P.dt) hc.velX
    have hclip : ∃ arr, bicycleClipNd P a.data = .ok arr ∧ arr.shape = s ++ [2] := by
      unfold bicycleClipNd
      rw [indexLastClamp_shaped hd hm, exc_ok_bind, indexLastClamp_shaped hd hm, exc_ok_bind]
      unfold Nd.stackLast2
      simp only [Nd.map]
      rw [assertThat_ok trivial]
      exact ⟨_, rfl, rfl⟩
    obtain ⟨arr, e0, s0⟩ := hclip
    rw [e1, exc_ok_bind, e0, exc_ok_bind, e2, exc_ok_bind] at hu
    generalize hA : Nd.zip (fun a c : ℝ => a * c) (((arr.sliceLast 0 1).map fun v => if P.normalizeActions then v * P.maxAccel else v).map fun v => 0.5 * v) (cur.yaw.map Real.cos) = A at hu
    cases A with
    | error e => cases hu
    | ok ax =>
      rw [exc_ok_bind] at hu
      have hax : Nd.broadcastShape (s ++ [1]) (pre ++ [n, 1]) = some ax.shape := by
        unfold Nd.zip at hA
        have h1 : (((arr.sliceLast 0 1).map fun v => if P.normalizeActions then v * P.maxAccel else v).map fun v => 0.5 * v).shape = s ++ [1] :=
          sliceLast_shape s0 (by omega)
        have h2 : (cur.yaw.map Real.cos).shape = pre ++ [n, 1] := hc.yaw
        rw [h1, h2] at hA
        cases hbs : Nd.broadcastShape (s ++ [1]) (pre ++ [n, 1]) with
        | none => rw [hbs] at hA; cases hA
        | some q => rw [hbs] at hA; cases hA; rfl
      generalize hX : Nd.zip (fun u v : ℝ => u + v) x0 (ax.map fun v => v * P.dt ^ 2) = X at hu
      cases X with
      | error e => cases hu
      | ok x =>
        rw [exc_ok_bind] at hu
        have hxs : u.x = x := by
          revert hu
          repeat (first | (intro hu; cases hu; rfl) | (generalize Nd.zip _ _ _ = Z; cases Z; (intro hu; cases hu); rw [exc_ok_bind]))
        have hxb : Nd.broadcastShape (pre ++ [n, 1]) ax.shape = some x.shape := by
          unfold Nd.zip at hX
          rw [s2, show (ax.map fun v => v * P.dt ^ 2).shape = ax.shape from rfl] at hX
          cases hbs : Nd.broadcastShape (pre ++ [n, 1]) ax.shape with
          | none => rw [hbs] at hX; cases hX
          | some q => rw [hbs] at hX; cases hX; rfl
        rw [← hxs, hs] at hxb
        rw [hax, broadcast_absorbed hax hxb]
  · exfalso
    unfold bicycleNd bicycleUpdateNd at hu
    dsimp only at hu
    obtain ⟨speed, e1, s1, g1⟩ := zip_shaped (fun u v : ℝ => √(u ^ 2 + v ^ 2)) hc.velX hc.velY
    have hclip : bicycleClipNd P a.data = .error .typeError := by
      unfold bicycleClipNd Nd.indexLastClamp
      rw [assertThat_error hm]
      rfl
    rw [e1, exc_ok_bind, hclip] at hu
    cases hu

/-- Bicycle actions: any array whose leading axes broadcast into those of the scene, with one number or more in a row. -/
theorem C139_bicycle_accepts (P : BicycleParams) {cfg : EnvConfig} (hcfg : cfg.controlledObject ≠ .NON_SDC) {S : StateNd ℝ}
    (h : S.Shaped pre n T) (ht : S.timestep.shape = []) {a : ActNd ℝ} (ha : a.valid.shape = pre ++ [n, 1]) :
    (∃ S', stepNd (bicycleNd P) cfg S a = .ok S') ↔ ∃ s m, 1 ≤ m ∧ a.data.shape = s ++ [m] ∧
      Nd.broadcastShape (s ++ [1]) (pre ++ [n, 1]) = some (pre ++ [n, 1]) := by
  obtain ⟨cur, hcur, hc⟩ := slice_current h.sim ht
  rw [step_ok_iff hcfg h ht ha hcur]
  constructor
  · rintro ⟨u, hu, hs⟩
    exact bicycle_shape hu hc hs.x
  · rintro ⟨s, m, hm, hd, hb⟩
    obtain ⟨u, e, sh, -⟩ := bicycle_reads P hm hd hb ha hc
    exact ⟨u, e, sh⟩

/-- What such an action does. -/
theorem C139_bicycle_reads (P : BicycleParams) (cfg : EnvConfig) {S : StateNd ℝ} (h : S.Shaped pre n T)
    (ht : S.timestep.shape = []) {a : ActNd ℝ} (ha : a.valid.shape = pre ++ [n, 1]) {s : List Nat} {m : Nat} (hm : 1 ≤ m)
    (hd : a.data.shape = s ++ [m]) (hb : Nd.broadcastShape (s ++ [1]) (pre ++ [n, 1]) = some (pre ++ [n, 1])) :
    BatchAgrees pre n T (stepNd (bicycleNd P) cfg S a) fun p =>
      step (bicycle P) cfg (S.scenario n T p) (a.readBicycle n p) :=
  step_of_update cfg h ht ha _ fun _ hc => bicycle_reads P hm hd hb ha hc

/-! ### The property -/

/-- C139: an action array that does not have a row of the declared length for each object of each scenario is rejected. -/
def C139_full : Prop :=
  ∀ (d : BuiltinDyn) (pre : List Nat) (n T : Nat) (_ : NeZero T) (cfg : EnvConfig) (S : StateNd ℝ) (a : ActNd ℝ),
    S.Shaped pre n T → S.timestep.shape = [] → a.valid.shape = pre ++ [n, 1] → a.data.shape ≠ pre ++ [n, d.dim] →
    ∃ e, stepNd d.model cfg S a = .error e

/-- One bicycle action for each of two scenarios, without the axis of objects. -/
noncomputable def exFlatAct : ActNd ℝ where
  data := { shape := [2, 2], get := fun idx => if idx.getD 1 0 = 0 then 1 + idx.getD 0 0 else 0 }
  valid := { shape := [2, 2, 1], get := fun _ => true }

omit [NeZero T] in
/-- The rows meant for the scenarios are given to the objects: the first one drives car 0 of both scenarios. -/
theorem exFlatAct_reads (p : Fin 2) (i : Fin 2) : ((exFlatAct.readBicycle 2 [p.val] i).data) = ⟨1 + (i.val : ℝ), 0⟩ := by
  fin_cases p <;> fin_cases i <;> simp [ActNd.readBicycle, exFlatAct, bicycleRowOf, Nd.broadcastIdx]

omit [NeZero T] in
theorem C139_violated : ¬ C139_full := by
  intro h
  obtain ⟨e, he⟩ := h (.bicycle {}) [2] 2 3 ⟨by omega⟩ { maxNumObjects := 2 } exDuo exFlatAct exDuo_shaped rfl rfl (by simp [exFlatAct, BuiltinDyn.dim])
  obtain ⟨S', hS⟩ := (C139_bicycle_accepts {} (cfg := { maxNumObjects := 2 }) (by simp) exDuo_shaped rfl (a := exFlatAct) rfl).2
    ⟨[2], 2, by omega, rfl, by decide⟩
  rw [show BuiltinDyn.model (.bicycle {}) = bicycleNd {} from rfl, hS] at he
  cases he

omit [NeZero T] in
/-- The violation is not confined to the bicycle model: longer rows pass for state actions and local displacements. -/
theorem C139_longer_rows_violated (d : BuiltinDyn) (hd : ∀ P, d ≠ .deltaGlobal P) :
    ∃ (S : StateNd ℝ) (a : ActNd ℝ), S.Shaped [2] 2 3 ∧ S.timestep.shape = [] ∧ a.valid.shape = [2, 2, 1] ∧
      a.data.shape = [2, 2, d.dim + 1] ∧ ∃ S', stepNd d.model { maxNumObjects := 2 } S a = .ok S' := by
  refine ⟨exDuo, { data := { shape := [2, 2, d.dim + 1], get := fun _ => 0 }, valid := { shape := [2, 2, 1], get := fun _ => true } },
    exDuo_shaped, rfl, rfl, rfl, ?_⟩
  cases d with
  | state => exact (C139_state_accepts (by simp) exDuo_shaped rfl rfl).2 ⟨6, by omega, rfl⟩
  | deltaGlobal P => exact absurd rfl (hd P)
  | deltaLocal P => exact (C139_deltaLocal_accepts P (by simp) exDuo_shaped rfl rfl).2 ⟨4, by omega, rfl⟩
  | bicycle P => exact (C139_bicycle_accepts P (by simp) exDuo_shaped rfl rfl).2 ⟨[2, 2], 3, by omega, rfl, by decide⟩

/-- What holds: global displacements of another shape are rejected, and so are state actions and local displacements without a row
for each object or with rows too short. Missing: rows too long, and everything that broadcasts for the bicycle model. -/
theorem C139_partial (d : BuiltinDyn) (hb : ∀ P, d ≠ .bicycle P) (cfg : EnvConfig) {S : StateNd ℝ} (h : S.Shaped pre n T)
    (ht : S.timestep.shape = []) {a : ActNd ℝ} (ha : a.valid.shape = pre ++ [n, 1])
    (hbad : (∃ P, d = .deltaGlobal P) ∧ a.data.shape ≠ pre ++ [n, d.dim] ∨ ∀ m, d.dim ≤ m → a.data.shape ≠ pre ++ [n, m]) :
    ∃ e, stepNd d.model cfg S a = .error e := by
  cases hs : stepNd d.model cfg S a with
  | error e => exact ⟨e, rfl⟩
  | ok S' =>
    exfalso
    have hcfg : cfg.controlledObject ≠ .NON_SDC := by
      intro hc
      unfold stepNd envControlMaskNd at hs
      rw [if_neg (by simp [hc]), hc] at hs
      cases hs
    cases d with
    | state =>
      obtain ⟨m, hm, hd⟩ := (C139_state_accepts hcfg h ht ha).1 ⟨S', hs⟩
      rcases hbad with ⟨⟨P, hP⟩, -⟩ | hbad
      · cases hP
      · exact hbad m hm hd
    | deltaGlobal P =>
      have hd := (C139_deltaGlobal_accepts P hcfg h ht ha).1 ⟨S', hs⟩
      rcases hbad with ⟨-, hbad⟩ | hbad
      · exact hbad hd
      · exact hbad 3 (le_refl 3) hd
    | deltaLocal P =>
      obtain ⟨m, hm, hd⟩ := (C139_deltaLocal_accepts P hcfg h ht ha).1 ⟨S', hs⟩
      rcases hbad with ⟨⟨P, hP⟩, -⟩ | hbad
      · cases hP
      · exact hbad m hm hd
    | bicycle P => exact hb P rfl

omit [NeZero T] in
/-- Displacements with a row for only one of two cars. -/
example : ∃ e, stepNd (deltaGlobalNd {}) { maxNumObjects := 2 } exDuo
    { data := { shape := [2, 1, 3], get := fun _ => 0 }, valid := { shape := [2, 2, 1], get := fun _ => true } } = .error e :=
  haveI : NeZero 3 := ⟨by omega⟩
  C139_partial (T := 3) (.deltaGlobal {}) (by simp) _ exDuo_shaped rfl rfl (.inl ⟨⟨_, rfl⟩, by simp [BuiltinDyn.dim]⟩)

omit [NeZero T] in
/-- The step with an action per scenario: both scenarios see the same two accelerations. -/
example : BatchAgrees [2] 2 3 (stepNd (bicycleNd {}) { maxNumObjects := 2 } exDuo exFlatAct) fun p =>
    step (bicycle {}) { maxNumObjects := 2 } (exDuo.scenario 2 3 p) (exFlatAct.readBicycle 2 p) :=
  C139_bicycle_reads {} _ exDuo_shaped rfl rfl (s := [2]) (m := 2) (by omega) rfl (by decide)

end

end Waymax
