import Verif.Model.BatchViz
import Verif.Props.VizScene
import Verif.Props.BatchObserve
import Verif.Props.BatchRoute
/-
C155: a picture of one scenario of a batch is the picture of that scenario.
-/

namespace Waymax

section
variable {B m n T K k : Nat} {kind : ArrayKind} {idx : Int}

/-! ### Indexing one leaf -/

theorem item_cons {β : Type} {x : Nd β} {rest : List Nat} (hx : x.shape = B :: rest) (hk : kind.position B idx = .ok k) :
    x.item kind idx = .ok { shape := rest, get := fun i => x.get (k :: i) } := by
  unfold Nd.item
  rw [hx]
  dsimp only
  rw [hk]
  rfl

theorem item_cons_error {β : Type} {x : Nd β} {rest : List Nat} {e : Err} (hx : x.shape = B :: rest)
    (hk : kind.position B idx = .error e) : x.item kind idx = .error e := by
  unfold Nd.item
  rw [hx]
  dsimp only
  rw [hk]
  rfl

theorem localIndex_cons {β : Type} {x : Nd β} {rest : List Nat} (hx : x.shape = B :: rest) (hk : kind.position B idx = .ok k) :
    x.localIndex kind idx = .ok { shape := rest, get := fun i => x.get (k :: i) } := by
  unfold Nd.localIndex
  rw [if_pos (by rw [hx]; simp), item_cons hx hk]

theorem rows_cons {β : Type} {x : Nd β} {rest p : List Nat} (hx : x.shape = B :: rest) :
    Nd.rows { shape := rest, get := fun i => x.get (k :: i) } p = x.rows (k :: p) := by
  unfold Nd.rows
  rw [hx]
  rfl

/-! ### Positions -/

theorem position_inside (kind : ArrayKind) (hk : k < B) : kind.position B (k : Int) = .ok k := by
  cases kind with
  | jax =>
    unfold ArrayKind.position
    dsimp only
    rw [if_neg (by omega)]
    unfold startIdx
    simp only
    rw [if_neg (by omega)]
    congr 1
    omega
  | numpy =>
    have := npIndex_nat (⟨k, hk⟩ : Fin B)
    unfold ArrayKind.position
    dsimp only
    rw [this]
    rfl

theorem position_from_end (kind : ArrayKind) (hk : k < B) : kind.position B ((k : Int) - B) = .ok k := by
  cases kind with
  | jax =>
    unfold ArrayKind.position
    dsimp only
    rw [if_neg (by omega)]
    unfold startIdx
    simp only
    rw [if_pos (by omega)]
    congr 1
    omega
  | numpy =>
    unfold ArrayKind.position npIndex
    dsimp only
    rw [dif_neg (by omega), dif_pos (by omega)]
    simp only [Except.map]
    congr 1
    omega

theorem position_beyond_jax (hB : 0 < B) (hk : B ≤ k) : ArrayKind.jax.position B (k : Int) = .ok (B - 1) := by
  unfold ArrayKind.position
  dsimp only
  rw [if_neg (by omega)]
  unfold startIdx
  simp only
  rw [if_neg (by omega)]
  congr 1
  omega

theorem position_beyond_numpy (hk : B ≤ k) : ArrayKind.numpy.position B (k : Int) = .error .indexError := by
  unfold ArrayKind.position npIndex
  dsimp only
  rw [dif_neg (by omega), dif_neg (by omega)]
  rfl

/-! ### Indexing whole objects -/

theorem meta_pick {M : MetaNd} {rest : List Nat} (h : M.HasShape (B :: rest)) {f : LeafFn}
    (hf : ∀ (β : Type) (x : Nd β) (r : List Nat), x.shape = B :: r → f β x = .ok { shape := r, get := fun i => x.get (k :: i) }) :
    ∃ M', M.mapLeaves f = .ok M' ∧ M'.HasShape rest ∧ ∀ i, M'.at_ i = M.at_ (k :: i) := by
  unfold MetaNd.mapLeaves
  rw [hf _ _ _ h.ids, hf _ _ _ h.objectTypes, hf _ _ _ h.isSdc, hf _ _ _ h.isModeled, hf _ _ _ h.isValid,
    hf _ _ _ h.objectsOfInterest, hf _ _ _ h.isControlled]
  exact ⟨_, rfl, ⟨rfl, rfl, rfl, rfl, rfl, rfl, rfl⟩, fun _ => rfl⟩

theorem pose_pick {P : PoseNd} {rest : List Nat} (h : P.HasShape (B :: rest)) {f : LeafFn}
    (hf : ∀ (β : Type) (x : Nd β) (r : List Nat), x.shape = B :: r → f β x = .ok { shape := r, get := fun i => x.get (k :: i) }) :
    ∃ P', P.mapLeaves f = .ok P' ∧ P'.HasShape rest ∧ ∀ i, P'.at_ i = P.at_ (k :: i) := by
  unfold PoseNd.mapLeaves
  rw [hf _ _ _ h.originalXy, hf _ _ _ h.originalYaw, hf _ _ _ h.matrix, hf _ _ _ h.deltaYaw, hf _ _ _ h.valid]
  exact ⟨_, rfl, ⟨rfl, rfl, rfl, rfl, rfl⟩, fun _ => rfl⟩

theorem traj_pick {t : TrajNd ℝ} {rest : List Nat} (h : t.HasShape (B :: rest)) {f : LeafFn}
    (hf : ∀ (β : Type) (x : Nd β) (r : List Nat), x.shape = B :: r → f β x = .ok { shape := r, get := fun i => x.get (k :: i) }) :
    ∃ t', t.mapLeaves f = .ok t' ∧ t'.HasShape rest ∧ ∀ i, t'.at_ i = t.at_ (k :: i) :=
  mapLeaves_rename h fun β x hx => hf β x rest hx

/-- The scenario picked out of a batch. -/
theorem state_pick {S : StateNd ℝ} (h : S.Shaped [B] n T) (hst : S.StaticsShaped [B] T)
    (ht : S.timestep.shape = [] ∨ S.timestep.shape = [B]) (hk : kind.position B idx = .ok k) :
    ∃ S', (S.mapLeaves fun _ x => x.localIndex kind idx) = .ok S' ∧ S'.Shaped [] n T ∧
      S'.scenario n T [] = S.scenario n T [k] := by
  have hf : ∀ (β : Type) (x : Nd β) (r : List Nat), x.shape = B :: r →
      x.localIndex kind idx = .ok { shape := r, get := fun i => x.get (k :: i) } := fun β x r hx => localIndex_cons hx hk
  obtain ⟨sim, e1, s1, g1⟩ := traj_pick (rest := [n, T]) (f := fun _ x => x.localIndex kind idx) h.sim hf
  obtain ⟨log, e2, s2, g2⟩ := traj_pick (rest := [n, T]) (f := fun _ x => x.localIndex kind idx) h.log hf
  obtain ⟨md, e3, s3, g3⟩ := meta_pick (rest := [n]) (f := fun _ x => x.localIndex kind idx) h.metadata hf
  obtain ⟨L, hL⟩ := hst.lights
  have hT : ∃ τ : Nd Int, S.timestep.localIndex kind idx = .ok τ ∧
      τ.get (([] : List Nat).take τ.shape.length) = S.timestep.get ([k].take S.timestep.shape.length) := by
    rcases ht with ht | ht
    · refine ⟨S.timestep, ?_, by rw [ht]; rfl⟩
      unfold Nd.localIndex
      rw [if_neg (by rw [ht]; simp)]
    · exact ⟨_, hf _ _ [] ht, by rw [ht]; rfl⟩
  obtain ⟨τ, e4, g4⟩ := hT
  have hP : ∃ ps, mapPaths (fun _ x => x.localIndex kind idx) S.sdcPaths = .ok ps ∧
      (ps.map fun pts => (List.range (pts.1.shape.getD 0 0)).map fun j =>
        ({ points := pts.1.rows [j], onRoute := pts.2.get [j, 0] } : SdcPath ℝ)) = (S.scenario n T [k]).sdcPaths := by
    cases hp : S.sdcPaths with
    | none => exact ⟨none, rfl, by simp [StateNd.scenario, hp]⟩
    | some pts =>
      obtain ⟨P, Q, pts', on, hp', hs1, hs2⟩ := hst.paths pts hp
      rw [hp] at hp'
      obtain rfl := Option.some.inj hp'
      unfold mapPaths
      dsimp only
      rw [hf _ _ [P, Q] hs1, exc_ok_bind, hf _ _ [P, 1] hs2, exc_ok_bind]
      refine ⟨_, rfl, ?_⟩
      simp only [StateNd.scenario, hp, Option.map_some, List.length_cons, List.length_nil]
      rw [hs1]
      refine congrArg some (List.map_congr_left fun j _ => ?_)
      rw [rows_cons (rest := [P, Q]) hs1]
      rfl
  obtain ⟨ps, e5, g5⟩ := hP
  have hR : ∃ rg, mapRoads (fun _ x => x.localIndex kind idx) S.roadgraphPoints = .ok rg ∧
      (rg.map fun r => r.rows []) = (S.scenario n T [k]).roadgraphPoints := by
    cases hr : S.roadgraphPoints with
    | none => exact ⟨none, rfl, by simp [StateNd.scenario, hr]⟩
    | some rg =>
      obtain ⟨N, rg', hr', hs⟩ := hst.roads rg hr
      rw [hr] at hr'
      obtain rfl := Option.some.inj hr'
      unfold mapRoads
      dsimp only
      rw [hf _ _ [N] hs, exc_ok_bind]
      refine ⟨_, rfl, ?_⟩
      simp only [StateNd.scenario, hr, Option.map_some]
      rw [rows_cons (rest := [N]) hs]
  obtain ⟨rg, e6, g6⟩ := hR
  unfold StateNd.mapLeaves
  rw [e1, exc_ok_bind, e2, exc_ok_bind]
  beta_reduce
  rw [hf _ _ [L, T] hL, exc_ok_bind, e3, exc_ok_bind, e4, exc_ok_bind, e5, exc_ok_bind, e6, exc_ok_bind]
  refine ⟨_, rfl, ⟨s1, s2, s3⟩, ?_⟩
  have q1 : (fun (i : Fin n) (t : Fin T) => sim.at_ [i.val, t.val]) = (S.scenario n T [k]).simTrajectory := by
    funext i t; rw [g1]; rfl
  have q2 : (fun (i : Fin n) (t : Fin T) => log.at_ [i.val, t.val]) = (S.scenario n T [k]).logTrajectory := by
    funext i t; rw [g2]; rfl
  have q3 : (fun i : Fin n => md.at_ [i.val]) = (S.scenario n T [k]).objectMetadata := by
    funext i; rw [g3]; rfl
  have q4 : τ.get (([] : List Nat).take τ.shape.length) = (S.scenario n T [k]).timestep := g4
  have q5 : ((List.range L).map fun l => fun t : Fin T => S.logTrafficLight.get (k :: [l, t.val])) =
      (S.scenario n T [k]).logTrafficLight := by
    simp only [StateNd.scenario, hL]
    rfl
  show ({ simTrajectory := _, logTrajectory := _, logTrafficLight := _, objectMetadata := _, timestep := _, sdcPaths := _,
          roadgraphPoints := _ } : SimState ℝ n T) = _
  simp only [List.nil_append, List.length_nil]
  rw [q1, q2, q3, q4, g5, g6]
  exact congrArg (fun l => { S.scenario n T [k] with logTrafficLight := l }) q5

theorem stateToPlot_batch {S : StateNd ℝ} (h : S.Shaped [B] n T) (hst : S.StaticsShaped [B] T)
    (ht : S.timestep.shape = [] ∨ S.timestep.shape = [B]) (h0 : idx > -1) (hk : kind.position B idx = .ok k) :
    ∃ S', stateToPlot kind S idx = .ok S' ∧ S'.Shaped [] n T ∧ S'.scenario n T [] = S.scenario n T [k] := by
  obtain ⟨S', e, s, g⟩ := state_pick h hst ht hk
  refine ⟨S', ?_, s, g⟩
  have hsh : S.shape = [B] := h.shape_eq
  have hsh' : S'.shape = [] := s.shape_eq
  unfold stateToPlot
  rw [if_pos h0, assertThat_ok (by rw [hsh]; rfl), exc_ok_bind, e, exc_ok_bind]
  beta_reduce
  rw [assertThat_ok hsh']
  rfl

theorem sizes_of_single {S : StateNd ℝ} (h : S.Shaped [] n T) :
    S.objectMetadata.ids.shape.getLastD 0 = n ∧ S.logTrajectory.numTimesteps = T := by
  constructor
  · rw [h.metadata.ids]; rfl
  · unfold TrajNd.numTimesteps TrajNd.shape
    rw [h.log.x]; rfl

theorem plotStateNd_single {S : StateNd ℝ} (h : S.Shaped [] n T) (useLog : Bool) (cfg : VizConfig) (hl : ObjectType) :
    plotStateNd S useLog cfg hl = plotSimulatorState (S.scenario n T []) useLog cfg hl := by
  obtain ⟨h1, h2⟩ := sizes_of_single h
  unfold plotStateNd
  rw [h1, h2]

theorem plotAt_position {S : StateNd ℝ} (h : S.Shaped [B] n T) (hst : S.StaticsShaped [B] T)
    (ht : S.timestep.shape = [] ∨ S.timestep.shape = [B]) (h0 : idx > -1) (hk : kind.position B idx = .ok k)
    (useLog : Bool) (cfg : VizConfig) (hl : ObjectType) :
    plotSimulatorStateAt kind S idx useLog cfg hl = plotSimulatorState (S.scenario n T [k]) useLog cfg hl := by
  obtain ⟨S', e, s, g⟩ := stateToPlot_batch h hst ht h0 hk
  unfold plotSimulatorStateAt
  rw [e, exc_ok_bind, plotStateNd_single s, g]

/-! ### C155 -/

/-- C155, full expectation: for every batch with one batch axis and every batch index, the picture is the one of the scenario with
that number, and an index that belongs to no scenario is rejected. -/
def C155_full : Prop :=
  ∀ (kind : ArrayKind) (B n T : Nat) (S : StateNd ℝ), S.Shaped [B] n T → S.StaticsShaped [B] T →
    (S.timestep.shape = [] ∨ S.timestep.shape = [B]) → ∀ (k : Nat) (useLog : Bool) (cfg : VizConfig) (hl : ObjectType),
      (k < B → plotSimulatorStateAt kind S k useLog cfg hl = plotSimulatorState (S.scenario n T [k]) useLog cfg hl) ∧
      (B ≤ k → ∃ e, plotSimulatorStateAt kind S k useLog cfg hl = .error e)

/-- The picture of scenario `k` of a batch is the picture of that scenario: the same marks, the same view, or the same exception.
Missing: what happens for an index that belongs to no scenario, see `C155_violated`. -/
theorem C155_state_partial (kind : ArrayKind) {S : StateNd ℝ} (h : S.Shaped [B] n T) (hst : S.StaticsShaped [B] T)
    (ht : S.timestep.shape = [] ∨ S.timestep.shape = [B]) (hk : k < B) (useLog : Bool) (cfg : VizConfig) (hl : ObjectType) :
    plotSimulatorStateAt kind S k useLog cfg hl = plotSimulatorState (S.scenario n T [k]) useLog cfg hl :=
  plotAt_position h hst ht (by omega) (position_inside kind hk) useLog cfg hl

/-- With JAX arrays an index beyond the batch gives, without any sign of it, the picture of the last scenario. -/
theorem C155_beyond_jax {S : StateNd ℝ} (h : S.Shaped [B] n T) (hst : S.StaticsShaped [B] T)
    (ht : S.timestep.shape = [] ∨ S.timestep.shape = [B]) (hB : 0 < B) (hk : B ≤ k) (useLog : Bool) (cfg : VizConfig)
    (hl : ObjectType) :
    plotSimulatorStateAt .jax S k useLog cfg hl = plotSimulatorState (S.scenario n T [B - 1]) useLog cfg hl :=
  plotAt_position h hst ht (by omega) (position_beyond_jax hB hk) useLog cfg hl

/-- With NumPy arrays an index beyond the batch is rejected. -/
theorem C155_beyond_numpy {S : StateNd ℝ} (h : S.Shaped [B] n T) (hk : B ≤ k) (useLog : Bool) (cfg : VizConfig) (hl : ObjectType) :
    plotSimulatorStateAt .numpy S k useLog cfg hl = .error .indexError := by
  have hsh : S.shape = [B] := h.shape_eq
  have hx : S.simTrajectory.x.localIndex .numpy k = .error .indexError := by
    unfold Nd.localIndex
    rw [if_pos (by rw [h.sim.x]; simp), item_cons_error (rest := [n, T]) h.sim.x (position_beyond_numpy hk)]
  unfold plotSimulatorStateAt stateToPlot
  rw [if_pos (by omega), assertThat_ok (by rw [hsh]; rfl), exc_ok_bind]
  unfold StateNd.mapLeaves TrajNd.mapLeaves
  beta_reduce
  rw [hx]
  rfl

/-- A state without batch axes is drawn without a batch index (any negative number), as it is. -/
theorem C155_single (kind : ArrayKind) {S : StateNd ℝ} (h : S.Shaped [] n T) (h0 : idx ≤ -1) (useLog : Bool) (cfg : VizConfig)
    (hl : ObjectType) :
    plotSimulatorStateAt kind S idx useLog cfg hl = plotSimulatorState (S.scenario n T []) useLog cfg hl := by
  have hsh : S.shape = [] := h.shape_eq
  unfold plotSimulatorStateAt stateToPlot
  rw [if_neg (by omega), exc_ok_bind]
  beta_reduce
  rw [assertThat_ok hsh, exc_ok_bind, exc_pure, exc_ok_bind, plotStateNd_single h]

/-- A batch index together with a state that does not have exactly one batch axis is rejected, and so is a batch without index;
for pictures of states and of Brax time steps alike. -/
theorem C155_rejected (kind : ArrayKind) {S : StateNd ℝ} {pre : List Nat} (h : S.Shaped pre n T)
    (hb : (idx > -1 ∧ pre.length ≠ 1) ∨ (idx ≤ -1 ∧ pre ≠ [])) (metrics : List (String × MetricNd)) (useLog : Bool)
    (cfg : VizConfig) (hl : ObjectType) :
    plotSimulatorStateAt kind S idx useLog cfg hl = .error .valueError ∧
    plotBraxTimestepAt kind S metrics idx useLog cfg = .error .valueError := by
  have hs : stateToPlot kind S idx = .error .valueError := by
    unfold stateToPlot
    rcases hb with ⟨h0, hp⟩ | ⟨h0, hp⟩
    · rw [if_pos h0, assertThat_error (by rw [h.shape_eq]; exact hp)]
      rfl
    · rw [if_neg (by omega), exc_ok_bind]
      beta_reduce
      rw [assertThat_error (by rw [h.shape_eq]; exact hp)]
      rfl
  unfold plotSimulatorStateAt plotBraxTimestepAt
  rw [hs]
  exact ⟨rfl, rfl⟩

/-! ### Brax time steps -/

theorem mapM_ok_mem {β γ : Type} (f : β → Except Err γ) (g : β → γ) :
    ∀ l : List β, (∀ x ∈ l, f x = .ok (g x)) → l.mapM f = .ok (l.map g)
  | [], _ => rfl
  | a :: l, h => by
    rw [List.mapM_cons, h a List.mem_cons_self, exc_ok_bind, mapM_ok_mem f g l fun x hx => h x (List.mem_cons_of_mem _ hx)]
    rfl

/-- The picture of scenario `k` of a batched Brax time step is the picture of that scenario with that scenario's metrics; the
texts may come in another order. -/
theorem C155_brax_partial (kind : ArrayKind) {S : StateNd ℝ} (h : S.Shaped [B] n T) (hst : S.StaticsShaped [B] T)
    (ht : S.timestep.shape = [] ∨ S.timestep.shape = [B]) {metrics : List (String × MetricNd)}
    (hm : ∀ e ∈ metrics, e.2.value.shape = [B] ∧ e.2.valid.shape = [B]) (hk : k < B) (useLog : Bool) (cfg : VizConfig) :
    ∃ ms : List (String × MetricResult),
      ms.Perm (metrics.map fun e => (e.1, { value := e.2.value.get [k], valid := e.2.valid.get [k] })) ∧
      plotBraxTimestepAt kind S metrics k useLog cfg = plotBraxTimestep (S.scenario n T [k]) ms useLog cfg := by
  have hpos := position_inside kind hk
  obtain ⟨S', e, s, g⟩ := stateToPlot_batch (kind := kind) h hst ht (show (k : Int) > -1 by omega) hpos
  obtain ⟨h1, h2⟩ := sizes_of_single s
  have hmm : mapMetrics (fun _ x => x.localIndex kind (k : Int)) metrics =
      .ok ((metrics.mergeSort fun a b => decide (a.1 ≤ b.1)).map fun e =>
        (e.1, { value := { shape := [], get := fun i => e.2.value.get (k :: i) }
                valid := { shape := [], get := fun i => e.2.valid.get (k :: i) } })) := by
    unfold mapMetrics
    refine mapM_ok_mem _ _ _ fun e he => ?_
    obtain ⟨m1, m2⟩ := hm e (List.mem_mergeSort.1 he)
    beta_reduce
    rw [localIndex_cons m1 hpos, exc_ok_bind, localIndex_cons m2 hpos, exc_ok_bind]
    rfl
  refine ⟨(metrics.mergeSort fun a b => decide (a.1 ≤ b.1)).map fun e =>
    (e.1, { value := e.2.value.get [k], valid := e.2.valid.get [k] }), (List.mergeSort_perm _ _).map _, ?_⟩
  unfold plotBraxTimestepAt
  rw [e, exc_ok_bind, if_pos (by omega), hmm, exc_ok_bind, h1, h2, g]
  beta_reduce
  rw [List.map_map]
  rfl

/-! ### Observations -/

/-- The part of an observation at one position of its leading axis. -/
theorem obs_pick {o : ObsNd} {sh : List Nat} (h : o.Shaped (B :: sh) n K) (hk : kind.position B idx = .ok k) :
    ∃ o', (o.mapLeaves fun _ x => x.item kind idx) = .ok o' ∧ o'.Shaped sh n K ∧
      ∀ q, o'.observer n K q = o.observer n K (k :: q) := by
  have hf : ∀ (β : Type) (x : Nd β) (r : List Nat), x.shape = B :: r →
      x.item kind idx = .ok { shape := r, get := fun i => x.get (k :: i) } := fun β x r hx => item_cons hx hk
  obtain ⟨tr, e1, s1, g1⟩ := traj_pick (rest := sh ++ [n, K]) (f := fun _ x => x.item kind idx) h.trajectory hf
  obtain ⟨ps, e2, s2, g2⟩ := pose_pick (rest := sh) (f := fun _ x => x.item kind idx) h.pose2d hf
  obtain ⟨md, e3, s3, g3⟩ := meta_pick (rest := sh ++ [n]) (f := fun _ x => x.item kind idx) h.metadata hf
  obtain ⟨rg, N, hrg, hN⟩ := h.roadgraph
  obtain ⟨L, hL⟩ := h.trafficLights
  obtain ⟨pts, on, P, Q, hp, hP, hQ⟩ := h.sdcPaths
  have e4 : mapRoads (fun _ x => x.item kind idx) o.roadgraph =
      .ok (some { shape := sh ++ [N], get := fun i => rg.get (k :: i) }) := by
    rw [hrg]
    unfold mapRoads
    dsimp only
    rw [hf _ _ (sh ++ [N]) hN]
    rfl
  have e5 : mapPaths (fun _ x => x.item kind idx) o.sdcPaths =
      .ok (some ({ shape := sh ++ [P, Q], get := fun i => pts.get (k :: i) },
        { shape := sh ++ [P, 1], get := fun i => on.get (k :: i) })) := by
    rw [hp]
    unfold mapPaths
    dsimp only
    rw [hf _ _ (sh ++ [P, Q]) hP, exc_ok_bind, hf _ _ (sh ++ [P, 1]) hQ]
    rfl
  unfold ObsNd.mapLeaves
  beta_reduce
  rw [e1, exc_ok_bind, hf _ _ (sh ++ [n]) h.isEgo, exc_ok_bind, e2, exc_ok_bind, e3, exc_ok_bind, e4, exc_ok_bind,
    hf _ _ (sh ++ [L, K]) hL, exc_ok_bind, e5, exc_ok_bind]
  refine ⟨_, rfl, ⟨s1, rfl, s2, s3, ⟨_, N, rfl, rfl⟩, ⟨L, rfl⟩, ⟨_, _, P, Q, rfl, rfl, rfl⟩⟩, fun q => ?_⟩
  unfold ObsNd.observer
  simp only [g1, g2, g3, hrg, hp, Option.map_some, Option.getD_some]
  rw [hL, hP, rows_cons (rest := sh ++ [N]) hN]
  simp only [List.cons_append, List.length_cons, List.getD_cons_succ]
  congr 1
  refine congrArg some (List.map_congr_left fun j _ => ?_)
  rw [rows_cons (rest := sh ++ [P, Q]) hP]

theorem plotObservation_last {o : ObsNd} (h : o.Shaped [m] n K) {obj : Int} {i : Nat} (hi : kind.position m obj = .ok i)
    (cfg : VizConfig) (hl : ObjectType) :
    (do
      let o ← o.mapLeaves fun _ x => x.item kind obj
      assertThat (o.shape = []) .valueError
      plotObservation (o.observer (o.metadata.ids.shape.getLastD 0) o.trajectory.numTimesteps []) cfg hl) =
      plotObservation (o.observer n K [i]) cfg hl := by
  obtain ⟨o', e, s, g⟩ := obs_pick h hi
  have h1 : o'.metadata.ids.shape.getLastD 0 = n := by rw [s.metadata.ids]; rfl
  have h2 : o'.trajectory.numTimesteps = K := by
    unfold TrajNd.numTimesteps TrajNd.shape
    rw [s.trajectory.x]; rfl
  rw [e, exc_ok_bind, assertThat_ok (by exact s.pose2d.deltaYaw), exc_ok_bind, h1, h2, g]

/-- The picture of observer `i` of scenario `k` shows what that observer sees. -/
theorem C155_observation_partial (kind : ArrayKind) {o : ObsNd} (h : o.Shaped [B, m] n K) {i : Nat} (hk : k < B) (hi : i < m)
    (cfg : VizConfig) (hl : ObjectType) :
    plotObservationAt kind o i k cfg hl = plotObservation (o.observer n K [k, i]) cfg hl := by
  obtain ⟨o', e, s, g⟩ := obs_pick h (position_inside kind hk)
  have hsh : o.shape = [B, m] := h.pose2d.deltaYaw
  unfold plotObservationAt
  rw [if_pos (by omega), assertThat_ok (by rw [hsh]; rfl), exc_ok_bind, e, exc_ok_bind]
  have := plotObservation_last s (position_inside kind hi) cfg hl
  rw [g] at this
  exact this

/-- Without batch axis: observer `i`, counted from the front or, with a negative number, from the back. -/
theorem C155_observer (kind : ArrayKind) {o : ObsNd} (h : o.Shaped [m] n K) {i : Nat} (hi : i < m) {b : Int} (hb : b ≤ -1)
    (cfg : VizConfig) (hl : ObjectType) :
    plotObservationAt kind o i b cfg hl = plotObservation (o.observer n K [i]) cfg hl ∧
    plotObservationAt kind o ((i : Int) - m) b cfg hl = plotObservation (o.observer n K [i]) cfg hl := by
  unfold plotObservationAt
  simp only [if_neg (show ¬ b > -1 by omega)]
  exact ⟨plotObservation_last h (position_inside kind hi) cfg hl, plotObservation_last h (position_from_end kind hi) cfg hl⟩

/-- Together with C123: observing a batch and drawing observer `i` of scenario `k` is observing scenario `k` alone and drawing
observer `i`; when the observation raises, it raises for the scenario alone. -/
theorem C155_observed_picture_partial [NeZero T] (kind : ArrayKind) {S : StateNd ℝ} (h : S.Shaped [B] n T)
    (hst : S.StaticsShaped [B] T) (ht : S.timestep.shape = [] ∨ S.timestep.shape = [B]) (topk : Nat) (frame : Frame)
    (hk : k < B) (i : Fin n) (cfg : VizConfig) (hl : ObjectType) :
    (do let o ← observationFromStateNd S K topk frame; plotObservationAt kind o i k cfg hl) =
      (do let o ← observationFromState (S.scenario n T [k]) K topk frame i; plotObservation o cfg hl) := by
  have h1 := C123_observation (K := K) h hst ht topk frame
  have hp : InRange [B] [k] := List.Forall₂.cons hk List.Forall₂.nil
  cases ho : observationFromStateNd S K topk frame with
  | error e =>
    rw [ho] at h1
    have h2 : observationFromState (S.scenario n T [k]) K topk frame i = .error e := h1 [k] hp i
    rw [h2]
    rfl
  | ok o =>
    rw [ho] at h1
    have h2 : observationFromState (S.scenario n T [k]) K topk frame i = .ok (o.observer n K [k, i.val]) := h1.2 [k] hp i
    rw [h2, exc_ok_bind, exc_ok_bind]
    exact C155_observation_partial kind h1.1 hk i.isLt cfg hl

end

/-! ### The violation, and concrete pictures -/

theorem exTwoMap_statics : exTwoMap.StaticsShaped [2] 3 :=
  ⟨⟨0, rfl⟩, fun rg hrg => by cases hrg; exact ⟨1, exTwoMap_roadgraph⟩, fun pts hp => by cases hp; exact ⟨1, 1, exTwoMap_paths⟩⟩

/-- Both scenarios of the batch are drawn, each around its own car. -/
theorem exTwoMap_drawn (q : Nat) (hq : q < 2) : ∃ fig, plotSimulatorState (exTwoMap.scenario 1 3 [q]) false {} .SDC = .ok fig ∧
    fig.axis = ((q : ℝ) - 75, (q : ℝ) + 75, 0 - 75, 0 + 75) := by
  obtain ⟨fig, hf, ha⟩ := C101_default_center_partial (s := exTwoMap.scenario 1 3 [q]) (k := 0) (t := ⟨q, by omega⟩)
    (rg := [⟨0, 0, 0, 1, 0, 0, 15, 1, true⟩])
    (by intro j; simp [StateNd.scenario, MetaNd.at_, exTwoMap, exTwo, Subsingleton.elim j 0])
    (by simp [StateNd.scenario, exTwoMap, exTwo]) rfl (by simp [StateNd.scenario, exTwoMap, exTwo]) false {} rfl (hl := .SDC)
    (by simp)
  refine ⟨fig, hf, ?_⟩
  rw [ha]
  simp [StateNd.scenario, TrajNd.at_, exTwoMap, exTwo]

/-- The pictures of the two scenarios differ. -/
example : plotSimulatorStateAt .jax exTwoMap 0 false {} .SDC ≠ plotSimulatorStateAt .jax exTwoMap 1 false {} .SDC := by
  have h0 := C155_state_partial .jax exTwoMap_shaped exTwoMap_statics (.inr rfl) (show 0 < 2 by omega) false {} .SDC
  have h1 := C155_state_partial .jax exTwoMap_shaped exTwoMap_statics (.inr rfl) (show 1 < 2 by omega) false {} .SDC
  obtain ⟨f0, e0, a0⟩ := exTwoMap_drawn 0 (by omega)
  obtain ⟨f1, e1, a1⟩ := exTwoMap_drawn 1 (by omega)
  intro h
  have : f0 = f1 := Except.ok.inj (e0.symm.trans (h0.symm.trans (h.trans (h1.trans e1))))
  rw [this, a1] at a0
  norm_num at a0

/-- Scenario number 7 of a batch of two is drawn, as scenario 1. -/
theorem C155_violated : ¬ C155_full := by
  intro h
  obtain ⟨e, he⟩ := (h .jax 2 1 3 exTwoMap exTwoMap_shaped exTwoMap_statics (.inr rfl) 7 false {} .SDC).2 (by omega)
  obtain ⟨f1, e1, -⟩ := exTwoMap_drawn 1 (by omega)
  have h7 := C155_beyond_jax (k := 7) exTwoMap_shaped exTwoMap_statics (.inr rfl) (by omega) (by omega) false {} .SDC
  have := (e1.symm.trans h7.symm).trans he
  cases this

/-- The hypotheses of `C155_beyond_numpy` and of `C155_rejected` are met by the same batch. -/
example : plotSimulatorStateAt .numpy exTwoMap 7 false {} .SDC = .error .indexError ∧
    plotSimulatorStateAt .jax exTwoMap (-1) false {} .SDC = .error .valueError :=
  ⟨C155_beyond_numpy (k := 7) exTwoMap_shaped (by omega) false {} .SDC,
    (C155_rejected .jax exTwoMap_shaped (.inr ⟨le_refl _, by simp⟩) [] false {} .SDC).1⟩

/-- A batched Brax time step with two metrics per scenario. -/
example : ∃ ms : List (String × MetricResult), ms.Perm [("overlap", ⟨1, true⟩), ("log_divergence", ⟨10, true⟩)] ∧
    plotBraxTimestepAt .jax exTwoMap [("overlap", ⟨⟨[2], fun i => i.getD 0 0⟩, ⟨[2], fun _ => true⟩⟩),
      ("log_divergence", ⟨⟨[2], fun i => 10 * i.getD 0 0⟩, ⟨[2], fun _ => true⟩⟩)] 1 false {} =
      plotBraxTimestep (exTwoMap.scenario 1 3 [1]) ms false {} := by
  obtain ⟨ms, hp, he⟩ := C155_brax_partial (k := 1) .jax exTwoMap_shaped exTwoMap_statics (.inr rfl)
    (metrics := [("overlap", ⟨⟨[2], fun i => i.getD 0 0⟩, ⟨[2], fun _ => true⟩⟩),
      ("log_divergence", ⟨⟨[2], fun i => 10 * i.getD 0 0⟩, ⟨[2], fun _ => true⟩⟩)])
    (by intro e he; simp at he; rcases he with rfl | rfl <;> exact ⟨rfl, rfl⟩) (by omega) false {}
  refine ⟨ms, ?_, he⟩
  simpa using hp

/-- The batch can be observed, and every picture of its observations is the one of the scenario observed alone. -/
example : (do let o ← observationFromStateNd exTwoMap 2 1 .OBJECT; plotObservationAt .jax o 0 1 {} .SDC) =
    (do let o ← observationFromState (exTwoMap.scenario 1 3 [1]) 2 1 .OBJECT 0; plotObservation o {} .SDC) :=
  C155_observed_picture_partial (k := 1) .jax exTwoMap_shaped exTwoMap_statics (.inr rfl) 1 .OBJECT (by omega) 0 {} .SDC

end Waymax
