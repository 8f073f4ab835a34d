import Verif.Spec.BatchMetrics
import Verif.Props.BatchTime
/-
C108: the metrics of a batch are the metrics of its scenarios. C109: the kinematic infeasibility metric rejects a time step with
batch axes, which the other metrics accept.
-/

namespace Waymax

section
variable {pre : List Nat} {n T : Nat}

theorem stackLast2_shaped {β : Type} {x y : Nd β} {s : List Nat} (hx : x.shape = s) (hy : y.shape = s) :
    Nd.stackLast2 x y = .ok { shape := s ++ [2]
                              get := fun idx => if idx.getLastD 0 = 0 then x.get idx.dropLast else y.get idx.dropLast } := by
  unfold Nd.stackLast2
  rw [assertThat_ok (by rw [hx, hy]), hx]
  rfl

theorem broadcastShape_one_last (s : List Nat) (d : Nat) : Nd.broadcastShape (s ++ [d]) (s ++ [1]) = some (s ++ [d]) := by
  simp only [Nd.broadcastShape, List.reverse_append, List.reverse_cons, List.reverse_nil, List.nil_append, List.cons_append,
    Nd.broadcastRev, broadcastRev_self]
  by_cases h : d = 1
  · subst h; simp
  · simp [h]

theorem create_ok {value : Nd ℝ} {valid : Nd Bool} {s : List Nat} (h : value.shape = s) (h' : valid.shape = s) :
    MetricNd.create value valid = .ok { value, valid } := by
  unfold MetricNd.create
  rw [assertThat_ok (by rw [h, h'])]
  rfl

variable [NeZero T]

/-- Log divergence of a batch. -/
theorem C108_log_divergence {S : StateNd ℝ} (h : S.Shaped pre n T) (ht : S.timestep.shape = [] ∨ S.timestep.shape = pre) :
    ∃ m, logDivergenceNd S = .ok m ∧ m.PerObject pre n fun p => .ok (logDivergenceMetric (S.scenario n T p)) := by
  obtain ⟨cur, log, e1, e2, s1, s2, g⟩ := C106_current h ht
  unfold logDivergenceNd
  rw [e1, exc_ok_bind, e2, exc_ok_bind, stackLast2_shaped s1.x s1.y, exc_ok_bind, stackLast2_shaped s2.x s2.y, exc_ok_bind]
  obtain ⟨d, e3, s3, g3⟩ := zip_shaped (fun a b : ℝ => a - b)
    (x := { shape := pre ++ [n, 1] ++ [2], get := fun idx => if idx.getLastD 0 = 0 then cur.x.get idx.dropLast else cur.y.get idx.dropLast })
    (y := { shape := pre ++ [n, 1] ++ [2], get := fun idx => if idx.getLastD 0 = 0 then log.x.get idx.dropLast else log.y.get idx.dropLast })
    rfl rfl
  obtain ⟨v, e4, s4, g4⟩ := zip_shaped (fun a b : Bool => a && b) s1.valid s2.valid
  rw [e3, exc_ok_bind, e4, exc_ok_bind]
  have hn : d.normLast2.shape = pre ++ [n] ++ [1] := by
    unfold Nd.normLast2
    rw [s3, List.dropLast_concat, snoc2]
  rw [indexLast_shaped hn (by omega), exc_ok_bind, indexLast_shaped (by rw [s4, snoc2]) (by omega), exc_ok_bind,
    create_ok (s := pre ++ [n]) rfl rfl]
  refine ⟨_, rfl, rfl, rfl, fun p hp => congrArg Except.ok (funext fun i => ?_)⟩
  have hi : InRange (pre ++ [n, 1]) (p ++ [i.val, 0]) := hp.snoc2 i.isLt (by omega)
  obtain ⟨c1, c2⟩ := g p hp i
  have hx0 := g3 (p ++ [i.val, 0] ++ [0]) (hi.snoc (by omega))
  have hx1 := g3 (p ++ [i.val, 0] ++ [1]) (hi.snoc (by omega))
  simp only [List.getLastD_concat, List.dropLast_concat, if_true, one_ne_zero, if_false] at hx0 hx1
  have hv := g4 _ hi
  simp only [logDivergenceMetric, Nd.normLast2]
  simp only [snoc2] at hx0 hx1 hv c1 c2
  rw [hx0, hx1, hv]
  have c1' : dynIndex ((S.scenario n T p).simTrajectory i) (S.scenario n T p).timestep = cur.at_ (p ++ [i.val] ++ [0]) := c1.symm
  have c2' : dynIndex ((S.scenario n T p).logTrajectory i) (S.scenario n T p).timestep = log.at_ (p ++ [i.val] ++ [0]) := c2.symm
  rw [c1', c2']
  rfl

/-- Off-road metric of a batch. -/
theorem C108_offroad {S : StateNd ℝ} (h : S.Shaped pre n T) (ht : S.timestep.shape = [] ∨ S.timestep.shape = pre) {M : Nat}
    (hr : S.HasRoadgraph pre M) (hM : 0 < M) :
    ∃ m, offroadNd S = .ok m ∧ m.PerObject pre n fun p => offroadMetric (S.scenario n T p) := by
  obtain ⟨cur, log, e1, -, s1, -, g⟩ := C106_current h ht
  obtain ⟨rg, hrg, hs⟩ := hr
  unfold offroadNd
  rw [e1, exc_ok_bind]
  simp only [hrg]
  have hp1 : cur.x.shape.dropLast = pre ++ [n] := by rw [s1.x, snoc2, List.dropLast_concat]
  rw [hp1, List.dropLast_concat, hs, assertThat_ok ⟨by rw [List.dropLast_concat], by simp, by simpa using hM⟩, exc_ok_bind,
    create_ok (s := pre ++ [n]) rfl rfl]
  refine ⟨_, rfl, rfl, rfl, fun p hp => ?_⟩
  have hrow : (S.scenario n T p).roadgraphPoints = some (rg.rows p) := by simp [StateNd.scenario, hrg]
  have hne : rg.rows p ≠ [] := by
    unfold Nd.rows
    rw [hs, getD_append_cons hp.length]
    cases M with
    | zero => omega
    | succ M => simp [List.range_succ]
  unfold offroadMetric
  beta_reduce
  rw [hrow]
  cases hc : rg.rows p with
  | nil => exact absurd hc hne
  | cons a l =>
    simp only
    congr 1
    funext i
    have hcur := (g p hp i).1
    unfold SimState.currentSim at hcur
    rw [List.dropLast_concat, hc, ← hcur, snoc2]

/-! ### Overlap -/

omit [NeZero T] in
theorem normAxis_second (q : List Nat) (a b : Nat) : Nd.normAxis (q ++ [a, b]).length (-2) = .ok q.length := by
  unfold Nd.normAxis
  simp only [List.length_append, List.length_cons, List.length_nil]
  rw [if_pos (by omega), if_pos (by omega)]
  congr 1
  omega

omit [NeZero T] in
theorem insertIdx_mid (p : List Nat) (j k : Nat) : (p ++ [j]).insertIdx p.length k = p ++ [k, j] := by
  induction p with
  | nil => rfl
  | cons a p ih => simpa using ih

omit [NeZero T] in
theorem list_range_sum {M : Type} [AddCommMonoid M] (a : Nat) (f : Nat → M) : ((List.range a).map f).sum = ∑ i : Fin a, f i := by
  induction a with
  | zero => simp
  | succ a ih => rw [List.range_succ, List.map_append, List.sum_append, ih, Fin.sum_univ_castSucc]; simp

omit [NeZero T] in
theorem sumAxis_second {x : Nd ℕ} {q : List Nat} {a b : Nat} (hs : x.shape = q ++ [a, b]) :
    ∃ r, x.sumAxis (-2) = .ok r ∧ r.shape = q ++ [b] ∧
      ∀ p, InRange q p → ∀ j, r.get (p ++ [j]) = ∑ i : Fin a, x.get (p ++ [i.val, j]) := by
  unfold Nd.sumAxis
  rw [hs, normAxis_second, exc_ok_bind, getD_append_cons rfl]
  refine ⟨_, rfl, ?_, fun p hp j => ?_⟩
  · simp only
    rw [List.eraseIdx_append_of_length_le (le_refl _)]
    simp
  · simp only
    have hin : ∀ k, (p ++ [j]).insertIdx q.length k = p ++ [k, j] := fun k => by rw [hp.length]; exact insertIdx_mid p j k
    simp only [hin]
    exact list_range_sum a fun k => x.get (p ++ [k, j])

open Classical in
/-- Overlap metric of a batch. -/
theorem C108_overlap {S : StateNd ℝ} (h : S.Shaped pre n T) (ht : S.timestep.shape = [] ∨ S.timestep.shape = pre) :
    ∃ m, overlapNd S = .ok m ∧ m.PerObject pre n fun p => .ok (overlapMetric (S.scenario n T p)) := by
  obtain ⟨cur, log, e1, -, s1, -, g⟩ := C106_current h ht
  unfold overlapNd
  rw [e1, exc_ok_bind]
  have hb : boxesNd cur = .ok { shape := pre ++ [n] ++ [1], get := fun idx => (cur.at_ idx).box } := by
    unfold boxesNd
    rw [assertThat_ok ⟨by rw [s1.x, s1.y], by rw [s1.x, s1.length], by rw [s1.x, s1.width], by rw [s1.x, s1.yaw]⟩, s1.x, snoc2]
    rfl
  rw [hb, exc_ok_bind, indexLast_shaped rfl (by omega), exc_ok_bind]
  dsimp only
  have hvs : (cur.valid.sliceLast 0 1).shape = pre ++ [n] ++ [1] :=
    sliceLast_shape (b := 1) (a := 0) (by rw [s1.valid, snoc2]) (le_refl _)
  set boxes : Nd Box := { shape := pre ++ [n], get := fun idx => (cur.at_ (idx ++ [0])).box } with hbx
  have hps : (pairwiseOverlapsNd boxes).shape = pre ++ [n] ++ [n] := by
    simp [pairwiseOverlapsNd, hbx]
  have hz : Nd.zip (fun a b => a && b) (pairwiseOverlapsNd boxes) (cur.valid.sliceLast 0 1) = .ok
      { shape := pre ++ [n] ++ [n]
        get := fun idx => (pairwiseOverlapsNd boxes).get (Nd.broadcastIdx (pre ++ [n] ++ [n]) idx) &&
          (cur.valid.sliceLast 0 1).get (Nd.broadcastIdx (pre ++ [n] ++ [1]) idx) } := by
    unfold Nd.zip
    rw [hps, hvs, broadcastShape_one_last]
  rw [hz, exc_ok_bind]
  obtain ⟨r, e2, s2, g2⟩ := sumAxis_second (q := pre) (a := n) (b := n)
    (x := (Nd.map (fun b : Bool => if b then (1 : ℕ) else 0)
      { shape := pre ++ [n] ++ [n]
        get := fun idx => (pairwiseOverlapsNd boxes).get (Nd.broadcastIdx (pre ++ [n] ++ [n]) idx) &&
          (cur.valid.sliceLast 0 1).get (Nd.broadcastIdx (pre ++ [n] ++ [1]) idx) })) (by simp [Nd.map])
  rw [e2, exc_ok_bind, indexLast_shaped hvs (by omega), exc_ok_bind, create_ok (s := pre ++ [n]) s2 rfl]
  refine ⟨_, rfl, s2, rfl, fun p hp => congrArg Except.ok (funext fun j => ?_)⟩
  have hcur : ∀ k : Fin n, dynIndex ((S.scenario n T p).simTrajectory k) (S.scenario n T p).timestep = cur.at_ (p ++ [k.val] ++ [0]) :=
    fun k => by rw [← snoc2]; exact ((g p hp k).1).symm
  simp only [overlapMetric, computeOverlap, hcur, Nd.map, sliceLast_get, g2 p hp]
  congr 1
  refine if_congr ?_ rfl rfl
  rw [gt_iff_lt, gt_iff_lt]
  have hsum : ∀ a b : ℕ, a = b → ((0 < a) ↔ 0 < b) := fun a b h => by rw [h]
  refine hsum _ _ (Finset.sum_congr rfl fun i _ => ?_)
  have hi : InRange (pre ++ [n] ++ [n]) (p ++ [i.val, j.val]) := by
    rw [snoc2]; exact (hp.snoc i.isLt).snoc j.isLt
  refine ite_congr (propext ?_) (fun _ => rfl) (fun _ => rfl)
  rw [broadcastIdx_self hi, snoc2, broadcastIdx_last_one (hp.snoc i.isLt), sliceLast_get]
  simp only [hcur, pairwiseOverlapsNd, List.getLastD_concat, List.dropLast_concat, computePairwiseOverlaps, Bool.and_eq_true,
    hbx]
  by_cases hij : i = j
  · simp [hij]
  · have : i.val ≠ j.val := fun h => hij (Fin.ext h)
    simp [hij, this, TrajNd.at_]

/-! ### Kinematic infeasibility -/

omit [NeZero T] in
theorem sliceInDim_last {β : Type} {x : Nd β} {q : List Nat} (hs : x.shape = q ++ [T]) {k : Nat} (hk : k ≤ T) (st : Int) :
    x.sliceInDim st k (-1) = .ok { shape := q ++ [k], get := fun idx => x.get (idx.modify q.length fun i => i + startIdx T k st) } := by
  unfold Nd.sliceInDim
  rw [hs, normAxis_last', exc_ok_bind, getD_snoc]
  dsimp only
  rw [if_pos hk, set_snoc]
  rfl

/-- Kinematic infeasibility of a batch whose scenarios share the time step. -/
theorem C108_kinematic (K : KimParams) {S : StateNd ℝ} (h : S.Shaped pre n T) (ht : S.timestep.shape = []) (hT : 2 ≤ T) :
    ∃ m, kinematicsNd K S = .ok m ∧ m.PerObject pre n fun p => .ok (kinematicsInfeasibilityMetric K (S.scenario n T p)) := by
  let st := startIdx T 2 (S.timestep.get [] - 1)
  obtain ⟨w, e1, s1, g1⟩ := mapLeaves_rename (f := fun _ x => x.sliceInDim ((S.timestep.map fun t => t - 1).get []) 2 (-1))
    (s' := pre ++ [n, 2]) (φ := fun idx => idx.modify (pre ++ [n]).length fun i => i + st) h.sim
    (fun β x hx => by
      rw [snoc2] at hx
      rw [sliceInDim_last hx hT, snoc2]
      rfl)
  have hw2 : w.valid.shape = pre ++ [n] ++ [2] := by rw [s1.valid, snoc2]
  have v0 : (w.valid.sliceLast 0 1).shape = pre ++ [n] ++ [1] := sliceLast_shape hw2 (by omega)
  have v1 : (w.valid.sliceLast 1 2).shape = pre ++ [n] ++ [1] := sliceLast_shape hw2 (by omega)
  obtain ⟨v, e2, s2, g2⟩ := zip_shaped (fun a b : Bool => a && b) v0 v1
  let raw : Nd AccelSteer :=
    { shape := w.x.shape.dropLast, get := fun idx => bicycleInversePair K.dt true (w.at_ (idx ++ [0])) (w.at_ (idx ++ [1])) }
  have hraw : raw.expandLast.shape = pre ++ [n] ++ [1] := by
    simp only [Nd.expandLast, raw]
    rw [s1.x, snoc2, List.dropLast_concat]
  obtain ⟨a, e3, s3, g3⟩ := zip_shaped (fun (v : Bool) (a : AccelSteer) => if v then a else { accel := 0, steering := 0 }) s2 hraw
  have hinv : computeInverseNd S.simTrajectory (S.timestep.map fun t => t - 1) K.dt = .ok (a, v) := by
    unfold computeInverseNd
    rw [assertThat_ok (show (S.timestep.map fun t => t - 1).shape = [] from ht), exc_ok_bind,
      assertThat_ok ⟨by rw [h.sim.x, h.sim.y], by rw [h.sim.x, h.sim.yaw], by rw [h.sim.x, h.sim.velX], by rw [h.sim.x, h.sim.velY]⟩,
      exc_ok_bind, e1, exc_ok_bind, e2, exc_ok_bind]
    dsimp only
    rw [e3]
    rfl
  unfold kinematicsNd
  rw [hinv, exc_ok_bind, indexLast_shaped s3 (by omega), exc_ok_bind, indexLast_shaped s2 (by omega), exc_ok_bind,
    create_ok (s := pre ++ [n]) rfl rfl]
  refine ⟨_, rfl, rfl, rfl, fun p hp => congrArg Except.ok (funext fun i => ?_)⟩
  have hi : InRange (pre ++ [n] ++ [1]) (p ++ [i.val] ++ [0]) := (hp.snoc i.isLt).snoc (by omega)
  have hwin : ∀ k < 2, w.at_ (p ++ [i.val] ++ [k]) = S.simTrajectory.at_ (p ++ [i.val, k + st]) := by
    intro k _
    rw [g1, modify_append_cons (by simp [hp.length]), ← snoc2]
  have hts : (S.scenario n T p).timestep = S.timestep.get [] := by simp [StateNd.scenario, ht]
  have hw : window2 ((S.scenario n T p).simTrajectory i) ((S.scenario n T p).timestep - 1) =
      (w.at_ (p ++ [i.val] ++ [0]), w.at_ (p ++ [i.val] ++ [1])) := by
    rw [hwin 0 (by omega), hwin 1 (by omega), hts]
    simp [window2, hT, dynSlice, StateNd.scenario, st, Nat.add_comm]
  have hv := g2 _ hi
  rw [sliceLast_get, sliceLast_get] at hv
  have ha := g3 _ hi
  have hvv : v.get (p ++ [i.val] ++ [0]) = ((w.at_ (p ++ [i.val] ++ [0])).valid && (w.at_ (p ++ [i.val] ++ [1])).valid) := hv
  simp only [kinematicsInfeasibilityMetric, bicycleComputeInverse, hw, Nd.map, ha, hvv]
  simp only [raw, Nd.expandLast, List.dropLast_concat]

/-! ### C109 -/

/-- C109, full expectation: every metric that is defined for a state of shape `(...)` accepts a time step of that shape. -/
def C109_full : Prop :=
  ∀ (pre : List Nat) (n T : Nat) (K : KimParams) (S : StateNd ℝ), 2 ≤ T → S.Shaped pre n T → S.timestep.shape = pre →
    ∃ m, kinematicsNd K S = .ok m

omit [NeZero T] in
/-- The kinematic infeasibility metric never accepts a time step with batch axes. -/
theorem C109_kinematic_rejects (K : KimParams) (S : StateNd ℝ) (ht : S.timestep.shape ≠ []) :
    kinematicsNd K S = .error .typeError := by
  unfold kinematicsNd computeInverseNd
  rw [assertThat_error (show ¬ (S.timestep.map fun t => t - 1).shape = [] from ht)]
  rfl

theorem C109_violated : ¬ C109_full := by
  intro h
  obtain ⟨m, hm⟩ := h [2] 1 3 {} exTwo (by omega) exTwo_shaped rfl
  rw [C109_kinematic_rejects _ _ (by simp [exTwo])] at hm
  cases hm

/-- What holds: with a shared time step, and for one scenario, the metric is computed. Missing: a batched time step, see
`C109_violated`. -/
theorem C109_shared_step_partial (K : KimParams) {S : StateNd ℝ} (h : S.Shaped pre n T) (ht : S.timestep.shape = [])
    (hT : 2 ≤ T) : ∃ m, kinematicsNd K S = .ok m := (C108_kinematic K h ht hT).imp fun _ h => h.1

end

end Waymax
