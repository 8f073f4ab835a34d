import Verif.Props.BatchMetrics
import Verif.Lemmas.Select
/-
C108, metrics of the SDC on a batch: wrong way, off route and progression.
-/

namespace Waymax

section
variable {pre : List Nat} {n T : Nat}

/-! ### Pieces -/

theorem slice_leaves {t t' : TrajNd ℝ} {st : Nd Int} {k : Nat} (h : t.slice st k = .ok t') :
    t.x.dynSliceV st k (-1) = .ok t'.x ∧ t.y.dynSliceV st k (-1) = .ok t'.y ∧ t.valid.dynSliceV st k (-1) = .ok t'.valid := by
  simp only [TrajNd.slice, TrajNd.mapLeaves, bind_eq_ok] at h
  obtain ⟨x, hx, y, hy, z, hz, vx, hvx, vy, hvy, yaw, hyaw, v, hv, ts, hts, l, hl, w, hw, hh, hhh, h⟩ := h
  cases h
  exact ⟨hx, hy, hv⟩

theorem selectByOnehotNd_get {x : Nd ℝ} {sel : Nd Bool} (hx : x.shape = pre ++ [n]) (hs : sel.shape = pre ++ [n]) :
    ∃ r, selectByOnehotNd x sel false = .ok r ∧ r.shape = pre ∧
      ∀ p, InRange pre p → r.get p = selectByOnehot (fun i : Fin n => x.get (p ++ [i.val])) fun i => sel.get (p ++ [i.val]) := by
  have hr : sel.shape.length = pre.length + 1 := by rw [hs]; simp
  have htake : x.shape.take (pre.length + 1) = sel.shape := by
    rw [hx, hs, List.take_of_length_le]
    simp
  have hn : sel.shape.getD pre.length 0 = n := by rw [hs]; exact getD_append_cons rfl
  unfold selectByOnehotNd
  simp only [hr, htake, if_true, Nat.add_sub_cancel, hn, show ¬ (pre.length + 1 = 0) by omega, if_false]
  refine ⟨_, rfl, ?_, fun p hp => ?_⟩
  · simp only [Bool.false_eq_true, if_false]
    rw [hx, List.eraseIdx_append_of_length_le (le_refl _)]
    simp
  · simp only [Bool.false_eq_true, if_false]
    rw [hp.length, List.take_length, List.drop_length, list_range_sum]
    rfl

theorem selectBool_get {x sel : Nd Bool} (hx : x.shape = pre ++ [n]) (hs : sel.shape = pre ++ [n]) :
    ∃ r, x.selectBool sel = .ok r ∧ r.shape = pre ∧
      ∀ p, InRange pre p → r.get p = selectByOnehotBool (fun i : Fin n => x.get (p ++ [i.val])) fun i => sel.get (p ++ [i.val]) := by
  unfold Nd.selectBool
  rw [assertThat_ok (by rw [hx, hs]), exc_ok_bind]
  refine ⟨_, rfl, by simp [hx], fun p _ => ?_⟩
  simp only [hx, List.getLastD_concat, selectByOnehotBool]
  rw [Bool.eq_iff_iff]
  simp only [List.any_eq_true, List.mem_range, decide_eq_true_eq, ne_eq, Finset.sum_eq_zero_iff, Finset.mem_univ, true_implies]
  constructor
  · rintro ⟨k, hk, h⟩ h0
    have := h0 ⟨k, hk⟩
    simp [h] at this
  · intro h
    by_contra hc
    push Not at hc
    refine h fun i => ?_
    have := hc i.val i.isLt
    rw [if_neg (by simpa using this)]

theorem sdcXyNd_get {x y : Nd ℝ} {sel : Nd Bool} (hT : 0 < T) (hx : x.shape = pre ++ [n, T]) (hy : y.shape = pre ++ [n, T])
    (hs : sel.shape = pre ++ [n]) :
    ∃ r, sdcXyNd x y sel = .ok r ∧ r.1.shape = pre ∧ r.2.shape = pre ∧
      ∀ p, InRange pre p →
        r.1.get p = selectByOnehot (fun i : Fin n => x.get (p ++ [i.val, 0])) (fun i => sel.get (p ++ [i.val])) ∧
        r.2.get p = selectByOnehot (fun i : Fin n => y.get (p ++ [i.val, 0])) (fun i => sel.get (p ++ [i.val])) := by
  rw [snoc2] at hx hy
  unfold sdcXyNd
  rw [indexLast_shaped hx hT, exc_ok_bind, indexLast_shaped hy hT, exc_ok_bind]
  obtain ⟨a, e1, s1, g1⟩ := selectByOnehotNd_get (x := { shape := pre ++ [n], get := fun idx => x.get (idx ++ [0]) }) rfl hs
  obtain ⟨b, e2, s2, g2⟩ := selectByOnehotNd_get (x := { shape := pre ++ [n], get := fun idx => y.get (idx ++ [0]) }) rfl hs
  rw [e1, exc_ok_bind, e2, exc_ok_bind]
  refine ⟨_, rfl, s1, s2, fun p hp => ?_⟩
  simp only [snoc2]
  exact ⟨g1 p hp, g2 p hp⟩

theorem sdcXyLastNd_get {x y : Nd ℝ} {sel : Nd Bool} (hT : 0 < T) (hx : x.shape = pre ++ [n, T]) (hy : y.shape = pre ++ [n, T])
    (hs : sel.shape = pre ++ [n]) :
    ∃ r, sdcXyLastNd x y sel = .ok r ∧ r.1.shape = pre ∧ r.2.shape = pre ∧
      ∀ p, InRange pre p →
        r.1.get p = selectByOnehot (fun i : Fin n => x.get (p ++ [i.val, T - 1])) (fun i => sel.get (p ++ [i.val])) ∧
        r.2.get p = selectByOnehot (fun i : Fin n => y.get (p ++ [i.val, T - 1])) (fun i => sel.get (p ++ [i.val])) := by
  rw [snoc2] at hx hy
  have hlx : x.shape.getLastD 0 = T := by rw [hx, List.getLastD_concat]
  have hly : y.shape.getLastD 0 = T := by rw [hy, List.getLastD_concat]
  unfold sdcXyLastNd
  rw [hlx, hly, indexLast_shaped hx (by omega), exc_ok_bind, indexLast_shaped hy (by omega), exc_ok_bind]
  obtain ⟨a, e1, s1, g1⟩ := selectByOnehotNd_get (x := { shape := pre ++ [n], get := fun idx => x.get (idx ++ [T - 1]) }) rfl hs
  obtain ⟨b, e2, s2, g2⟩ := selectByOnehotNd_get (x := { shape := pre ++ [n], get := fun idx => y.get (idx ++ [T - 1]) }) rfl hs
  rw [e1, exc_ok_bind, e2, exc_ok_bind]
  refine ⟨_, rfl, s1, s2, fun p hp => ?_⟩
  simp only [snoc2]
  exact ⟨g1 p hp, g2 p hp⟩

/-- A per-scenario array against an array with one more axis. -/
theorem zip_row {β γ δ : Type} (f : β → γ → δ) {x : Nd β} {y : Nd γ} {M : Nat} (hx : x.shape = pre) (hy : y.shape = pre ++ [M]) :
    ∃ r, Nd.zip f x.expandLast y = .ok r ∧ r.shape = pre ++ [M] ∧
      ∀ p m, InRange pre p → m < M → r.get (p ++ [m]) = f (x.get p) (y.get (p ++ [m])) := by
  unfold Nd.zip
  have : x.expandLast.shape = pre ++ [1] := by simp [Nd.expandLast, hx]
  rw [this, hy, broadcastShape_last_one]
  refine ⟨_, rfl, rfl, fun p m hp hm => ?_⟩
  simp only [broadcastIdx_last_one hp, broadcastIdx_self (hp.snoc hm)]
  simp [Nd.expandLast]

/-- A per-scenario array against an array with two more axes. -/
theorem zip_path {β γ δ : Type} (f : β → γ → δ) {x : Nd β} {y : Nd γ} {P M : Nat} (hx : x.shape = pre)
    (hy : y.shape = pre ++ [P, M]) :
    ∃ r, Nd.zip f x.expandLast.expandLast y = .ok r ∧ r.shape = pre ++ [P, M] ∧
      ∀ p k m, InRange pre p → k < P → m < M → r.get (p ++ [k, m]) = f (x.get p) (y.get (p ++ [k, m])) := by
  unfold Nd.zip
  have : x.expandLast.expandLast.shape = pre ++ [1, 1] := by simp [Nd.expandLast, hx]
  have hb : Nd.broadcastShape (pre ++ [1, 1]) (pre ++ [P, M]) = some (pre ++ [P, M]) := by
    simp only [Nd.broadcastShape, List.reverse_append, List.reverse_cons, List.reverse_nil, List.nil_append, List.cons_append,
      Nd.broadcastRev, broadcastRev_self]
    have hr : ∀ (a : Nat) (r : List Nat), (if 1 = a then some (1 :: r) else if True then some (a :: r) else if a = 1 then some (1 :: r) else none) = some (a :: r) := by
      intro a r; split <;> simp_all
    simp only [Option.bind_eq_bind, Option.bind_some, if_true] at hr ⊢
    rw [hr, Option.bind_some, hr]
    simp
  rw [this, hy, hb]
  refine ⟨_, rfl, rfl, fun p k m hp hk hm => ?_⟩
  have hi : Nd.broadcastIdx (pre ++ [1, 1]) (p ++ [k, m]) = p ++ [0, 0] := by
    unfold Nd.broadcastIdx
    have := hp.length
    have h0 : (p ++ [k, m]).length - (pre ++ [1, 1]).length = 0 := by simp; omega
    rw [h0, List.drop_zero, List.zipWith_append this, zipWith_inRange hp]
    rfl
  simp only [hi, broadcastIdx_self (hp.snoc2 hk hm)]
  simp only [Nd.expandLast]
  rw [snoc2, List.dropLast_concat, List.dropLast_concat]

/-- One entry per path against one entry per point. -/
theorem zip_route {β γ δ : Type} (f : β → γ → δ) {x : Nd β} {y : Nd γ} {P M : Nat} (hx : x.shape = pre ++ [P, 1])
    (hy : y.shape = pre ++ [P, M]) :
    ∃ r, Nd.zip f x y = .ok r ∧ r.shape = pre ++ [P, M] ∧
      ∀ p k m, InRange pre p → k < P → m < M → r.get (p ++ [k, m]) = f (x.get (p ++ [k, 0])) (y.get (p ++ [k, m])) := by
  unfold Nd.zip
  rw [hx, hy, snoc2, snoc2 (b := M), broadcastShape_last_one]
  refine ⟨_, rfl, rfl, fun p k m hp hk hm => ?_⟩
  simp only [snoc2]
  rw [broadcastIdx_last_one (hp.snoc hk), broadcastIdx_self ((hp.snoc hk).snoc hm)]

theorem zip_route' {β γ δ : Type} (f : β → γ → δ) {x : Nd β} {y : Nd γ} {P M : Nat} (hx : x.shape = pre ++ [P, M])
    (hy : y.shape = pre ++ [P, 1]) :
    ∃ r, Nd.zip f x y = .ok r ∧ r.shape = pre ++ [P, M] ∧
      ∀ p k m, InRange pre p → k < P → m < M → r.get (p ++ [k, m]) = f (x.get (p ++ [k, m])) (y.get (p ++ [k, 0])) := by
  unfold Nd.zip
  rw [hx, hy, snoc2, snoc2 (b := 1), broadcastShape_one_last]
  refine ⟨_, rfl, rfl, fun p k m hp hk hm => ?_⟩
  simp only [snoc2]
  rw [broadcastIdx_last_one (hp.snoc hk), broadcastIdx_self ((hp.snoc hk).snoc hm)]

theorem reduceLast_shaped {β γ : Type} (f : List β → γ) {x : Nd β} {q : List Nat} {m : Nat} (hx : x.shape = q ++ [m]) (hm : 0 < m) :
    x.reduceLast f = .ok { shape := q, get := fun idx => f ((List.range m).map fun k => x.get (idx ++ [k])) } := by
  unfold Nd.reduceLast
  rw [hx, assertThat_ok (by simpa using hm)]
  simp

theorem listMin_append (a b : List (WithTop ℝ)) : listMin (a ++ b) = min (listMin a) (listMin b) := by
  induction a with
  | nil => simp [listMin]
  | cons x a ih =>
    show min x (listMin (a ++ b)) = min (min x (listMin a)) (listMin b)
    rw [ih, min_assoc]

theorem listMin_flatMap {β : Type} (l : List β) (f : β → List (WithTop ℝ)) :
    listMin (l.flatMap f) = listMin (l.map fun a => listMin (f a)) := by
  induction l with
  | nil => rfl
  | cons a l ih =>
    rw [List.flatMap_cons, listMin_append, ih]
    rfl

theorem minPathsNd_get {x : Nd (WithTop ℝ)} {P M : Nat} (hx : x.shape = pre ++ [P, M]) (hP : 0 < P) (hM : 0 < M) :
    ∃ r, minPathsNd x = .ok r ∧ r.shape = pre ∧
      ∀ p, r.get p = listMin ((List.range P).map fun k => listMin ((List.range M).map fun m => x.get (p ++ [k, m]))) := by
  rw [snoc2] at hx
  unfold minPathsNd
  rw [reduceLast_shaped listMin hx hM, exc_ok_bind, reduceLast_shaped listMin (q := pre) (m := P) rfl hP]
  refine ⟨_, rfl, rfl, fun p => ?_⟩
  simp only [snoc2]

theorem pathDistNd_get {xy : Nd ℝ × Nd ℝ} {pts : Nd (PathPoint ℝ)} {P M : Nat} (h1 : xy.1.shape = pre) (h2 : xy.2.shape = pre)
    (hp : pts.shape = pre ++ [P, M]) :
    ∃ r, pathDistNd xy pts = .ok r ∧ r.shape = pre ++ [P, M] ∧ ∀ p k m, InRange pre p → k < P → m < M →
      r.get (p ++ [k, m]) = pathDist (xy.1.get p, xy.2.get p) (pts.get (p ++ [k, m])) := by
  obtain ⟨a, e1, s1, g1⟩ := zip_path (fun a (p : PathPoint ℝ) => a - p.x) h1 hp
  obtain ⟨b, e2, s2, g2⟩ := zip_path (fun a (p : PathPoint ℝ) => a - p.y) h2 hp
  obtain ⟨c, e3, s3, g3⟩ := zip_shaped hypot s1 s2
  unfold pathDistNd
  rw [e1, exc_ok_bind, e2, exc_ok_bind, e3]
  refine ⟨_, rfl, s3, fun p k m h hk hm => ?_⟩
  rw [g3 _ (h.snoc2 hk hm), g1 p k m h hk hm, g2 p k m h hk hm]
  rfl

/-- The paths of one scenario of the batch. -/
theorem scenario_paths {S : StateNd ℝ} {pts : Nd (PathPoint ℝ)} {on : Nd Bool} {P M : Nat} (hS : S.sdcPaths = some (pts, on))
    (hp : pts.shape = pre ++ [P, M]) {p : List Nat} (h : InRange pre p) :
    (S.scenario n T p).sdcPaths = some ((List.range P).map fun k =>
      { points := (List.range M).map fun m => pts.get (p ++ [k, m]), onRoute := on.get (p ++ [k, 0]) }) := by
  simp only [StateNd.scenario, hS, Option.map_some]
  congr 1
  have h1 : pts.shape.getD p.length 0 = P := by rw [hp]; exact getD_append_cons h.length
  have h2 : ∀ k, pts.shape.getD (p ++ [k]).length 0 = M := fun k => by
    rw [hp, snoc2]; exact getD_append_cons (by simp [h.length])
  rw [h1]
  refine List.map_congr_left fun k _ => ?_
  simp only [Nd.rows, h2, snoc2]

theorem not_noPathPoints {P M : Nat} (hP : 0 < P) (hM : 0 < M) (f : Nat → Nat → PathPoint ℝ) (g : Nat → Bool) :
    noPathPoints ((List.range P).map fun k => { points := (List.range M).map fun m => f k m, onRoute := g k }) = false := by
  unfold noPathPoints
  rw [List.all_eq_false]
  refine ⟨_, List.mem_map_of_mem (List.mem_range.2 hP), ?_⟩
  cases M with
  | zero => omega
  | succ M => simp [List.range_succ]

theorem minOverPaths_range {P M : Nat} (f : Nat → Nat → PathPoint ℝ) (g : Nat → Bool) (d : SdcPath ℝ → PathPoint ℝ → WithTop ℝ)
    (e : Nat → Nat → WithTop ℝ)
    (h : ∀ k m, k < P → m < M → d { points := (List.range M).map fun m => f k m, onRoute := g k } (f k m) = e k m) :
    minOverPaths ((List.range P).map fun k => { points := (List.range M).map fun m => f k m, onRoute := g k }) d =
      listMin ((List.range P).map fun k => listMin ((List.range M).map fun m => e k m)) := by
  unfold minOverPaths
  rw [listMin_flatMap, List.map_map]
  congr 1
  refine List.map_congr_left fun k hk => ?_
  simp only [Function.comp_apply, List.map_map]
  congr 1
  refine List.map_congr_left fun m hm => ?_
  exact h k m (List.mem_range.1 hk) (List.mem_range.1 hm)

variable [NeZero T]

/-- The SDC's position and validity now, in the batch and in the scenario. -/
theorem sdcNow {S : StateNd ℝ} (h : S.Shaped pre n T) (ht : S.timestep.shape = [] ∨ S.timestep.shape = pre) :
    ∃ cur xy v, S.simTrajectory.slice S.timestep 1 = .ok cur ∧ sdcXyNd cur.x cur.y S.objectMetadata.isSdc = .ok xy ∧
      (do let v0 ← cur.valid.indexLast 0; v0.selectBool S.objectMetadata.isSdc) = .ok v ∧
      xy.1.shape = pre ∧ xy.2.shape = pre ∧ v.shape = pre ∧
      ∀ p, InRange pre p → (xy.1.get p, xy.2.get p) = sdcXyCurrent (S.scenario n T p) ∧ v.get p = sdcValidCurrent (S.scenario n T p) := by
  obtain ⟨cur, log, e1, -, s1, -, g⟩ := C106_current h ht
  obtain ⟨xy, e2, s2, s3, g2⟩ := sdcXyNd_get (by omega) s1.x s1.y h.metadata.isSdc
  obtain ⟨v, e3, s4, g3⟩ := selectBool_get (x := { shape := pre ++ [n], get := fun idx => cur.valid.get (idx ++ [0]) }) rfl h.metadata.isSdc
  refine ⟨cur, xy, v, e1, e2, ?_, s2, s3, s4, fun p hp => ⟨?_, ?_⟩⟩
  · rw [indexLast_shaped (by rw [s1.valid, snoc2]) (by omega), exc_ok_bind, e3]
  · obtain ⟨h1, h2⟩ := g2 p hp
    rw [h1, h2]
    unfold sdcXyCurrent
    refine Prod.ext ?_ ?_
    · exact congrArg (fun f => selectByOnehot f fun i => S.objectMetadata.isSdc.get (p ++ [i.val])) (funext fun i => congrArg Pt.x (g p hp i).1)
    · exact congrArg (fun f => selectByOnehot f fun i => S.objectMetadata.isSdc.get (p ++ [i.val])) (funext fun i => congrArg Pt.y (g p hp i).1)
  · rw [g3 p hp]
    unfold sdcValidCurrent
    refine congrArg (fun f => selectByOnehotBool f _) (funext fun i => ?_)
    show cur.valid.get (p ++ [i.val] ++ [0]) = _
    rw [← snoc2]
    exact congrArg Pt.valid (g p hp i).1

/-- Wrong-way metric of a batch. -/
theorem C108_wrong_way {S : StateNd ℝ} (h : S.Shaped pre n T) (ht : S.timestep.shape = [] ∨ S.timestep.shape = pre) {P M : Nat}
    (hpaths : S.HasPaths pre P M) (hP : 0 < P) (hM : 0 < M) :
    ∃ m, wrongWayNd S = .ok m ∧ m.PerScenario pre fun p => wrongWayMetric (S.scenario n T p) := by
  obtain ⟨cur, xy, v, e1, e2, -, s1, s2, -, g⟩ := sdcNow h ht
  obtain ⟨pts, on, hS, hpts, -⟩ := hpaths
  obtain ⟨l1, l2, -⟩ := slice_leaves e1
  obtain ⟨raw, e3, s3, g3⟩ := pathDistNd_get s1 s2 hpts
  obtain ⟨dist, e4, s4, g4⟩ := zip_shaped (fun (p : PathPoint ℝ) d => orInf p.valid d) hpts s3
  obtain ⟨m, e5, s5, g5⟩ := minPathsNd_get s4 hP hM
  unfold wrongWayNd
  rw [l1, exc_ok_bind, l2, exc_ok_bind, e2, exc_ok_bind]
  simp only [hS]
  rw [e3, exc_ok_bind, e4, exc_ok_bind, e5, exc_ok_bind, create_ok (s := pre) (by exact s5) (by exact s5)]
  refine ⟨_, rfl, s5, s5, fun p hp => ?_⟩
  have hmin : minOverPaths ((List.range P).map fun k =>
      { points := (List.range M).map fun m => pts.get (p ++ [k, m]), onRoute := on.get (p ++ [k, 0]) })
      (fun _ q => orInf q.valid (pathDist (sdcXyCurrent (S.scenario n T p)) q)) = m.get p := by
    rw [g5]
    refine minOverPaths_range _ _ _ _ fun k j hk hj => ?_
    rw [g4 _ (hp.snoc2 hk hj), g3 p k j hp hk hj, (g p hp).1]
  simp only [wrongWayMetric, scenario_paths hS hpts hp, not_noPathPoints hP hM, Bool.false_eq_true, if_false, hmin, Nd.map]
  cases m.get p <;> rfl

/-- Off-route metric of a batch. -/
theorem C108_off_route {S : StateNd ℝ} (h : S.Shaped pre n T) (ht : S.timestep.shape = [] ∨ S.timestep.shape = pre) {P M : Nat}
    (hpaths : S.HasPaths pre P M) (hP : 0 < P) (hM : 0 < M) :
    ∃ m, offRouteNd S = .ok m ∧ m.PerScenario pre fun p => offRouteMetric (S.scenario n T p) := by
  obtain ⟨cur, xy, v, e1, e2, ev, s1, s2, sv, g⟩ := sdcNow h ht
  obtain ⟨pts, on, hS, hpts, hon⟩ := hpaths
  obtain ⟨l1, l2, l3⟩ := slice_leaves e1
  rw [bind_eq_ok] at ev
  obtain ⟨v0, ev0, ev⟩ := ev
  obtain ⟨raw, e3, s3, g3⟩ := pathDistNd_get s1 s2 hpts
  obtain ⟨d1, e4, s4, g4⟩ := zip_shaped (fun (p : PathPoint ℝ) d => orInf p.valid d) hpts s3
  obtain ⟨d2, e5, s5, g5⟩ := zip_path (fun (v : Bool) (d : WithTop ℝ) => if v then d else ⊤) sv s4
  obtain ⟨d3, e6, s6, g6⟩ := zip_route (fun (r : Bool) (d : WithTop ℝ) => if r then d else ⊤) hon s5
  obtain ⟨d4, e7, s7, g7⟩ := zip_route (fun (r : Bool) (d : WithTop ℝ) => if !r then d else ⊤) hon s5
  obtain ⟨m1, e8, s8, g8⟩ := minPathsNd_get s6 hP hM
  obtain ⟨m2, e9, s9, g9⟩ := minPathsNd_get s7 hP hM
  obtain ⟨a, e10, s10, g10⟩ := zip_shaped (fun a b => (offRouteOf a b).1) s8 s9
  obtain ⟨b, e11, s11, g11⟩ := zip_shaped (fun a b => (offRouteOf a b).2) s8 s9
  unfold offRouteNd
  simp only [hS]
  rw [l1, exc_ok_bind, l2, exc_ok_bind, e2, exc_ok_bind, l3, exc_ok_bind, ev0, exc_ok_bind, ev, exc_ok_bind, e3, exc_ok_bind, e4,
    exc_ok_bind, e5, exc_ok_bind, e6, exc_ok_bind, e7, exc_ok_bind, e8, exc_ok_bind, e9, exc_ok_bind, e10, exc_ok_bind, e11,
    exc_ok_bind, create_ok s10 s11]
  refine ⟨_, rfl, s10, s11, fun p hp => ?_⟩
  obtain ⟨hxy, hv⟩ := g p hp
  have h1 : minOverPaths ((List.range P).map fun k =>
      { points := (List.range M).map fun m => pts.get (p ++ [k, m]), onRoute := on.get (p ++ [k, 0]) })
      (fun path q => orInf (path.onRoute && (sdcValidCurrent (S.scenario n T p) && q.valid))
        (pathDist (sdcXyCurrent (S.scenario n T p)) q)) = m1.get p := by
    rw [g8]
    refine minOverPaths_range _ _ _ _ fun k j hk hj => ?_
    rw [g6 p k j hp hk hj, g5 p k j hp hk hj, g4 _ (hp.snoc2 hk hj), g3 p k j hp hk hj, hxy, hv]
    cases on.get (p ++ [k, 0]) <;> cases sdcValidCurrent (S.scenario n T p) <;> simp [orInf]
  have h2 : minOverPaths ((List.range P).map fun k =>
      { points := (List.range M).map fun m => pts.get (p ++ [k, m]), onRoute := on.get (p ++ [k, 0]) })
      (fun path q => orInf (!path.onRoute && (sdcValidCurrent (S.scenario n T p) && q.valid))
        (pathDist (sdcXyCurrent (S.scenario n T p)) q)) = m2.get p := by
    rw [g9]
    refine minOverPaths_range _ _ _ _ fun k j hk hj => ?_
    rw [g7 p k j hp hk hj, g5 p k j hp hk hj, g4 _ (hp.snoc2 hk hj), g3 p k j hp hk hj, hxy, hv]
    cases on.get (p ++ [k, 0]) <;> cases sdcValidCurrent (S.scenario n T p) <;> simp [orInf]
  simp only [offRouteMetric, scenario_paths hS hpts hp, not_noPathPoints hP hM, Bool.false_eq_true, if_false, h1, h2, g10 p hp, g11 p hp]
  cases m1.get p <;> rfl

omit [NeZero T] in
theorem arclengthNd_get {xy : Nd ℝ × Nd ℝ} {ref : Nd (PathPoint ℝ)} {M : Nat} (h1 : xy.1.shape = pre) (h2 : xy.2.shape = pre)
    (hr : ref.shape = pre ++ [M]) (hM : 0 < M) :
    ∃ r, arclengthNd xy ref = .ok r ∧ r.shape = pre ∧ ∀ p, InRange pre p → ∀ on,
      r.get p = arclengthForPts (xy.1.get p, xy.2.get p) { points := (List.range M).map fun m => ref.get (p ++ [m]), onRoute := on } := by
  obtain ⟨a, e1, s1, g1⟩ := zip_row (fun a (p : PathPoint ℝ) => a - p.x) h1 hr
  obtain ⟨b, e2, s2, g2⟩ := zip_row (fun a (p : PathPoint ℝ) => a - p.y) h2 hr
  obtain ⟨c, e3, s3, g3⟩ := zip_shaped hypot s1 s2
  obtain ⟨d, e4, s4, g4⟩ := zip_shaped (fun (p : PathPoint ℝ) d => orInf p.valid d) hr s3
  unfold arclengthNd
  rw [e1, exc_ok_bind, e2, exc_ok_bind, e3, exc_ok_bind, e4, exc_ok_bind, reduceLast_shaped argmin s4 hM, exc_ok_bind]
  refine ⟨_, rfl, by simp [hr], fun p hp on => ?_⟩
  have hd : (List.range M).map (fun k => d.get (p ++ [k])) =
      ((List.range M).map fun m => ref.get (p ++ [m])).map fun q => orInf q.valid (pathDist (xy.1.get p, xy.2.get p) q) := by
    rw [List.map_map]
    refine List.map_congr_left fun m hm => ?_
    have hm := List.mem_range.1 hm
    rw [g4 _ (hp.snoc hm), g3 _ (hp.snoc hm), g1 p m hp hm, g2 p m hp hm]
    rfl
  unfold arclengthForPts
  simp only [hd]
  set k := argmin (((List.range M).map fun m => ref.get (p ++ [m])).map fun q => orInf q.valid (pathDist (xy.1.get p, xy.2.get p) q)) with hk
  have hlt : k < M := by
    have := argmin_lt (xs := ((List.range M).map fun m => ref.get (p ++ [m])).map fun q => orInf q.valid (pathDist (xy.1.get p, xy.2.get p) q))
      (by cases M with
          | zero => omega
          | succ M => simp [List.range_succ])
    rw [← hk] at this
    simpa using this
  simp [hlt]

/-- Progression metric of a batch. -/
theorem C108_progression {S : StateNd ℝ} (h : S.Shaped pre n T) (ht : S.timestep.shape = [] ∨ S.timestep.shape = pre) {P M : Nat}
    (hpaths : S.HasPaths pre P M) (hP : 0 < P) (hM : 0 < M) :
    ∃ m, progressionNd S = .ok m ∧ m.PerScenario pre fun p => progressionMetric (S.scenario n T p) := by
  obtain ⟨cur, xy, v, e1, e2, ev, s1, s2, sv, g⟩ := sdcNow h ht
  obtain ⟨pts, on, hS, hpts, hon⟩ := hpaths
  obtain ⟨l1, l2, l3⟩ := slice_leaves e1
  rw [bind_eq_ok] at ev
  obtain ⟨v0, ev0, ev⟩ := ev
  have hT : 0 < T := Nat.pos_of_ne_zero (NeZero.ne T)
  obtain ⟨xs, f1, t1, t2, k1⟩ := sdcXyNd_get hT h.log.x h.log.y h.metadata.isSdc
  obtain ⟨xe, f2, t3, t4, k2⟩ := sdcXyLastNd_get hT h.log.x h.log.y h.metadata.isSdc
  obtain ⟨raw, e3, s3, g3⟩ := pathDistNd_get s1 s2 hpts
  obtain ⟨mask, e4, s4, g4⟩ := zip_route' (fun (p : PathPoint ℝ) (r : Bool) => p.valid && r) hpts hon
  obtain ⟨d1, e5, s5, g5⟩ := zip_shaped orInf s4 s3
  obtain ⟨d, e6, s6, g6⟩ := zip_path (fun (v : Bool) (d : WithTop ℝ) => if v then d else ⊤) sv s5
  obtain ⟨m, e7, s7, g7⟩ := minPathsNd_get s6 hP hM
  have s6' : d.shape = pre ++ [P] ++ [M] := by rw [s6, snoc2]
  let dp : Nd (WithTop ℝ) := { shape := pre ++ [P], get := fun idx => listMin ((List.range M).map fun k => d.get (idx ++ [k])) }
  let idx : Nd Nat := { shape := pre, get := fun p => argmin ((List.range P).map fun k => dp.get (p ++ [k])) }
  let ref : Nd (PathPoint ℝ) :=
    { shape := pts.shape.dropLast.dropLast ++ [pts.shape.getLastD 0]
      get := fun q => pts.get (q.dropLast ++ [idx.get q.dropLast] ++ [q.getLastD 0]) }
  have href : ref.shape = pre ++ [M] := by
    simp only [ref, hpts]
    rw [snoc2, List.dropLast_concat, List.dropLast_concat, List.getLastD_concat]
  obtain ⟨r1, e8, s8, g8⟩ := arclengthNd_get t1 t2 href hM
  obtain ⟨r2, e9, s9, g9⟩ := arclengthNd_get t3 t4 href hM
  obtain ⟨r3, e10, s10, g10⟩ := arclengthNd_get s1 s2 href hM
  obtain ⟨sp, e11, s11, g11⟩ := zip_shaped (fun a b : ℝ => (a, b)) s8 s9
  obtain ⟨pr, e12, s12, g12⟩ := zip_shaped (fun (se : ℝ × ℝ) c => if se.2 = se.1 then 1 else (c - se.1) / (se.2 - se.1)) s11 s10
  have s7' : (m.map isFinite).shape = pre := s7
  obtain ⟨vl, e13, s13, g13⟩ := zip_shaped (fun (v : Bool) (p : ℝ) => if v then p else 0) s7' s12
  unfold progressionNd
  simp only [hS]
  rw [l1, exc_ok_bind, l2, exc_ok_bind, e2, exc_ok_bind, f1, exc_ok_bind, f2, exc_ok_bind, l3, exc_ok_bind, ev0, exc_ok_bind, ev,
    exc_ok_bind, e3, exc_ok_bind, e4, exc_ok_bind, e5, exc_ok_bind, e6, exc_ok_bind, reduceLast_shaped listMin s6' hM, exc_ok_bind,
    reduceLast_shaped argmin (q := pre) (m := P) rfl hP, exc_ok_bind, e7, exc_ok_bind, e8, exc_ok_bind, e9, exc_ok_bind, e10,
    exc_ok_bind, e11, exc_ok_bind, e12, exc_ok_bind, e13, exc_ok_bind, create_ok s13 s7']
  refine ⟨_, rfl, s13, s7', fun p hp => ?_⟩
  obtain ⟨hxy, hv⟩ := g p hp
  have hd : ∀ k j, k < P → j < M → d.get (p ++ [k, j]) = if sdcValidCurrent (S.scenario n T p) then
      orInf ((pts.get (p ++ [k, j])).valid && on.get (p ++ [k, 0])) (pathDist (sdcXyCurrent (S.scenario n T p)) (pts.get (p ++ [k, j]))) else ⊤ := by
    intro k j hk hj
    rw [g6 p k j hp hk hj, g5 _ (hp.snoc2 hk hj), g4 p k j hp hk hj, g3 p k j hp hk hj, hxy, hv]
  let paths : List (SdcPath ℝ) := (List.range P).map fun k =>
      { points := (List.range M).map fun m => pts.get (p ++ [k, m]), onRoute := on.get (p ++ [k, 0]) }
  have h1 : minOverPaths paths (fun path q => if sdcValidCurrent (S.scenario n T p) then
      orInf (q.valid && path.onRoute) (pathDist (sdcXyCurrent (S.scenario n T p)) q) else ⊤) = m.get p := by
    rw [g7]
    exact minOverPaths_range _ _ _ _ fun k j hk hj => (hd k j hk hj).symm
  have h2 : (paths.map fun path => listMin (path.points.map fun q => if sdcValidCurrent (S.scenario n T p) then
      orInf (q.valid && path.onRoute) (pathDist (sdcXyCurrent (S.scenario n T p)) q) else ⊤)) =
      (List.range P).map fun k => dp.get (p ++ [k]) := by
    rw [List.map_map]
    refine List.map_congr_left fun k hk => ?_
    simp only [Function.comp_apply, dp, List.map_map]
    congr 1
    refine List.map_congr_left fun j hj => ?_
    rw [← snoc2, hd k j (List.mem_range.1 hk) (List.mem_range.1 hj)]
    rfl
  have hidx : idx.get p < P := by
    have := argmin_lt (xs := (List.range P).map fun k => dp.get (p ++ [k])) (by
      cases P with
      | zero => omega
      | succ P => simp [List.range_succ])
    simpa using this
  have hrefp : ∀ j, ref.get (p ++ [j]) = pts.get (p ++ [idx.get p, j]) := by
    intro j
    simp only [ref, List.dropLast_concat, List.getLastD_concat]
    rw [snoc2]
  have hget : paths[idx.get p]? = some { points := (List.range M).map fun j => ref.get (p ++ [j]), onRoute := on.get (p ++ [idx.get p, 0]) } := by
    simp only [hrefp]
    simp [paths, hidx]
  have hstart : sdcXyLog (S.scenario n T p) ⟨0, hT⟩ = (xs.1.get p, xs.2.get p) := by
    obtain ⟨a1, a2⟩ := k1 p hp
    rw [a1, a2]; rfl
  have hend : sdcXyLog (S.scenario n T p) ⟨T - 1, Nat.sub_lt hT one_pos⟩ = (xe.1.get p, xe.2.get p) := by
    obtain ⟨a1, a2⟩ := k2 p hp
    rw [a1, a2]; rfl
  have hno : noPathPoints paths = false := not_noPathPoints hP hM _ _
  have hsp : (S.scenario n T p).sdcPaths = some paths := scenario_paths hS hpts hp
  have hargmin : argmin ((List.range P).map fun k => dp.get (p ++ [k])) = idx.get p := rfl
  simp only [progressionMetric, hsp, hno, Bool.false_eq_true, if_false, h1, h2, hargmin, hget, hstart, hend]
  rw [← hxy, ← g8 p hp, ← g9 p hp, ← g10 p hp, g13 p hp, g12 p hp, g11 p hp]
  simp only [Nd.map]
  cases m.get p <;> rfl

end

/-! ### A batch of two scenarios, at steps 0 and 1, each with one path: through the car in the first, 10 m beside it in the second -/

noncomputable def exTwoMap : StateNd ℝ :=
  { exTwo with
    sdcPaths := some ({ shape := [2, 1, 1], get := fun idx =>
        { x := idx.getD 0 0, y := 10 * idx.getD 0 0, z := 0, id := 1, valid := true, arcLength := 0 } },
      { shape := [2, 1, 1], get := fun _ => true })
    roadgraphPoints := some { shape := [2, 1], get := fun _ => ⟨0, 0, 0, 1, 0, 0, 15, 1, true⟩ } }

theorem exTwoMap_shaped : exTwoMap.Shaped [2] 1 3 := ⟨exTwo_shaped.sim, exTwo_shaped.log, exTwo_shaped.metadata⟩

theorem exTwoMap_paths : exTwoMap.HasPaths [2] 1 1 := ⟨_, _, rfl, rfl, rfl⟩

theorem exTwoMap_roadgraph : exTwoMap.HasRoadgraph [2] 1 := ⟨_, rfl, rfl⟩

/-- The hypotheses of the theorems hold, and the metrics of the two scenarios differ. -/
example : (∃ m, wrongWayNd exTwoMap = .ok m ∧ m.value.shape = [2] ∧ m.value.get [0] = 0 ∧ m.value.get [1] = 10) := by
  obtain ⟨m, h1, h2, h3, h4⟩ := C108_wrong_way exTwoMap_shaped (.inr rfl) exTwoMap_paths one_pos one_pos
  have hw : ∀ q : ℕ, wrongWayMetric (exTwoMap.scenario 1 3 [q]) = .ok { value := if (10 * q : ℝ) < 3.5 then 0 else 10 * q, valid := true } := by
    intro q
    have hh : hypot 0 (-(10 * (q : ℝ))) = 10 * q := by
      have : (0 : ℝ) ≤ 10 * q := by positivity
      rw [hypot, show (0 : ℝ) ^ 2 + (-(10 * (q : ℝ))) ^ 2 = (10 * q) * (10 * q) by ring]
      exact Real.sqrt_mul_self this
    have hs : sdcXyCurrent (exTwoMap.scenario 1 3 [q]) = ((q : ℝ), 0) := by
      simp [sdcXyCurrent, selectByOnehot, dynIndex, dynSlice, TrajNd.at_, MetaNd.at_, StateNd.scenario, exTwoMap, exTwo]
    have hp : (exTwoMap.scenario 1 3 [q]).sdcPaths =
        some [{ points := [{ x := q, y := 10 * q, z := 0, id := 1, valid := true, arcLength := 0 }], onRoute := true }] := by
      simp [StateNd.scenario, exTwoMap, Nd.rows]
    have hd : pathDist ((q : ℝ), 0) { x := q, y := 10 * q, z := 0, id := 1, valid := true, arcLength := 0 } = 10 * q := by
      simpa [pathDist] using hh
    simp only [wrongWayMetric, hp, hs, noPathPoints, minOverPaths, List.flatMap_cons, List.flatMap_nil, List.map_cons, List.map_nil,
      List.append_nil, hd, orInf]
    rfl
  have a0 := h4 [0] (.cons (by omega) .nil)
  have a1 := h4 [1] (.cons (by omega) .nil)
  beta_reduce at a0 a1
  rw [hw 0] at a0
  rw [hw 1] at a1
  refine ⟨m, h1, h2, ?_, ?_⟩
  · have := congrArg MetricResult.value (Except.ok.inj a0)
    norm_num at this
    exact this.symm
  · have := congrArg MetricResult.value (Except.ok.inj a1)
    norm_num at this
    exact this.symm

example : ∃ m, offRouteNd exTwoMap = .ok m ∧ m.PerScenario [2] fun p => offRouteMetric (exTwoMap.scenario 1 3 p) :=
  C108_off_route exTwoMap_shaped (.inr rfl) exTwoMap_paths one_pos one_pos

example : ∃ m, progressionNd exTwoMap = .ok m ∧ m.PerScenario [2] fun p => progressionMetric (exTwoMap.scenario 1 3 p) :=
  C108_progression exTwoMap_shaped (.inr rfl) exTwoMap_paths one_pos one_pos

example : ∃ m, offroadNd exTwoMap = .ok m ∧ m.PerObject [2] 1 fun p => offroadMetric (exTwoMap.scenario 1 3 p) :=
  C108_offroad exTwoMap_shaped (.inr rfl) exTwoMap_roadgraph one_pos

example : ∃ m, overlapNd exTwoMap = .ok m ∧ m.PerObject [2] 1 fun p => .ok (overlapMetric (exTwoMap.scenario 1 3 p)) :=
  C108_overlap exTwoMap_shaped (.inr rfl)

example : ∃ m, logDivergenceNd exTwoMap = .ok m ∧ m.PerObject [2] 1 fun p => .ok (logDivergenceMetric (exTwoMap.scenario 1 3 p)) :=
  C108_log_divergence exTwoMap_shaped (.inr rfl)

example (K : KimParams) : ∃ m, kinematicsNd K { exTwo with timestep := Nd.scalar 1 } = .ok m :=
  C109_shared_step_partial (pre := [2]) (n := 1) (T := 3) K ⟨exTwo_shaped.sim, exTwo_shaped.log, exTwo_shaped.metadata⟩ rfl (by omega)

end Waymax
