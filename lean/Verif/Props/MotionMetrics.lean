import Verif.Props.Motion
import Verif.Props.Overlap
import Verif.Props.Metrics
import Verif.Props.Bicycle
/-
C143: the map frame has no influence on the metrics. C144: nor on the expert's actions.
-/

namespace Waymax

open Real

section
variable {n T : Nat} [NeZero T] {g : Motion} {s s' : SimState ℝ n T}

theorem Moved.cur (h : Moved g s s') (i : Fin n) :
    PtMoved g (dynIndex (s.simTrajectory i) s.timestep) (dynIndex (s'.simTrajectory i) s'.timestep) := by
  rw [h.clock]; exact h.sim i _

theorem Moved.curLog (h : Moved g s s') (i : Fin n) :
    PtMoved g (dynIndex (s.logTrajectory i) s.timestep) (dynIndex (s'.logTrajectory i) s'.timestep) := by
  rw [h.clock]; exact h.log i _

/-! ### Log divergence, overlap -/

/-- `log_divergence`. -/
theorem C143_log_divergence (h : Moved g s s') (i : Fin n) : SameResult (logDivergenceMetric s i) (logDivergenceMetric s' i) := by
  have hc := h.cur i
  have hl := h.curLog i
  refine ⟨by simp only [logDivergenceMetric, hc.valid, hl.valid], fun hv => ?_⟩
  simp only [logDivergenceMetric, Bool.and_eq_true] at hv ⊢
  have e1 := hc.position hv.1
  have e2 := hl.position hv.2
  rw [Prod.ext_iff] at e1 e2
  simp only at e1 e2
  rw [e1.1, e1.2, e2.1, e2.2]
  exact g.hypot_point (_, _) (_, _)

theorem pointAt_moved {p p' : Pt ℝ} (h : PtMoved g p p') (hv : p.valid = true) (u v : ℝ) :
    pointAt p'.x p'.y p'.yaw u v = g.point (pointAt p.x p.y p.yaw u v) := by
  have e := h.position hv
  have hy := h.yaw hv
  rw [Prod.ext_iff] at e
  simp only at e
  simp only [pointAt, heading, leftOf, e.1, e.2, hy.cos, hy.sin, Real.cos_add, Real.sin_add, Motion.point, Motion.vec, Prod.mk.injEq]
  constructor <;> ring

theorem hasOverlap_moved {p p' q q' : Pt ℝ} (hp : PtMoved g p p') (hq : PtMoved g q q') (vp : p.valid = true) (vq : q.valid = true) :
    hasOverlap p'.box q'.box ↔ hasOverlap p.box q.box := by
  rw [C25_overlap_exact, C25_overlap_exact]
  simp only [Pt.box, hp.length, hp.width, hq.length, hq.width]
  constructor
  · rintro ⟨x, ⟨u, v, hu, hv, h⟩, ⟨u', v', hu', hv', h'⟩⟩
    rw [pointAt_moved hp vp] at h
    rw [pointAt_moved hq vq] at h'
    exact ⟨_, ⟨u, v, hu, hv, rfl⟩, ⟨u', v', hu', hv', g.point_inj (by rw [← h, ← h'])⟩⟩
  · rintro ⟨x, ⟨u, v, hu, hv, h⟩, ⟨u', v', hu', hv', h'⟩⟩
    refine ⟨g.point x, ⟨u, v, hu, hv, ?_⟩, ⟨u', v', hu', hv', ?_⟩⟩
    · rw [pointAt_moved hp vp, ← h]
    · rw [pointAt_moved hq vq, ← h']

open Classical in
/-- `overlap`. -/
theorem C143_overlap (h : Moved g s s') (j : Fin n) : SameResult (overlapMetric s j) (overlapMetric s' j) := by
  refine ⟨(h.cur j).valid, fun hv => ?_⟩
  change (dynIndex (s.simTrajectory j) s.timestep).valid = true at hv
  have hsum : ∀ i, (computePairwiseOverlaps (fun k => (dynIndex (s'.simTrajectory k) s'.timestep).box) i j ∧
      (dynIndex (s'.simTrajectory i) s'.timestep).valid = true) ↔
      (computePairwiseOverlaps (fun k => (dynIndex (s.simTrajectory k) s.timestep).box) i j ∧
      (dynIndex (s.simTrajectory i) s.timestep).valid = true) := by
    intro i
    rw [(C26_pairwise _ i j).1, (C26_pairwise _ i j).1, (h.cur i).valid]
    refine and_congr_left fun hi => and_congr_right fun _ => hasOverlap_moved (h.cur i) (h.cur j) hi hv
  have hs := Finset.sum_congr rfl fun i (_ : i ∈ (Finset.univ : Finset (Fin n))) => if_congr (hsum i) (rfl : (1 : ℕ) = 1) (rfl : (0 : ℕ) = 0)
  simp only [overlapMetric, computeOverlap, hs]

/-! ### Kinematics -/

theorem window2_moved {x x' : Fin T → Pt ℝ} (h : ∀ t, PtMoved g (x t) (x' t)) (k : Int) :
    PtMoved g (window2 x k).1 (window2 x' k).1 ∧ PtMoved g (window2 x k).2 (window2 x' k).2 := by
  unfold window2
  split
  · exact ⟨h _, h _⟩
  · exact ⟨h _, h _⟩

/-- The heading of a turned velocity. -/
theorem arctan2_moved {vx vy vx' vy' : ℝ} (h : (vx', vy') = g.vec (vx, vy)) (h0 : norm2 (vx, vy) ≠ 0) :
    AnglesAgree (arctan2 vy' vx') (arctan2 vy vx + g.angle) := by
  have hpos : 0 < norm2 (vx, vy) := lt_of_le_of_ne (Real.sqrt_nonneg _) (Ne.symm h0)
  have ha := arctan2_heading vx vy
  have hv : g.vec (norm2 (vx, vy) * cos (arctan2 vy vx), norm2 (vx, vy) * sin (arctan2 vy vx)) =
      (norm2 (vx, vy) * cos (arctan2 vy vx + g.angle), norm2 (vx, vy) * sin (arctan2 vy vx + g.angle)) :=
    g.vec_heading (AnglesAgree.refl _) _
  rw [← ha.1, ← ha.2, ← h, Prod.mk.injEq] at hv
  rw [hv.1, hv.2]
  exact arctan2_agrees hpos

theorem inversePair_moved {p p' q q' : Pt ℝ} (hp : PtMoved g p p') (hq : PtMoved g q q') (vp : p.valid = true) (vq : q.valid = true)
    (dt : ℝ) (e : Bool) : bicycleInversePair dt e p' q' = bicycleInversePair dt e p q := by
  have h1 := hp.speed vp
  have h2 := hq.speed vq
  have hw : ∀ {a b c d : ℝ}, AnglesAgree a (b + g.angle) → AnglesAgree c (d + g.angle) → wrapYaws (a - c) = wrapYaws (b - d) := by
    rintro a b c d ⟨k, rfl⟩ ⟨l, rfl⟩
    refine AnglesAgree.wrap ⟨k - l, ?_⟩
    push_cast; ring
  have hyaw : ∀ {a b : ℝ}, AnglesAgree a (b + g.angle) → AnglesAgree (wrapYaws a) (wrapYaws b + g.angle) := fun {a b} h =>
    (wrap_agrees a).trans (h.trans ((wrap_agrees b).symm.add _))
  unfold bicycleInversePair
  simp only [h1, h2]
  have hd : wrapYaws ((if |√(q.velX ^ 2 + q.velY ^ 2)| ≤ 0.6 then wrapYaws q'.yaw else if e = true then arctan2 q'.velY q'.velX else wrapYaws q'.yaw) -
        wrapYaws p'.yaw) =
      wrapYaws ((if |√(q.velX ^ 2 + q.velY ^ 2)| ≤ 0.6 then wrapYaws q.yaw else if e = true then arctan2 q.velY q.velX else wrapYaws q.yaw) -
        wrapYaws p.yaw) := by
    refine hw ?_ (hyaw (hp.yaw vp))
    split
    · exact hyaw (hq.yaw vq)
    · rename_i hs
      split
      · refine arctan2_moved (hq.velocity vq) ?_
        intro h0
        change √(q.velX ^ 2 + q.velY ^ 2) = 0 at h0
        rw [h0] at hs
        norm_num at hs
      · exact hyaw (hq.yaw vq)
  rw [hd]

theorem computeInverse_moved {x x' : Fin T → Pt ℝ} (h : ∀ t, PtMoved g (x t) (x' t)) (k : Int) (dt : ℝ) :
    bicycleComputeInverse x' k dt = bicycleComputeInverse x k dt := by
  obtain ⟨h1, h2⟩ := window2_moved h k
  unfold bicycleComputeInverse
  simp only [h1.valid, h2.valid]
  cases hv : (window2 x k).1.valid && (window2 x k).2.valid
  · rfl
  · rw [Bool.and_eq_true] at hv
    simp only [if_true, inversePair_moved h1 h2 hv.1 hv.2]

/-- `kinematic_infeasibility`. -/
theorem C143_kinematics (K : KimParams) (h : Moved g s s') (i : Fin n) :
    kinematicsInfeasibilityMetric K s' i = kinematicsInfeasibilityMetric K s i := by
  unfold kinematicsInfeasibilityMetric
  rw [h.clock, computeInverse_moved (h.sim i)]

/-! ### Route metrics -/

theorem pathDist_moved (xy : ℝ × ℝ) (p : PathPoint ℝ) : pathDist (g.point xy) (g.pathPoint p) = pathDist xy p :=
  g.hypot_point xy (p.x, p.y)

theorem minOverPaths_moved (paths : List (SdcPath ℝ)) {d d' : SdcPath ℝ → PathPoint ℝ → WithTop ℝ}
    (h : ∀ path p, d' (g.path path) (g.pathPoint p) = d path p) :
    minOverPaths (paths.map g.path) d' = minOverPaths paths d := by
  unfold minOverPaths
  rw [List.flatMap_map]
  congr 1
  refine List.flatMap_congr fun path _ => ?_
  simp only [Motion.path, List.map_map]
  refine List.map_congr_left fun p _ => h path p

theorem noPathPoints_moved (paths : List (SdcPath ℝ)) : noPathPoints (paths.map g.path) = noPathPoints paths := by
  unfold noPathPoints
  rw [List.all_map]
  congr 1
  funext path
  simp [Motion.path]

/-- The SDC's current position, when it is present. -/
theorem sdcXy_moved (h : Moved g s s') {k : Fin n} (hk : IsTheSdc s k) (hv : (dynIndex (s.simTrajectory k) s.timestep).valid = true) :
    sdcXyCurrent s' = g.point (sdcXyCurrent s) := by
  unfold sdcXyCurrent
  rw [h.objects]
  rw [selectByOnehot_eq _ _ k hk, selectByOnehot_eq _ _ k hk, selectByOnehot_eq _ _ k hk, selectByOnehot_eq _ _ k hk]
  exact (h.cur k).position hv

theorem sdcValid_moved (h : Moved g s s') : sdcValidCurrent s' = sdcValidCurrent s := by
  unfold sdcValidCurrent
  rw [h.objects]
  simp only [fun i => (h.cur i).valid]

omit [NeZero T] in
theorem sdcLog_moved (h : Moved g s s') {k : Fin n} (hk : IsTheSdc s k) {t : Fin T} (hv : (s.logTrajectory k t).valid = true) :
    sdcXyLog s' t = g.point (sdcXyLog s t) := by
  unfold sdcXyLog
  rw [h.objects]
  rw [selectByOnehot_eq _ _ k hk, selectByOnehot_eq _ _ k hk, selectByOnehot_eq _ _ k hk, selectByOnehot_eq _ _ k hk]
  exact (h.log k t).position hv

/-- `sdc_wrongway`, when the SDC is present. -/
theorem C143_wrong_way (h : Moved g s s') {k : Fin n} (hk : IsTheSdc s k) (hv : (dynIndex (s.simTrajectory k) s.timestep).valid = true) :
    wrongWayMetric s' = wrongWayMetric s := by
  unfold wrongWayMetric
  rw [h.paths]
  cases s.sdcPaths with
  | none => rfl
  | some paths =>
    simp only [Option.map_some, noPathPoints_moved, sdcXy_moved h hk hv]
    rw [minOverPaths_moved (d := fun _ p => orInf p.valid (pathDist (sdcXyCurrent s) p)) paths fun path p => by
      rw [pathDist_moved]; rfl]

/-- `sdc_off_route`, when the SDC is present. -/
theorem C143_off_route (h : Moved g s s') {k : Fin n} (hk : IsTheSdc s k) (hv : (dynIndex (s.simTrajectory k) s.timestep).valid = true) :
    offRouteMetric s' = offRouteMetric s := by
  unfold offRouteMetric
  rw [h.paths]
  cases s.sdcPaths with
  | none => rfl
  | some paths =>
    simp only [Option.map_some, noPathPoints_moved, sdcXy_moved h hk hv, sdcValid_moved h]
    rw [minOverPaths_moved (d := fun path p => orInf (path.onRoute && (sdcValidCurrent s && p.valid)) (pathDist (sdcXyCurrent s) p))
      paths fun path p => by rw [pathDist_moved]; rfl,
      minOverPaths_moved (d := fun path p => orInf (!path.onRoute && (sdcValidCurrent s && p.valid)) (pathDist (sdcXyCurrent s) p))
      paths fun path p => by rw [pathDist_moved]; rfl]

theorem arclength_moved (xy : ℝ × ℝ) (path : SdcPath ℝ) : arclengthForPts (g.point xy) (g.path path) = arclengthForPts xy path := by
  have hl : (g.path path).points.map (fun p => orInf p.valid (pathDist (g.point xy) p)) =
      path.points.map fun p => orInf p.valid (pathDist xy p) := by
    simp only [Motion.path, List.map_map]
    refine List.map_congr_left fun p _ => ?_
    simp only [Function.comp, pathDist_moved]; rfl
  unfold arclengthForPts
  rw [hl]
  simp only [Motion.path, List.getElem?_map, Option.map_map]
  rfl

/-- `sdc_progression`, when the SDC is present now and in the first and last step of the log. -/
theorem C143_progression (h : Moved g s s') {k : Fin n} (hk : IsTheSdc s k)
    (hv : (dynIndex (s.simTrajectory k) s.timestep).valid = true)
    (hfirst : ∀ t : Fin T, t.val = 0 → (s.logTrajectory k t).valid = true)
    (hlast : ∀ t : Fin T, t.val = T - 1 → (s.logTrajectory k t).valid = true) :
    progressionMetric s' = progressionMetric s := by
  unfold progressionMetric
  rw [h.paths]
  cases s.sdcPaths with
  | none => rfl
  | some paths =>
    simp only [Option.map_some, noPathPoints_moved, sdcXy_moved h hk hv, sdcValid_moved h, sdcLog_moved h hk (hfirst ⟨0, _⟩ rfl),
      sdcLog_moved h hk (hlast ⟨T - 1, _⟩ rfl)]
    have hd : ∀ (path : SdcPath ℝ) (p : PathPoint ℝ),
        (if sdcValidCurrent s = true then orInf ((g.pathPoint p).valid && (g.path path).onRoute)
          (pathDist (g.point (sdcXyCurrent s)) (g.pathPoint p)) else ⊤) =
        if sdcValidCurrent s = true then orInf (p.valid && path.onRoute) (pathDist (sdcXyCurrent s) p) else ⊤ := by
      intro path p
      rw [pathDist_moved]; rfl
    rw [minOverPaths_moved (d := fun path p =>
      if sdcValidCurrent s = true then orInf (p.valid && path.onRoute) (pathDist (sdcXyCurrent s) p) else ⊤) paths hd]
    have hm : (paths.map g.path).map (fun path => listMin (path.points.map fun p =>
        if sdcValidCurrent s = true then orInf (p.valid && path.onRoute) (pathDist (g.point (sdcXyCurrent s)) p) else ⊤)) =
        paths.map fun path => listMin (path.points.map fun p =>
          if sdcValidCurrent s = true then orInf (p.valid && path.onRoute) (pathDist (sdcXyCurrent s) p) else ⊤) := by
      rw [List.map_map]
      refine List.map_congr_left fun path _ => ?_
      simp only [Function.comp]
      congr 1
      change (path.points.map g.pathPoint).map _ = _
      rw [List.map_map]
      exact List.map_congr_left fun p _ => hd path p
    rw [hm, List.getElem?_map]
    cases hx : paths[argmin (paths.map fun path => listMin (path.points.map fun p =>
          if sdcValidCurrent s = true then orInf (p.valid && path.onRoute) (pathDist (sdcXyCurrent s) p) else ⊤))]? with
    | none => rfl
    | some ref => simp only [Option.map_some, arclength_moved]

/-! ### Off-road -/

theorem cross_moved (v w : ℝ × ℝ) : cross2 (g.vec v) (g.vec w) = cross2 v w := by
  have h := Real.sin_sq_add_cos_sq g.angle
  simp only [cross2, Motion.vec]
  linear_combination (v.1 * w.2 - v.2 * w.1) * h

theorem signedDistance_moved (rg : List (RgPoint ℝ)) (q : ℝ × ℝ) (z st : ℝ) :
    signedDistanceToNearestRoadEdgePoint (rg.map g.road) (g.point q).1 (g.point q).2 z st =
      signedDistanceToNearestRoadEdgePoint rg q.1 q.2 z st := by
  have hsub : ∀ p : RgPoint ℝ, ((g.road p).x - (g.point q).1, (g.road p).y - (g.point q).2) = g.vec (p.x - q.1, p.y - q.2) :=
    fun p => g.point_sub (p.x, p.y) q
  have hsub' : ∀ p : RgPoint ℝ, ((g.point q).1 - (g.road p).x, (g.point q).2 - (g.road p).y) = g.vec (q.1 - p.x, q.2 - p.y) :=
    fun p => g.point_sub q (p.x, p.y)
  have hdist : (rg.map g.road).map (fun p => orInf (p.valid && isRoadEdge p.type)
        ((p.x - (g.point q).1) ^ 2 + (p.y - (g.point q).2) ^ 2 + ((p.z - z) * st) ^ 2)) =
      rg.map fun p => orInf (p.valid && isRoadEdge p.type) ((p.x - q.1) ^ 2 + (p.y - q.2) ^ 2 + ((p.z - z) * st) ^ 2) := by
    rw [List.map_map]
    refine List.map_congr_left fun p _ => ?_
    have := hsub p
    rw [Prod.ext_iff] at this
    simp only at this
    simp only [Function.comp]
    rw [this.1, this.2, g.vec_sq]
    rfl
  unfold signedDistanceToNearestRoadEdgePoint
  simp only [hdist, List.getElem?_map]
  generalize argmin (rg.map fun p => orInf (p.valid && isRoadEdge p.type) ((p.x - q.1) ^ 2 + (p.y - q.2) ^ 2 + ((p.z - z) * st) ^ 2)) = k
  cases rg[k]? with
  | none => simp
  | some pn =>
    cases rg[k - 1]? with
    | none => simp
    | some pp =>
      simp only [Option.map_some]
      have h1 : ∀ p : RgPoint ℝ, ((g.road p).dirX, (g.road p).dirY) = g.vec (p.dirX, p.dirY) := fun p => rfl
      have h2 := g.hypot_point (pn.x, pn.y) q
      have h3 : hypot ((g.road pn).x - (g.point q).1) ((g.road pn).y - (g.point q).2) = hypot (pn.x - q.1) (pn.y - q.2) := h2
      rw [hsub', h1, h1, cross_moved, cross_moved, h3]
      rfl

theorem corner_moved {p p' : Pt ℝ} (h : PtMoved g p p') (hv : p.valid = true) (k : Fin 4) :
    cornersFromBbox p'.box k = g.point (cornersFromBbox p.box k) := by
  have e := h.position hv
  have hy := h.yaw hv
  rw [Prod.ext_iff] at e
  simp only at e
  fin_cases k <;>
    simp [cornersFromBbox, Pt.box, e.1, e.2, hy.cos, hy.sin, Real.cos_add, Real.sin_add, Motion.point, Motion.vec, h.length, h.width] <;>
    constructor <;> ring

open Classical in
/-- `offroad`: the same failures, and the same result for every object that is present. -/
theorem C143_offroad (h : Moved g s s') :
    Both (fun r r' => ∀ i, (dynIndex (s.simTrajectory i) s.timestep).valid = true → r' i = r i) (offroadMetric s) (offroadMetric s') := by
  unfold offroadMetric
  rw [h.roadgraph]
  cases s.roadgraphPoints with
  | none => exact .error
  | some rg =>
    cases rg with
    | nil => exact .error
    | cons p rg =>
      refine .ok fun i hv => ?_
      have : isOffroad ((p :: rg).map g.road) (dynIndex (s'.simTrajectory i) s'.timestep) ↔
          isOffroad (p :: rg) (dynIndex (s.simTrajectory i) s.timestep) := by
        unfold isOffroad
        simp only [corner_moved (h.cur i) hv, signedDistance_moved, (h.cur i).z]
      simp only [List.map_cons] at this
      exact congrArg (fun v => (⟨v, true⟩ : MetricResult)) (if_congr this rfl rfl)

/-! ### C144: the expert -/

/-- Setting the state: the logged poses, moved, whenever the action is valid. -/
theorem C144_state (h : Moved g s s') (i : Fin n) :
    let a := (stateDynamics (n := n)).inverse s.logTrajectory s.objectMetadata s.timestep i
    let a' := (stateDynamics (n := n)).inverse s'.logTrajectory s'.objectMetadata s'.timestep i
    a'.valid = a.valid ∧ (a.valid = true → StateMoved g a.data a'.data) := by
  have hp := h.log i
  simp only [stateDynamics, stateInverse, h.clock]
  exact ⟨(hp _).valid, fun hv => ⟨(hp _).position hv, (hp _).velocity hv, (hp _).yaw hv⟩⟩

/-- Pedal and steering commands: identical in every frame, at every step and for every validity. -/
theorem C144_bicycle (P : BicycleParams) (h : Moved g s s') :
    (bicycle P (n := n)).inverse s'.logTrajectory s'.objectMetadata s'.timestep =
      (bicycle P (n := n)).inverse s.logTrajectory s.objectMetadata s.timestep := by
  funext i
  simp only [bicycle, DynamicsModel.ofSingle, bicycleInverse, h.clock, computeInverse_moved (h.log i)]

/-- An episode of the expert's own bicycle actions, computed from the log at the clock of each state, does not depend on the frame
either, as long as no controlled object enters after the warm-up: this is C142 with the actions of C144. -/
theorem C144_bicycle_actions (P : BicycleParams) (h : Moved g s s') :
    ActsMoved Eq ((bicycle P (n := n)).inverse s.logTrajectory s.objectMetadata s.timestep)
      ((bicycle P (n := n)).inverse s'.logTrajectory s'.objectMetadata s'.timestep) := by
  rw [C144_bicycle P h]
  exact fun i => ⟨rfl, rfl⟩

omit [NeZero T] in
/-- One step of the log in the two frames. -/
theorem step_moved (h : Moved g s s') (i : Fin n) {t t' : Fin T} (h1 : (s.logTrajectory i t).valid = true)
    (h2 : (s.logTrajectory i t').valid = true) :
    ((s'.logTrajectory i t').x - (s'.logTrajectory i t).x, (s'.logTrajectory i t').y - (s'.logTrajectory i t).y) =
      g.vec ((s.logTrajectory i t').x - (s.logTrajectory i t).x, (s.logTrajectory i t').y - (s.logTrajectory i t).y) ∧
    wrapYaws ((s'.logTrajectory i t').yaw - (s'.logTrajectory i t).yaw) =
      wrapYaws ((s.logTrajectory i t').yaw - (s.logTrajectory i t).yaw) := by
  constructor
  · have e1 := (h.log i t).position h1
    have e2 := (h.log i t').position h2
    have := g.point_sub ((s.logTrajectory i t').x, (s.logTrajectory i t').y) ((s.logTrajectory i t).x, (s.logTrajectory i t).y)
    rw [← e1, ← e2] at this
    exact this
  · obtain ⟨a, ha⟩ := (h.log i t).yaw h1
    obtain ⟨b, hb⟩ := (h.log i t').yaw h2
    refine AnglesAgree.wrap ⟨b - a, ?_⟩
    rw [ha, hb]; push_cast; ring

theorem abs_le_norm (u v : ℝ) : |u| ≤ √(u ^ 2 + v ^ 2) ∧ |v| ≤ √(u ^ 2 + v ^ 2) :=
  ⟨Real.abs_le_sqrt (by nlinarith [sq_nonneg v]), Real.abs_le_sqrt (by nlinarith [sq_nonneg u])⟩

/-- Displacements in map axes, full expectation: they are turned. -/
def DisplacementsTurn (n T : Nat) [NeZero T] : Prop :=
  ∀ (g : Motion) (P : DeltaParams) (s s' : SimState ℝ n T), 0 ≤ P.maxDx → 0 ≤ P.maxDy → Moved g s s' → ∀ i,
    DeltaMoved g ((deltaGlobal P (n := n)).inverse s.logTrajectory s.objectMetadata s.timestep i).data
      ((deltaGlobal P (n := n)).inverse s'.logTrajectory s'.objectMetadata s'.timestep i).data

/-- Displacements in map axes are turned if they are no longer than both limits, or if the frames are parallel. Missing: longer
displacements, which are cut off along the axes of the map (`C144_violated`). -/
theorem C144_displacement_partial (P : DeltaParams) (hx : 0 ≤ P.maxDx) (hy : 0 ≤ P.maxDy) (h : Moved g s s') (i : Fin n)
    {t t' : Fin T} (ht : (t : Int) = s.timestep) (htt : (t' : Nat) = t + 1)
    (hshort : (s.logTrajectory i t).valid = true → (s.logTrajectory i t').valid = true →
      (g.angle = 0 ∨ dist2 ((s.logTrajectory i t').x, (s.logTrajectory i t').y) ((s.logTrajectory i t).x, (s.logTrajectory i t).y) ≤
        min P.maxDx P.maxDy)) :
    DeltaMoved g ((deltaGlobal P (n := n)).inverse s.logTrajectory s.objectMetadata s.timestep i).data
      ((deltaGlobal P (n := n)).inverse s'.logTrajectory s'.objectMetadata s'.timestep i).data := by
  have hw := fun (x : Fin T → Pt ℝ) => window2_eq x htt
  simp only [deltaGlobal, DynamicsModel.ofSingle, deltaGlobalInverse, h.clock, ← ht]
  simp only [hw, (h.log i t).valid, (h.log i t').valid]
  by_cases hv : (s.logTrajectory i t).valid = true ∧ (s.logTrajectory i t').valid = true
  · have hvb : ((s.logTrajectory i t).valid && (s.logTrajectory i t').valid) = true := by rw [hv.1, hv.2]; rfl
    simp only [hvb, if_true, deltaClip]
    obtain ⟨hsub, hturn⟩ := step_moved h i hv.1 hv.2
    refine ⟨?_, hturn⟩
    simp only
    rw [Prod.ext_iff] at hsub
    simp only at hsub
    rw [hsub.1, hsub.2]
    rcases hshort hv.1 hv.2 with h0 | hs
    · simp [Motion.vec, h0]
    · have hs1 := le_min_iff.1 hs
      rw [clip_id_abs ((abs_le_norm _ _).1.trans hs1.1), clip_id_abs ((abs_le_norm _ _).2.trans hs1.2)]
      have hb := abs_le_norm (g.vec ((s.logTrajectory i t').x - (s.logTrajectory i t).x, (s.logTrajectory i t').y - (s.logTrajectory i t).y)).1
        (g.vec ((s.logTrajectory i t').x - (s.logTrajectory i t).x, (s.logTrajectory i t').y - (s.logTrajectory i t).y)).2
      rw [g.vec_sq] at hb
      rw [clip_id_abs (hb.1.trans hs1.1), clip_id_abs (hb.2.trans hs1.2)]
  · have hvb : ((s.logTrajectory i t).valid && (s.logTrajectory i t').valid) = false := by
      rw [Bool.eq_false_iff, Ne, Bool.and_eq_true]; exact hv
    simp only [hvb, Bool.false_eq_true, if_false, deltaClip]
    rw [clip_id (by linarith) hx, clip_id (by linarith) hy]
    exact ⟨by simp [Motion.vec], rfl⟩

/-- Displacements in the vehicle's axes are the same in every frame if the displacement is no longer than both limits. -/
theorem C144_local_partial (P : DeltaParams) (hx : 0 ≤ P.maxDx) (hy : 0 ≤ P.maxDy) (h : Moved g s s') (i : Fin n)
    {t t' : Fin T} (ht : (t : Int) = s.timestep) (htt : (t' : Nat) = t + 1)
    (hshort : (s.logTrajectory i t).valid = true → (s.logTrajectory i t').valid = true →
      dist2 ((s.logTrajectory i t').x, (s.logTrajectory i t').y) ((s.logTrajectory i t).x, (s.logTrajectory i t).y) ≤
        min P.maxDx P.maxDy) :
    (deltaLocal P (n := n)).inverse s'.logTrajectory s'.objectMetadata s'.timestep i =
      (deltaLocal P (n := n)).inverse s.logTrajectory s.objectMetadata s.timestep i := by
  have hg := C144_displacement_partial P hx hy h i ht htt fun h1 h2 => Or.inr (hshort h1 h2)
  have hw := fun (x : Fin T → Pt ℝ) => window2_eq x htt
  have hvalid : ((deltaGlobal P (n := n)).inverse s'.logTrajectory s'.objectMetadata s'.timestep i).valid =
      ((deltaGlobal P (n := n)).inverse s.logTrajectory s.objectMetadata s.timestep i).valid := by
    simp only [deltaGlobal, DynamicsModel.ofSingle, deltaGlobalInverse, h.clock, ← ht]
    simp only [hw, (h.log i t).valid, (h.log i t').valid]
  have hz : (s.logTrajectory i t).valid = false →
      ((deltaGlobal P (n := n)).inverse s.logTrajectory s.objectMetadata s.timestep i).data = { dx := 0, dy := 0, dyaw := 0 } := by
    intro hf
    rw [← ht]
    exact (C28_invalid P s.logTrajectory s.objectMetadata htt i hx hy).2 (by
      rw [Bool.eq_false_iff]
      intro hc
      have := ((C28_invalid P s.logTrajectory s.objectMetadata htt i hx hy).1.1 hc).1
      rw [hf] at this; cases this)
  have hcur : PtMoved g (dynIndex (s.logTrajectory i) s.timestep) (dynIndex (s'.logTrajectory i) s'.timestep) := h.curLog i
  have hct : dynIndex (s.logTrajectory i) s.timestep = s.logTrajectory i t := dynIndex_of_eq _ ht
  change deltaLocalInverse P (s'.logTrajectory i) s'.timestep = deltaLocalInverse P (s.logTrajectory i) s.timestep
  unfold deltaLocalInverse
  change DeltaMoved g (deltaGlobalInverse P (s.logTrajectory i) s.timestep).data (deltaGlobalInverse P (s'.logTrajectory i) s'.timestep).data at hg
  change (deltaGlobalInverse P (s'.logTrajectory i) s'.timestep).valid = (deltaGlobalInverse P (s.logTrajectory i) s.timestep).valid at hvalid
  change _ → (deltaGlobalInverse P (s.logTrajectory i) s.timestep).data = _ at hz
  simp only [hcur.valid, hvalid, hg.turn]
  generalize (deltaGlobalInverse P (s.logTrajectory i) s.timestep) = A at *
  generalize (deltaGlobalInverse P (s'.logTrajectory i) s'.timestep) = A' at *
  have hs := hg.shift
  rw [Prod.ext_iff] at hs
  simp only at hs
  have key : rotatePoints (rotationMatrix2d (-(dynIndex (s'.logTrajectory i) s'.timestep).yaw)) (A'.data.dx, A'.data.dy) =
      rotatePoints (rotationMatrix2d (-(dynIndex (s.logTrajectory i) s.timestep).yaw)) (A.data.dx, A.data.dy) := by
    cases hv : (s.logTrajectory i t).valid
    · have := hz hv
      rw [this] at hs ⊢
      simp only [Motion.vec, mul_zero, sub_zero, add_zero] at hs
      rw [hs.1, hs.2]
      simp [rotatePoints]
    · have hyaw := hcur.yaw (by rw [hct]; exact hv)
      rw [hs.1, hs.2]
      have hsc := Real.sin_sq_add_cos_sq g.angle
      simp only [rotatePoints, rotationMatrix2d, Matrix.cons_val', Matrix.cons_val_zero, Matrix.cons_val_one, Matrix.of_apply,
        Matrix.cons_val_fin_one, Real.cos_neg, Real.sin_neg, hyaw.cos, hyaw.sin, Real.cos_add, Real.sin_add, Motion.vec, Prod.mk.injEq]
      constructor
      · linear_combination (A.data.dx * Real.cos (dynIndex (s.logTrajectory i) s.timestep).yaw + A.data.dy * Real.sin (dynIndex (s.logTrajectory i) s.timestep).yaw) * hsc
      · linear_combination (-A.data.dx * Real.sin (dynIndex (s.logTrajectory i) s.timestep).yaw + A.data.dy * Real.cos (dynIndex (s.logTrajectory i) s.timestep).yaw) * hsc
  rw [key]

end

/-! ### Displacements are cut off along the axes of the map -/

/-- A car that goes 8 m in one step, in direction `e`. -/
noncomputable def fastScen (e yaw : ℝ) : SimState ℝ 1 2 :=
  { simTrajectory := fun _ _ => invalidPt, logTrajectory := fun _ t => if t = 0 then ptAt 0 0 yaw 0 0 else ptAt (8 * cos e) (8 * sin e) yaw 0 0
    logTrafficLight := [], objectMetadata := soloMeta, timestep := 0, sdcPaths := none, roadgraphPoints := none }

theorem fast_moved (a : ℝ) : Moved ⟨a, 0, 0⟩ (fastScen 0 0) (fastScen a a) := by
  refine ⟨fun i t => invalid_moved _, fun i t => ?_, rfl, rfl, rfl, rfl, rfl⟩
  simp only [fastScen]
  split
  · refine ⟨rfl, rfl, rfl, rfl, rfl, rfl, fun _ => ?_, fun _ => ?_, fun _ => ?_⟩
    · simp [ptAt, Motion.point, Motion.vec]
    · simp [ptAt, Motion.vec]
    · exact ⟨0, by simp [ptAt]⟩
  · refine ⟨rfl, rfl, rfl, rfl, rfl, rfl, fun _ => ?_, fun _ => ?_, fun _ => ?_⟩
    · simp [ptAt, Motion.point, Motion.vec, mul_comm]
    · simp [ptAt, Motion.vec]
    · exact ⟨0, by simp [ptAt]⟩

/-- C144: 8 m along the first axis are cut to 6 m; the same 8 m in a frame turned by 45 degrees are 5.66 m along each axis and stay. -/
theorem C144_violated : ¬ DisplacementsTurn 1 2 := by
  intro h
  have := (h ⟨π / 4, 0, 0⟩ {} (fastScen 0 0) (fastScen (π / 4) (π / 4)) (by norm_num) (by norm_num) (fast_moved _) 0).shift
  have hw := fun e => window2_eq ((fastScen e e).logTrajectory 0) (t := 0) (t' := 1) rfl
  have h0 : ∀ e, (fastScen e e).timestep = (((0 : Fin 2) : Nat) : Int) := fun e => rfl
  simp only [deltaGlobal, DynamicsModel.ofSingle, deltaGlobalInverse, h0, hw] at this
  simp only [fastScen, ptAt, deltaClip, Bool.and_self, if_true, if_false, one_ne_zero, sub_zero, cos_zero, sin_zero, mul_one, mul_zero,
    Real.cos_pi_div_four, Real.sin_pi_div_four, Motion.vec, Prod.mk.injEq] at this
  have h2 : √2 < 1.5 := by
    rw [Real.sqrt_lt' (by norm_num)]; norm_num
  have h2' : 1 < √2 := by
    rw [Real.lt_sqrt (by norm_num)]; norm_num
  have hc : clip (8 : ℝ) (-6) 6 = 6 := by
    unfold clip; norm_num
  have hc0 : clip (0 : ℝ) (-6) 6 = 0 := clip_id (by norm_num) (by norm_num)
  rw [clip_id (by linarith) (by linarith), hc, hc0] at this
  linarith [this.1]

/-! ### Examples -/

/-- Hypotheses of C143 and C144 met by the drive of `driveScen` and its quarter turn: the SDC is present everywhere. -/
example : IsTheSdc driveScen 0 ∧ (dynIndex (driveScen.simTrajectory 0) driveScen.timestep).valid = true ∧
    (∀ t : Fin 4, (driveScen.logTrajectory 0 t).valid = true) :=
  ⟨fun j => by fin_cases j; simp [driveScen, soloMeta], rfl, fun _ => rfl⟩

example : Both (fun r r' => ∀ i, (dynIndex (driveScen.simTrajectory i) driveScen.timestep).valid = true → r' i = r i)
    (offroadMetric { driveScen with roadgraphPoints := some [⟨0, 5, 0, 1, 0, 0, 15, 7, true⟩] })
    (offroadMetric { turnedScen with roadgraphPoints := some [quarterTurn.road ⟨0, 5, 0, 1, 0, 0, 15, 7, true⟩] }) :=
  C143_offroad (g := quarterTurn) (s := { driveScen with roadgraphPoints := some [⟨0, 5, 0, 1, 0, 0, 15, 7, true⟩] })
    { turned_moved with roadgraph := rfl }

/-- A step of 1 m is within the limits of the displacement actions. -/
example : dist2 ((driveScen.logTrajectory 0 1).x, (driveScen.logTrajectory 0 1).y)
    ((driveScen.logTrajectory 0 0).x, (driveScen.logTrajectory 0 0).y) ≤ min ({} : DeltaParams).maxDx ({} : DeltaParams).maxDy := by
  simp [driveScen, ptAt, dist2]

end Waymax
