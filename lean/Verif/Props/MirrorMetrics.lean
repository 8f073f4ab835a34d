import Verif.Props.Mirror
import Verif.Props.MotionMetrics
import Mathlib.Analysis.Real.Pi.Bounds
/-
C170: the metrics treat left and right alike. C171: so does the expert, except for exact half turns.
-/

namespace Waymax

open Real

section
variable {n T : Nat} [NeZero T] {s s' : SimState ℝ n T}

omit [NeZero T] in
theorem flip2_inj {p q : ℝ × ℝ} (h : flip2 p = flip2 q) : p = q := by
  obtain ⟨h1, h2⟩ := Prod.ext_iff.1 h
  exact Prod.ext h1 (neg_injective h2)

omit [NeZero T] in
theorem hypot_flip (p q : ℝ × ℝ) : hypot ((flip2 p).1 - (flip2 q).1) ((flip2 p).2 - (flip2 q).2) = hypot (p.1 - q.1) (p.2 - q.2) := by
  unfold hypot flip2
  simp only
  rw [show -p.2 - -q.2 = -(p.2 - q.2) by ring, neg_sq]

theorem Flipped.cur (h : Flipped s s') (i : Fin n) :
    PtFlipped (dynIndex (s.simTrajectory i) s.timestep) (dynIndex (s'.simTrajectory i) s'.timestep) := by
  rw [h.clock]; exact h.sim i _

theorem Flipped.curLog (h : Flipped s s') (i : Fin n) :
    PtFlipped (dynIndex (s.logTrajectory i) s.timestep) (dynIndex (s'.logTrajectory i) s'.timestep) := by
  rw [h.clock]; exact h.log i _

/-! ### Log divergence, overlap -/

/-- `log_divergence`. -/
theorem C170_log_divergence (h : Flipped s s') (i : Fin n) : SameResult (logDivergenceMetric s i) (logDivergenceMetric s' i) := by
  have hc := h.cur i
  have hl := h.curLog i
  refine ⟨by simp only [logDivergenceMetric, hc.valid, hl.valid], fun hv => ?_⟩
  simp only [logDivergenceMetric, Bool.and_eq_true] at hv ⊢
  have e1 := hc.position hv.1
  have e2 := hl.position hv.2
  rw [Prod.ext_iff] at e1 e2
  simp only at e1 e2
  rw [e1.1, e1.2, e2.1, e2.2]
  exact hypot_flip (_, _) (_, _)

theorem pointAt_flipped {p p' : Pt ℝ} (h : PtFlipped p p') (hv : p.valid = true) (u v : ℝ) :
    pointAt p'.x p'.y p'.yaw u v = flip2 (pointAt p.x p.y p.yaw u (-v)) := by
  obtain ⟨hx, hy⟩ := h.xy hv
  obtain ⟨hc, hs⟩ := flip_heading (h.yaw hv)
  simp only [pointAt, heading, leftOf, hx, hy, hc, hs, flip2, Prod.mk.injEq]
  constructor <;> ring

theorem hasOverlap_flipped {p p' q q' : Pt ℝ} (hp : PtFlipped p p') (hq : PtFlipped q q') (vp : p.valid = true) (vq : q.valid = true) :
    hasOverlap p'.box q'.box ↔ hasOverlap p.box q.box := by
  rw [C25_overlap_exact, C25_overlap_exact]
  simp only [Pt.box, hp.length, hp.width, hq.length, hq.width]
  constructor
  · rintro ⟨x, ⟨u, v, hu, hv, h⟩, ⟨u', v', hu', hv', h'⟩⟩
    rw [pointAt_flipped hp vp] at h
    rw [pointAt_flipped hq vq] at h'
    exact ⟨_, ⟨u, -v, hu, by rwa [abs_neg], rfl⟩, ⟨u', -v', hu', by rwa [abs_neg], flip2_inj (by rw [← h, ← h'])⟩⟩
  · rintro ⟨x, ⟨u, v, hu, hv, h⟩, ⟨u', v', hu', hv', h'⟩⟩
    refine ⟨flip2 x, ⟨u, -v, hu, by rwa [abs_neg], ?_⟩, ⟨u', -v', hu', by rwa [abs_neg], ?_⟩⟩
    · rw [pointAt_flipped hp vp, neg_neg, ← h]
    · rw [pointAt_flipped hq vq, neg_neg, ← h']

open Classical in
/-- `overlap`. -/
theorem C170_overlap (h : Flipped s s') (j : Fin n) : SameResult (overlapMetric s j) (overlapMetric s' j) := by
  refine ⟨(h.cur j).valid, fun hv => ?_⟩
  change (dynIndex (s.simTrajectory j) s.timestep).valid = true at hv
  have hsum : ∀ i, (computePairwiseOverlaps (fun k => (dynIndex (s'.simTrajectory k) s'.timestep).box) i j ∧
      (dynIndex (s'.simTrajectory i) s'.timestep).valid = true) ↔
      (computePairwiseOverlaps (fun k => (dynIndex (s.simTrajectory k) s.timestep).box) i j ∧
      (dynIndex (s.simTrajectory i) s.timestep).valid = true) := by
    intro i
    rw [(C26_pairwise _ i j).1, (C26_pairwise _ i j).1, (h.cur i).valid]
    refine and_congr_left fun hi => and_congr_right fun _ => hasOverlap_flipped (h.cur i) (h.cur j) hi hv
  have hs := Finset.sum_congr rfl fun i (_ : i ∈ (Finset.univ : Finset (Fin n))) => if_congr (hsum i) (rfl : (1 : ℕ) = 1) (rfl : (0 : ℕ) = 0)
  simp only [overlapMetric, computeOverlap, hs]

/-! ### Kinematics -/

theorem window2_flipped {x x' : Fin T → Pt ℝ} (h : ∀ t, PtFlipped (x t) (x' t)) (k : Int) :
    PtFlipped (window2 x k).1 (window2 x' k).1 ∧ PtFlipped (window2 x k).2 (window2 x' k).2 := by
  unfold window2
  split
  · exact ⟨h _, h _⟩
  · exact ⟨h _, h _⟩

omit [NeZero T] in
/-- Wrapping turns to the other side, except for half turns. -/
theorem wrap_neg (d : ℝ) : wrapYaws (-d) = -wrapYaws d ∨ wrapYaws (-d) = wrapYaws d ∧ AnglesAgree d π := by
  obtain ⟨h1, h2, k, hk⟩ := (C21_wrap_unique d _).1 rfl
  by_cases hpi : wrapYaws d = -π
  · right
    have ha : AnglesAgree d π := by
      refine (wrap_agrees d).symm.trans ?_
      rw [hpi]
      exact ⟨-1, by push_cast; ring⟩
    refine ⟨AnglesAgree.wrap (ha.neg.trans ?_), ha⟩
    refine AnglesAgree.trans ?_ ha.symm
    exact ⟨-1, by push_cast; ring⟩
  · left
    have hlt : -π < wrapYaws d := lt_of_le_of_ne h1 (Ne.symm hpi)
    exact ((C21_wrap_unique (-d) (-wrapYaws d)).2 ⟨by linarith, by linarith, -k, by rw [hk]; push_cast; ring⟩).symm

omit [NeZero T] in
/-- The direction of a mirrored velocity. -/
theorem arctan2_flipped {vx vy : ℝ} (h0 : norm2 (vx, vy) ≠ 0) : AnglesAgree (arctan2 (-vy) vx) (-arctan2 vy vx) := by
  have hpos : 0 < norm2 (vx, vy) := lt_of_le_of_ne (Real.sqrt_nonneg _) (Ne.symm h0)
  obtain ⟨a1, a2⟩ := arctan2_heading vx vy
  have := arctan2_agrees (yaw := -arctan2 vy vx) hpos
  rw [Real.sin_neg, Real.cos_neg, mul_neg, ← a1, ← a2] at this
  exact this

omit [NeZero T] in
/-- The command inferred from two steps: the same acceleration, and steering to the other side unless the heading makes an exact half
turn; then it is the same steering. -/
theorem inversePair_flipped {p p' q q' : Pt ℝ} (hp : PtFlipped p p') (hq : PtFlipped q q') (vp : p.valid = true) (vq : q.valid = true)
    (dt : ℝ) (e : Bool) :
    (bicycleInversePair dt e p' q').accel = (bicycleInversePair dt e p q).accel ∧
    ((bicycleInversePair dt e p' q').steering = -(bicycleInversePair dt e p q).steering ∨
     (bicycleInversePair dt e p' q').steering = (bicycleInversePair dt e p q).steering ∧
      AnglesAgree ((if |√(q.velX ^ 2 + q.velY ^ 2)| ≤ 0.6 then q.yaw else if e = true then arctan2 q.velY q.velX else q.yaw) - p.yaw) π) := by
  have h1 := hp.speed vp
  have h2 := hq.speed vq
  have hyaw : ∀ {a b : ℝ}, AnglesAgree a (-b) → AnglesAgree (wrapYaws a) (-wrapYaws b) := fun {a b} h =>
    (wrap_agrees a).trans (h.trans (wrap_agrees b).symm.neg)
  have hn : AnglesAgree (if |√(q.velX ^ 2 + q.velY ^ 2)| ≤ 0.6 then wrapYaws q'.yaw else if e = true then arctan2 q'.velY q'.velX else wrapYaws q'.yaw)
      (-(if |√(q.velX ^ 2 + q.velY ^ 2)| ≤ 0.6 then wrapYaws q.yaw else if e = true then arctan2 q.velY q.velX else wrapYaws q.yaw)) := by
    split
    · exact hyaw (hq.yaw vq)
    · rename_i hs
      split
      · rw [(hq.vel vq).1, (hq.vel vq).2]
        refine arctan2_flipped fun h0 => ?_
        change √(q.velX ^ 2 + q.velY ^ 2) = 0 at h0
        rw [h0] at hs
        norm_num at hs
      · exact hyaw (hq.yaw vq)
  have hr : AnglesAgree (if |√(q.velX ^ 2 + q.velY ^ 2)| ≤ 0.6 then wrapYaws q.yaw else if e = true then arctan2 q.velY q.velX else wrapYaws q.yaw)
      (if |√(q.velX ^ 2 + q.velY ^ 2)| ≤ 0.6 then q.yaw else if e = true then arctan2 q.velY q.velX else q.yaw) := by
    split
    · exact wrap_agrees _
    · split
      · exact .refl _
      · exact wrap_agrees _
  have hyp := hyaw (hp.yaw vp)
  have hyp2 := wrap_agrees p.yaw
  unfold bicycleInversePair
  simp only [h1, h2]
  generalize (if |√(q.velX ^ 2 + q.velY ^ 2)| ≤ 0.6 then wrapYaws q'.yaw else if e = true then arctan2 q'.velY q'.velX else wrapYaws q'.yaw) = u' at *
  generalize (if |√(q.velX ^ 2 + q.velY ^ 2)| ≤ 0.6 then wrapYaws q.yaw else if e = true then arctan2 q.velY q.velX else wrapYaws q.yaw) = u at *
  generalize (if |√(q.velX ^ 2 + q.velY ^ 2)| ≤ 0.6 then q.yaw else if e = true then arctan2 q.velY q.velX else q.yaw) = r at *
  generalize wrapYaws p'.yaw = w' at *
  generalize wrapYaws p.yaw = w at *
  have hd : wrapYaws (u' - w') = wrapYaws (-(u - w)) := by
    obtain ⟨k, rfl⟩ := hn
    obtain ⟨l, rfl⟩ := hyp
    refine AnglesAgree.wrap ⟨k - l, ?_⟩
    push_cast; ring
  rw [hd]
  refine ⟨trivial, ?_⟩
  rcases wrap_neg (u - w) with h | ⟨h, ha⟩
  · left
    rw [h]
    split
    · simp
    · split
      · simp
      · rw [neg_div]
  · right
    rw [h]
    refine ⟨rfl, ?_⟩
    obtain ⟨k, rfl⟩ := hr
    obtain ⟨l, rfl⟩ := hyp2
    obtain ⟨m, hm⟩ := ha
    exact ⟨m - k + l, by push_cast; push_cast at hm; linarith⟩

/-- The same for the command at a step of a trajectory. -/
theorem computeInverse_flipped {x x' : Fin T → Pt ℝ} (h : ∀ t, PtFlipped (x t) (x' t)) (k : Int) (dt : ℝ) :
    (bicycleComputeInverse x' k dt).valid = (bicycleComputeInverse x k dt).valid ∧
    (bicycleComputeInverse x' k dt).data.accel = (bicycleComputeInverse x k dt).data.accel ∧
    |(bicycleComputeInverse x' k dt).data.steering| = |(bicycleComputeInverse x k dt).data.steering| := by
  obtain ⟨h1, h2⟩ := window2_flipped h k
  unfold bicycleComputeInverse
  simp only [h1.valid, h2.valid]
  cases hv : (window2 x k).1.valid && (window2 x k).2.valid
  · simp
  · rw [Bool.and_eq_true] at hv
    obtain ⟨e1, e2⟩ := inversePair_flipped h1 h2 hv.1 hv.2 dt true
    simp only [if_true]
    refine ⟨trivial, e1, ?_⟩
    rcases e2 with e2 | ⟨e2, -⟩ <;> rw [e2]
    exact abs_neg _

/-- `kinematic_infeasibility`. -/
theorem C170_kinematics (K : KimParams) (h : Flipped s s') (i : Fin n) :
    kinematicsInfeasibilityMetric K s' i = kinematicsInfeasibilityMetric K s i := by
  obtain ⟨e1, e2, e3⟩ := computeInverse_flipped (h.sim i) (s.timestep - 1) K.dt
  unfold kinematicsInfeasibilityMetric
  rw [h.clock]
  simp only [e1, e2, e3]

/-! ### Route metrics -/

theorem pathDist_flipped (xy : ℝ × ℝ) (p : PathPoint ℝ) : pathDist (flip2 xy) (flipPathPoint p) = pathDist xy p :=
  hypot_flip xy (p.x, p.y)

theorem minOverPaths_flipped (paths : List (SdcPath ℝ)) {d d' : SdcPath ℝ → PathPoint ℝ → WithTop ℝ}
    (h : ∀ path p, d' (flipPath path) (flipPathPoint p) = d path p) :
    minOverPaths (paths.map flipPath) d' = minOverPaths paths d := by
  unfold minOverPaths
  rw [List.flatMap_map]
  congr 1
  refine List.flatMap_congr fun path _ => ?_
  simp only [flipPath, List.map_map]
  refine List.map_congr_left fun p _ => h path p

theorem noPathPoints_flipped (paths : List (SdcPath ℝ)) : noPathPoints (paths.map flipPath) = noPathPoints paths := by
  unfold noPathPoints
  rw [List.all_map]
  congr 1
  funext path
  simp [flipPath]

/-- The SDC's current position, when it is present. -/
theorem sdcXy_flipped (h : Flipped s s') {k : Fin n} (hk : IsTheSdc s k) (hv : (dynIndex (s.simTrajectory k) s.timestep).valid = true) :
    sdcXyCurrent s' = flip2 (sdcXyCurrent s) := by
  unfold sdcXyCurrent
  rw [h.objects]
  rw [selectByOnehot_eq _ _ k hk, selectByOnehot_eq _ _ k hk, selectByOnehot_eq _ _ k hk, selectByOnehot_eq _ _ k hk]
  exact (h.cur k).position hv

theorem sdcValid_flipped (h : Flipped s s') : sdcValidCurrent s' = sdcValidCurrent s := by
  unfold sdcValidCurrent
  rw [h.objects]
  simp only [fun i => (h.cur i).valid]

omit [NeZero T] in
theorem sdcLog_flipped (h : Flipped s s') {k : Fin n} (hk : IsTheSdc s k) {t : Fin T} (hv : (s.logTrajectory k t).valid = true) :
    sdcXyLog s' t = flip2 (sdcXyLog s t) := by
  unfold sdcXyLog
  rw [h.objects]
  rw [selectByOnehot_eq _ _ k hk, selectByOnehot_eq _ _ k hk, selectByOnehot_eq _ _ k hk, selectByOnehot_eq _ _ k hk]
  exact (h.log k t).position hv

/-- `sdc_wrongway`, when the SDC is present. -/
theorem C170_wrong_way (h : Flipped s s') {k : Fin n} (hk : IsTheSdc s k) (hv : (dynIndex (s.simTrajectory k) s.timestep).valid = true) :
    wrongWayMetric s' = wrongWayMetric s := by
  unfold wrongWayMetric
  rw [h.paths]
  cases s.sdcPaths with
  | none => rfl
  | some paths =>
    simp only [Option.map_some, noPathPoints_flipped, sdcXy_flipped h hk hv]
    rw [minOverPaths_flipped (d := fun _ p => orInf p.valid (pathDist (sdcXyCurrent s) p)) paths fun path p => by
      rw [pathDist_flipped]; rfl]

/-- `sdc_off_route`, when the SDC is present. -/
theorem C170_off_route (h : Flipped s s') {k : Fin n} (hk : IsTheSdc s k) (hv : (dynIndex (s.simTrajectory k) s.timestep).valid = true) :
    offRouteMetric s' = offRouteMetric s := by
  unfold offRouteMetric
  rw [h.paths]
  cases s.sdcPaths with
  | none => rfl
  | some paths =>
    simp only [Option.map_some, noPathPoints_flipped, sdcXy_flipped h hk hv, sdcValid_flipped h]
    rw [minOverPaths_flipped (d := fun path p => orInf (path.onRoute && (sdcValidCurrent s && p.valid)) (pathDist (sdcXyCurrent s) p))
      paths fun path p => by rw [pathDist_flipped]; rfl,
      minOverPaths_flipped (d := fun path p => orInf (!path.onRoute && (sdcValidCurrent s && p.valid)) (pathDist (sdcXyCurrent s) p))
      paths fun path p => by rw [pathDist_flipped]; rfl]

theorem arclength_flipped (xy : ℝ × ℝ) (path : SdcPath ℝ) : arclengthForPts (flip2 xy) (flipPath path) = arclengthForPts xy path := by
  have hl : (flipPath path).points.map (fun p => orInf p.valid (pathDist (flip2 xy) p)) =
      path.points.map fun p => orInf p.valid (pathDist xy p) := by
    simp only [flipPath, List.map_map]
    refine List.map_congr_left fun p _ => ?_
    simp only [Function.comp, pathDist_flipped]; rfl
  unfold arclengthForPts
  rw [hl]
  simp only [flipPath, List.getElem?_map, Option.map_map]
  rfl

/-- `sdc_progression`, when the SDC is present now and in the first and last step of the log. -/
theorem C170_progression (h : Flipped s s') {k : Fin n} (hk : IsTheSdc s k)
    (hv : (dynIndex (s.simTrajectory k) s.timestep).valid = true)
    (hfirst : ∀ t : Fin T, t.val = 0 → (s.logTrajectory k t).valid = true)
    (hlast : ∀ t : Fin T, t.val = T - 1 → (s.logTrajectory k t).valid = true) :
    progressionMetric s' = progressionMetric s := by
  unfold progressionMetric
  rw [h.paths]
  cases s.sdcPaths with
  | none => rfl
  | some paths =>
    simp only [Option.map_some, noPathPoints_flipped, sdcXy_flipped h hk hv, sdcValid_flipped h, sdcLog_flipped h hk (hfirst ⟨0, _⟩ rfl),
      sdcLog_flipped h hk (hlast ⟨T - 1, _⟩ rfl)]
    have hd : ∀ (path : SdcPath ℝ) (p : PathPoint ℝ),
        (if sdcValidCurrent s = true then orInf ((flipPathPoint p).valid && (flipPath path).onRoute)
          (pathDist (flip2 (sdcXyCurrent s)) (flipPathPoint p)) else ⊤) =
        if sdcValidCurrent s = true then orInf (p.valid && path.onRoute) (pathDist (sdcXyCurrent s) p) else ⊤ := by
      intro path p
      rw [pathDist_flipped]; rfl
    rw [minOverPaths_flipped (d := fun path p =>
      if sdcValidCurrent s = true then orInf (p.valid && path.onRoute) (pathDist (sdcXyCurrent s) p) else ⊤) paths hd]
    have hm : (paths.map flipPath).map (fun path => listMin (path.points.map fun p =>
        if sdcValidCurrent s = true then orInf (p.valid && path.onRoute) (pathDist (flip2 (sdcXyCurrent s)) p) else ⊤)) =
        paths.map fun path => listMin (path.points.map fun p =>
          if sdcValidCurrent s = true then orInf (p.valid && path.onRoute) (pathDist (sdcXyCurrent s) p) else ⊤) := by
      rw [List.map_map]
      refine List.map_congr_left fun path _ => ?_
      simp only [Function.comp]
      congr 1
      change (path.points.map flipPathPoint).map _ = _
      rw [List.map_map]
      exact List.map_congr_left fun p _ => hd path p
    rw [hm, List.getElem?_map]
    cases hx : paths[argmin (paths.map fun path => listMin (path.points.map fun p =>
          if sdcValidCurrent s = true then orInf (p.valid && path.onRoute) (pathDist (sdcXyCurrent s) p) else ⊤))]? with
    | none => rfl
    | some ref => simp only [Option.map_some, arclength_flipped]

/-! ### Off-road -/

omit [NeZero T] in
theorem cross_flipped (v : ℝ × ℝ) (dx dy : ℝ) : cross2 (flip2 v) (-dx, dy) = cross2 v (dx, dy) := by
  simp only [cross2, flip2]
  ring

omit [NeZero T] in
theorem signedDistance_flipped (rg : List (RgPoint ℝ)) (q : ℝ × ℝ) (z st : ℝ) :
    signedDistanceToNearestRoadEdgePoint (rg.map flipRoad) (flip2 q).1 (flip2 q).2 z st =
      signedDistanceToNearestRoadEdgePoint rg q.1 q.2 z st := by
  have hdist : (rg.map flipRoad).map (fun p => orInf (p.valid && isRoadEdge p.type)
        ((p.x - (flip2 q).1) ^ 2 + (p.y - (flip2 q).2) ^ 2 + ((p.z - z) * st) ^ 2)) =
      rg.map fun p => orInf (p.valid && isRoadEdge p.type) ((p.x - q.1) ^ 2 + (p.y - q.2) ^ 2 + ((p.z - z) * st) ^ 2) := by
    rw [List.map_map]
    refine List.map_congr_left fun p _ => ?_
    simp only [Function.comp, flipRoad, flip2]
    rw [show -p.y - -q.2 = -(p.y - q.2) by ring, neg_sq]
  unfold signedDistanceToNearestRoadEdgePoint
  simp only [hdist, List.getElem?_map]
  generalize argmin (rg.map fun p => orInf (p.valid && isRoadEdge p.type) ((p.x - q.1) ^ 2 + (p.y - q.2) ^ 2 + ((p.z - z) * st) ^ 2)) = k
  cases rg[k]? with
  | none => simp
  | some pn =>
    cases rg[k - 1]? with
    | none => simp
    | some pp =>
      simp only [Option.map_some]
      have hsub : ∀ p : RgPoint ℝ, ((flip2 q).1 - (flipRoad p).x, (flip2 q).2 - (flipRoad p).y) = flip2 (q.1 - p.x, q.2 - p.y) := fun p => by
        simp only [flip2, flipRoad, Prod.mk.injEq, true_and]; ring
      have h1 : ∀ p : RgPoint ℝ, ((flipRoad p).dirX, (flipRoad p).dirY) = (-p.dirX, p.dirY) := fun p => rfl
      have h3 : hypot ((flipRoad pn).x - (flip2 q).1) ((flipRoad pn).y - (flip2 q).2) = hypot (pn.x - q.1) (pn.y - q.2) :=
        hypot_flip (pn.x, pn.y) q
      rw [hsub, h1, h1, cross_flipped, cross_flipped, h3]
      rfl

/-- The corners of a mirrored box, in another order. -/
def cornerSwap : Fin 4 → Fin 4 := ![1, 0, 3, 2]

omit [NeZero T] in
theorem corner_flipped {p p' : Pt ℝ} (h : PtFlipped p p') (hv : p.valid = true) (k : Fin 4) :
    cornersFromBbox p'.box k = flip2 (cornersFromBbox p.box (cornerSwap k)) := by
  obtain ⟨hx, hy⟩ := h.xy hv
  obtain ⟨hc, hs⟩ := flip_heading (h.yaw hv)
  fin_cases k <;>
    simp [cornersFromBbox, cornerSwap, Pt.box, hx, hy, hc, hs, flip2, h.length, h.width] <;>
    (try constructor) <;> ring

open Classical in
/-- `offroad`: the same failures, and the same result for every object that is present. -/
theorem C170_offroad (h : Flipped s s') :
    Both (fun r r' => ∀ i, (dynIndex (s.simTrajectory i) s.timestep).valid = true → r' i = r i) (offroadMetric s) (offroadMetric s') := by
  unfold offroadMetric
  rw [h.roadgraph]
  cases s.roadgraphPoints with
  | none => exact .error
  | some rg =>
    cases rg with
    | nil => exact .error
    | cons p rg =>
      refine .ok fun i hv => ?_
      have : isOffroad ((p :: rg).map flipRoad) (dynIndex (s'.simTrajectory i) s'.timestep) ↔
          isOffroad (p :: rg) (dynIndex (s.simTrajectory i) s.timestep) := by
        unfold isOffroad
        simp only [corner_flipped (h.cur i) hv, signedDistance_flipped, (h.cur i).z]
        constructor
        · rintro ⟨k, d, hd⟩
          exact ⟨cornerSwap k, d, hd⟩
        · rintro ⟨k, d, hd⟩
          refine ⟨cornerSwap k, d, ?_⟩
          rwa [show cornerSwap (cornerSwap k) = k by fin_cases k <;> rfl]
      simp only [List.map_cons] at this
      exact congrArg (fun v => (⟨v, true⟩ : MetricResult)) (if_congr this rfl rfl)

omit [NeZero T] in
/-- The reversal of the edges matters. If a single road edge is mirrored as it is drawn, without reversing it, then the signed distance
changes its sign: what was off the road is now on it. -/
theorem C170_edge_not_reversed (p : RgPoint ℝ) (q : ℝ × ℝ) (z st : ℝ) :
    signedDistanceToNearestRoadEdgePoint [{ p with y := -p.y, dirX := p.dirX, dirY := -p.dirY }] (flip2 q).1 (flip2 q).2 z st =
      (signedDistanceToNearestRoadEdgePoint [p] q.1 q.2 z st).map fun d => -d := by
  have hz : ∀ a : WithTop ℝ, argmin [a] = 0 := fun a => rfl
  unfold signedDistanceToNearestRoadEdgePoint
  simp only [List.map_cons, List.map_nil, hz, Nat.zero_sub, List.getElem?_cons_zero, Option.map_some, lt_irrefl, and_false, if_false]
  have hc : cross2 ((flip2 q).1 - p.x, (flip2 q).2 - -p.y) (p.dirX, -p.dirY) = -cross2 (q.1 - p.x, q.2 - p.y) (p.dirX, p.dirY) := by
    simp only [cross2, flip2]; ring
  have hh : hypot (p.x - (flip2 q).1) (-p.y - (flip2 q).2) = hypot (p.x - q.1) (p.y - q.2) := by
    simp only [flip2, hypot]
    rw [show -p.y - -q.2 = -(p.y - q.2) by ring, neg_sq]
  rw [hc, hh]
  generalize cross2 (q.1 - p.x, q.2 - p.y) (p.dirX, p.dirY) = c
  rcases lt_trichotomy c 0 with h | h | h
  · rw [if_pos (by linarith), if_neg (by linarith), if_pos h]; simp
  · subst h; simp
  · rw [if_neg (by linarith), if_pos (by linarith), if_pos h]; simp

/-! ### C171: the expert -/

/-- Setting the state: the logged poses, mirrored, whenever the action is valid. -/
theorem C171_state (h : Flipped s s') (i : Fin n) :
    let a := (stateDynamics (n := n)).inverse s.logTrajectory s.objectMetadata s.timestep i
    let a' := (stateDynamics (n := n)).inverse s'.logTrajectory s'.objectMetadata s'.timestep i
    a'.valid = a.valid ∧ (a.valid = true → StateFlipped a.data a'.data) := by
  have hp := h.log i
  simp only [stateDynamics, stateInverse, h.clock]
  exact ⟨(hp _).valid, fun hv => ⟨(hp _).position hv, (hp _).velocity hv, (hp _).yaw hv⟩⟩

omit [NeZero T] in
theorem clip_flipped {P : BicycleParams} (hP : 0 ≤ P.maxSteering) {a a' : AccelSteer} (h : SteerFlipped a a') :
    SteerFlipped (bicycleClip P a) (bicycleClip P a') := by
  have hb : 0 ≤ P.steeringBound := by
    unfold BicycleParams.steeringBound
    split
    · exact zero_le_one
    · exact hP
  exact ⟨by simp only [bicycleClip, h.accel], by simp only [bicycleClip, h.steering, clip_neg hb]⟩

/-- Pedal and steering commands: steering to the other side, unless the heading makes an exact half turn. Missing: exact half turns,
`C171_violated`. -/
theorem C171_bicycle_partial {P : BicycleParams} (hP : 0 ≤ P.maxSteering) (h : Flipped s s') (i : Fin n) {t t' : Fin T}
    (ht : (t : Int) = s.timestep) (htt : (t' : Nat) = t + 1)
    (hturn : ¬ AnglesAgree (courseOf (s.logTrajectory i t') - (s.logTrajectory i t).yaw) π) :
    let a := (bicycle P (n := n)).inverse s.logTrajectory s.objectMetadata s.timestep i
    let a' := (bicycle P (n := n)).inverse s'.logTrajectory s'.objectMetadata s'.timestep i
    a'.valid = a.valid ∧ SteerFlipped a.data a'.data := by
  have hw := fun (x : Fin T → Pt ℝ) => window2_eq x htt
  simp only [bicycle, DynamicsModel.ofSingle, bicycleInverse, h.clock, ← ht]
  have key : SteerFlipped (bicycleComputeInverse (s.logTrajectory i) t P.dt).data (bicycleComputeInverse (s'.logTrajectory i) t P.dt).data := by
    unfold bicycleComputeInverse
    simp only [hw, (h.log i t).valid, (h.log i t').valid]
    cases hv : (s.logTrajectory i t).valid && (s.logTrajectory i t').valid
    · exact ⟨rfl, by simp⟩
    · rw [Bool.and_eq_true] at hv
      obtain ⟨e1, e2⟩ := inversePair_flipped (h.log i t) (h.log i t') hv.1 hv.2 P.dt true
      simp only [if_true]
      refine ⟨e1, e2.resolve_right fun e => hturn ?_⟩
      have e' := e.2
      simp only [if_true, abs_of_nonneg (Real.sqrt_nonneg _)] at e'
      exact e'
  refine ⟨(computeInverse_flipped (h.log i) _ _).1, clip_flipped hP ?_⟩
  split
  · exact ⟨by simp only [key.accel], by simp only [key.steering, neg_div]⟩
  · exact key

/-- Displacements in map axes: mirrored whatever their size, unless the heading makes an exact half turn. -/
theorem C171_displacement_partial {P : DeltaParams} (hx : 0 ≤ P.maxDx) (hy : 0 ≤ P.maxDy) (h : Flipped s s') (i : Fin n) {t t' : Fin T}
    (ht : (t : Int) = s.timestep) (htt : (t' : Nat) = t + 1) (hturn : ¬ AnglesAgree ((s.logTrajectory i t').yaw - (s.logTrajectory i t).yaw) π) :
    let a := (deltaGlobal P (n := n)).inverse s.logTrajectory s.objectMetadata s.timestep i
    let a' := (deltaGlobal P (n := n)).inverse s'.logTrajectory s'.objectMetadata s'.timestep i
    a'.valid = a.valid ∧ DeltaFlipped a.data a'.data := by
  have hw := fun (x : Fin T → Pt ℝ) => window2_eq x htt
  simp only [deltaGlobal, DynamicsModel.ofSingle, deltaGlobalInverse, h.clock, ← ht]
  simp only [hw, (h.log i t).valid, (h.log i t').valid]
  refine ⟨trivial, ?_⟩
  cases hv : (s.logTrajectory i t).valid && (s.logTrajectory i t').valid
  · simp only [Bool.false_eq_true, if_false, deltaClip]
    rw [clip_id (by linarith) hx, clip_id (by linarith) hy]
    refine ⟨by simp [flip2], ?_⟩
    have : wrapYaws 0 = 0 := ((C21_wrap_unique 0 0).2 ⟨by linarith [Real.pi_pos], Real.pi_pos, 0, by simp⟩).symm
    simp only [this, neg_zero]
  · rw [Bool.and_eq_true] at hv
    obtain ⟨x1, y1⟩ := (h.log i t).xy hv.1
    obtain ⟨x2, y2⟩ := (h.log i t').xy hv.2
    simp only [if_true, deltaClip]
    refine ⟨Prod.ext ?_ ?_, ?_⟩
    · simp only [flip2, x1, x2]
    · simp only [flip2, y1, y2]
      rw [← clip_neg hy]
      congr 1
      ring
    · obtain ⟨a, ha⟩ := (h.log i t).yaw hv.1
      obtain ⟨b, hb⟩ := (h.log i t').yaw hv.2
      have : wrapYaws ((s'.logTrajectory i t').yaw - (s'.logTrajectory i t).yaw) = wrapYaws (-((s.logTrajectory i t').yaw - (s.logTrajectory i t).yaw)) := by
        refine AnglesAgree.wrap ⟨b - a, ?_⟩
        rw [ha, hb]; push_cast; ring
      rw [this]
      exact (wrap_neg _).resolve_right fun e => hturn e.2

/-- Displacements in the vehicle's axes: left becomes right, unless the heading makes an exact half turn. -/
theorem C171_local_partial {P : DeltaParams} (hx : 0 ≤ P.maxDx) (hy : 0 ≤ P.maxDy) (h : Flipped s s') (i : Fin n) {t t' : Fin T}
    (ht : (t : Int) = s.timestep) (htt : (t' : Nat) = t + 1) (hturn : ¬ AnglesAgree ((s.logTrajectory i t').yaw - (s.logTrajectory i t).yaw) π) :
    let a := (deltaLocal P (n := n)).inverse s.logTrajectory s.objectMetadata s.timestep i
    let a' := (deltaLocal P (n := n)).inverse s'.logTrajectory s'.objectMetadata s'.timestep i
    a'.valid = a.valid ∧ (a.valid = true → DeltaFlipped a.data a'.data) := by
  have hg := C171_displacement_partial hx hy h i ht htt hturn
  simp only [deltaGlobal, DynamicsModel.ofSingle] at hg
  obtain ⟨hgv, hgd⟩ := hg
  obtain ⟨sx, sy⟩ := Prod.ext_iff.1 hgd.shift
  have hst := hgd.turn
  have hc : ∀ x : Fin T → Pt ℝ, dynIndex x s.timestep = x t := fun x => dynIndex_of_eq x ht
  have hturn2 : ¬ AnglesAgree (deltaGlobalInverse P (s.logTrajectory i) s.timestep).data.dyaw π ∨
      (deltaGlobalInverse P (s.logTrajectory i) s.timestep).valid = false := by
    unfold deltaGlobalInverse
    rw [← ht]
    simp only [window2_eq _ htt]
    cases hv : (s.logTrajectory i t).valid && (s.logTrajectory i t').valid
    · exact .inr rfl
    · refine .inl fun e => hturn ?_
      simp only [if_true, deltaClip] at e
      exact (wrap_agrees _).symm.trans e
  simp only [flip2] at sx sy
  simp only [deltaLocal, DynamicsModel.ofSingle, deltaLocalInverse]
  rw [h.clock] at hgv sx sy hst ⊢
  simp only [hc, hgv, (h.log i t).valid]
  refine ⟨trivial, fun hv => ?_⟩
  rw [Bool.and_eq_true] at hv
  have hyaw := (h.log i t).yaw hv.1
  obtain ⟨hcos, hsin⟩ := flip_heading hyaw
  simp only [rotatePoints, rotationMatrix2d, Matrix.cons_val', Matrix.cons_val_zero, Matrix.cons_val_one, Matrix.of_apply,
    Matrix.cons_val_fin_one, Real.cos_neg, Real.sin_neg, deltaClip, hcos, hsin, sx, sy, hst]
  refine ⟨Prod.ext ?_ ?_, ?_⟩
  · simp only [flip2]
    congr 1
    ring
  · simp only [flip2]
    rw [← clip_neg hy]
    congr 1
    ring
  · refine (wrap_neg _).resolve_right fun e => ?_
    rcases hturn2 with h2 | h2
    · exact h2 e.2
    · rw [h2] at hv
      exact absurd hv.2 (by simp)

end

/-! ### An exact half turn -/

/-- The expectation: the expert acts in the mirror as it does in the original, left and right exchanged. -/
def ExpertIsMirrored : Prop :=
  ∀ (n T : Nat) [NeZero T] (P : DeltaParams) (s s' : SimState ℝ n T) (i : Fin n), Flipped s s' → 0 ≤ P.maxDx → 0 ≤ P.maxDy →
    ((deltaGlobal P (n := n)).inverse s.logTrajectory s.objectMetadata s.timestep i).valid = true →
    DeltaFlipped ((deltaGlobal P (n := n)).inverse s.logTrajectory s.objectMetadata s.timestep i).data
      ((deltaGlobal P (n := n)).inverse s'.logTrajectory s'.objectMetadata s'.timestep i).data

/-- A car that turns round on the spot. It is its own image in the mirror. -/
noncomputable def spinScen : SimState ℝ 1 4 :=
  { driveScen with timestep := 0, logTrajectory := fun _ t => ptAt 0 0 (t * π) 0 0, simTrajectory := fun _ t => ptAt 0 0 (t * π) 0 0 }

theorem spin_flipped : Flipped spinScen spinScen := by
  refine ⟨fun i t => ?_, fun i t => ?_, rfl, rfl, rfl, rfl, rfl⟩
  all_goals
    refine ⟨rfl, rfl, rfl, rfl, rfl, rfl, fun _ => ?_, fun _ => ?_, fun _ => ?_⟩
    · simp [spinScen, ptAt, flip2]
    · simp [spinScen, ptAt, flip2]
    · simp only [spinScen, ptAt]
      exact ⟨(t : Nat), by push_cast; ring⟩

/-- A half turn is always a turn to the right, in the mirror too. -/
theorem C171_violated : ¬ ExpertIsMirrored := by
  intro h
  have hv : ((deltaGlobal {} (n := 1)).inverse spinScen.logTrajectory spinScen.objectMetadata spinScen.timestep 0).valid = true := by
    simp only [deltaGlobal, DynamicsModel.ofSingle, deltaGlobalInverse]
    rw [show spinScen.timestep = ((0 : Fin 4) : Int) from rfl, window2_eq (t := 0) (t' := 1) _ rfl]
    rfl
  have hm := (h 1 4 {} spinScen spinScen 0 spin_flipped (by norm_num) (by norm_num) hv).turn
  simp only [deltaGlobal, DynamicsModel.ofSingle, deltaGlobalInverse] at hm hv
  rw [show spinScen.timestep = ((0 : Fin 4) : Int) from rfl, window2_eq (t := 0) (t' := 1) _ rfl] at hm hv
  simp only [hv, if_true, deltaClip] at hm
  have hw : wrapYaws ((spinScen.logTrajectory 0 1).yaw - (spinScen.logTrajectory 0 0).yaw) = -π := by
    refine ((C21_wrap_unique _ _).2 ⟨le_refl _, by linarith [Real.pi_pos], 1, ?_⟩).symm
    simp [spinScen, ptAt]
    ring
  rw [hw] at hm
  linarith [Real.pi_pos]

/-! ### Examples -/

/-- The hypotheses are met by the drive on a curve and its mirror image: metrics agree, and so do the commands of the expert. -/
example : SameResult (logDivergenceMetric driveScen 0) (logDivergenceMetric mirrorScen 0) ∧
    kinematicsInfeasibilityMetric {} mirrorScen 0 = kinematicsInfeasibilityMetric {} driveScen 0 :=
  ⟨C170_log_divergence mirror_flipped 0, C170_kinematics {} mirror_flipped 0⟩

theorem three_not_pi : ¬ AnglesAgree 3 π := by
  rintro ⟨k, hk⟩
  have h1 := Real.pi_gt_three
  have h2 := Real.pi_lt_d2
  have hk0 : k = 0 := by
    by_contra hne
    rcases lt_or_gt_of_ne hne with h | h
    · have : (k : ℝ) ≤ -1 := by exact_mod_cast Int.le_sub_one_of_lt h
      nlinarith
    · have : (1 : ℝ) ≤ k := by exact_mod_cast h
      nlinarith
  subst hk0
  simp at hk
  linarith

/-- The expert in map axes and in the axes of the vehicle: the car turns by three radians in the first step. -/
example (P : DeltaParams) (hx : 0 ≤ P.maxDx) (hy : 0 ≤ P.maxDy) :
    DeltaFlipped ((deltaGlobal P (n := 1)).inverse driveScen.logTrajectory driveScen.objectMetadata driveScen.timestep 0).data
      ((deltaGlobal P (n := 1)).inverse mirrorScen.logTrajectory mirrorScen.objectMetadata mirrorScen.timestep 0).data :=
  (C171_displacement_partial hx hy mirror_flipped 0 (t := 0) (t' := 1) rfl rfl (by
    simp only [driveScen, ptAt]
    norm_num
    exact three_not_pi)).2

/-- The expert with pedal and steering wheel. -/
example (P : BicycleParams) (hP : 0 ≤ P.maxSteering) :
    SteerFlipped ((bicycle P (n := 1)).inverse driveScen.logTrajectory driveScen.objectMetadata driveScen.timestep 0).data
      ((bicycle P (n := 1)).inverse mirrorScen.logTrajectory mirrorScen.objectMetadata mirrorScen.timestep 0).data :=
  (C171_bicycle_partial hP mirror_flipped 0 (t := 0) (t' := 1) rfl rfl (by
    rintro ⟨k, hk⟩
    have h10 : √((10 : ℝ) ^ 2 + 0 ^ 2) = 10 := by
      rw [show (10 : ℝ) ^ 2 + 0 ^ 2 = 10 ^ 2 by norm_num]
      exact Real.sqrt_sq (by norm_num)
    have h0 : AnglesAgree (arctan2 0 10) 0 := by
      have := arctan2_agrees (s := 10) (yaw := 0) (by norm_num)
      simpa using this
    obtain ⟨m, hm⟩ := h0
    simp only [driveScen, ptAt, courseOf, h10] at hk
    rw [if_neg (by norm_num), hm] at hk
    have : (1 + 2 * k - 2 * m : ℤ) = 0 := by
      have hpi := Real.pi_pos.ne'
      have : ((1 + 2 * k - 2 * m : ℤ) : ℝ) * π = 0 := by
        push_cast
        norm_num at hk
        linarith
      rcases mul_eq_zero.1 this with h | h
      · exact_mod_cast h
      · exact absurd h hpi
    omega)).2

end Waymax
