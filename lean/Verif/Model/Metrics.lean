import Verif.Model.Select
/-
Model of waymax/metrics (overlap, imitation, roadgraph, route, metric_factory, array.masked_value) over real numbers.
`KinematicsInfeasibilityMetric` is in `Verif.Model.Continuous`.
-/

namespace Waymax

/-- `MetricResult` of one element. waymax/metrics/abstract_metric.py:25-38 -/
structure MetricResult where
  value : ℝ
  valid : Bool

/-- `MaskedArray.masked_value` with the default fill value. waymax/datatypes/array.py:65-76 -/
noncomputable def MetricResult.maskedValue (r : MetricResult) : ℝ := if r.valid then r.value else 0

/-- `stack_fields(['x', 'y', 'length', 'width', 'yaw'])`. waymax/datatypes/object_state.py:214-218 -/
def Pt.box (p : Pt ℝ) : Box := { x := p.x, y := p.y, length := p.length, width := p.width, yaw := p.yaw }

section
variable {n T : Nat} [NeZero T]

open Classical in
/-- `OverlapMetric.compute_overlap` on the current states. `pairwise[i, j]` is masked by the validity of `i` (axis -2) and
summed over `i`. waymax/metrics/overlap.py:44-69 -/
noncomputable def computeOverlap (cur : Fin n → Pt ℝ) (j : Fin n) : MetricResult :=
  let numOverlap : ℕ := ∑ i, if computePairwiseOverlaps (fun k => (cur k).box) i j ∧ (cur i).valid = true then 1 else 0
  { value := if numOverlap > 0 then 1 else 0, valid := (cur j).valid }

/-- `OverlapMetric.compute`. waymax/metrics/overlap.py:31-42 -/
noncomputable def overlapMetric (s : SimState ℝ n T) : Fin n → MetricResult :=
  computeOverlap fun i => dynIndex (s.simTrajectory i) s.timestep

/-- `LogDivergenceMetric.compute`. waymax/metrics/imitation.py:30-80 -/
noncomputable def logDivergenceMetric (s : SimState ℝ n T) (i : Fin n) : MetricResult :=
  let cur := dynIndex (s.simTrajectory i) s.timestep
  let log := dynIndex (s.logTrajectory i) s.timestep
  { value := hypot (cur.x - log.x) (cur.y - log.y), valid := cur.valid && log.valid }

/-- SDC position at the current step: `select_by_onehot(obj_xy, is_sdc)`. waymax/metrics/roadgraph.py:43-55, route.py:66-81 -/
noncomputable def sdcXyCurrent (s : SimState ℝ n T) : ℝ × ℝ :=
  (selectByOnehot (fun i => (dynIndex (s.simTrajectory i) s.timestep).x) (fun i => (s.objectMetadata i).isSdc),
   selectByOnehot (fun i => (dynIndex (s.simTrajectory i) s.timestep).y) (fun i => (s.objectMetadata i).isSdc))

/-- SDC position in the log at step `t` (`log_trajectory.xy[..., 0, :]`, `[..., -1, :]`). waymax/metrics/route.py:82-91 -/
noncomputable def sdcXyLog (s : SimState ℝ n T) (t : Fin T) : ℝ × ℝ :=
  (selectByOnehot (fun i => (s.logTrajectory i t).x) (fun i => (s.objectMetadata i).isSdc),
   selectByOnehot (fun i => (s.logTrajectory i t).y) (fun i => (s.objectMetadata i).isSdc))

/-- SDC validity at the current step. waymax/metrics/route.py:93-106 -/
def sdcValidCurrent (s : SimState ℝ n T) : Bool :=
  selectByOnehotBool (fun i => (dynIndex (s.simTrajectory i) s.timestep).valid) (fun i => (s.objectMetadata i).isSdc)

/-- Distance from `xy` to a path point. waymax/metrics/route.py:105-108 -/
noncomputable def pathDist (xy : ℝ × ℝ) (p : PathPoint ℝ) : ℝ := hypot (xy.1 - p.x) (xy.2 - p.y)

/-- Minimum over all paths and points of the masked distances (`jnp.min(.., axis=(-1, -2))`). waymax/metrics/route.py:118 -/
noncomputable def minOverPaths (paths : List (SdcPath ℝ)) (d : SdcPath ℝ → PathPoint ℝ → WithTop ℝ) : WithTop ℝ :=
  listMin (paths.flatMap fun path => path.points.map fun p => d path p)

/-- `jnp.min` over no element raises a ValueError. waymax/metrics/route.py:116-118 -/
def noPathPoints (paths : List (SdcPath ℝ)) : Bool := paths.all fun path => path.points.isEmpty

/-- `WrongWayMetric.compute`; a missing `sdc_paths` fails with an AttributeError. waymax/metrics/roadgraph.py:23-68 -/
noncomputable def wrongWayMetric (s : SimState ℝ n T) : Except Err MetricResult :=
  match s.sdcPaths with
  | none => .error .attributeError
  | some paths =>
    if noPathPoints paths then .error .valueError else
    let minDist := minOverPaths paths fun _ p => orInf p.valid (pathDist (sdcXyCurrent s) p)
    match minDist with
    | ⊤ => .ok { value := 0, valid := false }
    | (d : ℝ) => .ok { value := if d < 3.5 then 0 else d, valid := true }

/-- `on - off > MAX_RELATIVE_DISTANCE_TO_OFF_ROUTE_PATH` for a finite `on`. waymax/metrics/route.py:240-248 -/
noncomputable def exceedsByTwo (on : ℝ) : WithTop ℝ → Bool
  | ⊤ => false
  | (off : ℝ) => decide (on - off > 2)

/-- `OffRouteMetric.compute`. With no finite on-route distance `off_route` is `inf`, hence invalid and 0; a finite on-route
distance minus an infinite off-route distance is `-inf`, not above the threshold. waymax/metrics/route.py:150-258 -/
noncomputable def offRouteMetric (s : SimState ℝ n T) : Except Err MetricResult :=
  match s.sdcPaths with
  | none => .error .valueError
  | some paths =>
    if noPathPoints paths then .error .valueError else
    let xy := sdcXyCurrent s
    let valid := sdcValidCurrent s
    let minOn := minOverPaths paths fun path p => orInf (path.onRoute && (valid && p.valid)) (pathDist xy p)
    let minOff := minOverPaths paths fun path p => orInf (!path.onRoute && (valid && p.valid)) (pathDist xy p)
    match minOn with
    | ⊤ => .ok { value := 0, valid := false }
    | (on : ℝ) =>
      .ok { value := if on > 5 ∨ exceedsByTwo on minOff = true then on else 0, valid := true }

/-- `get_arclength_for_pts`. waymax/metrics/route.py:130-139 -/
noncomputable def arclengthForPts (xy : ℝ × ℝ) (path : SdcPath ℝ) : ℝ :=
  ((path.points[argmin (path.points.map fun p => orInf p.valid (pathDist xy p))]?).map PathPoint.arcLength).getD 0

/-- `ProgressionMetric.compute`. waymax/metrics/route.py:28-147 -/
noncomputable def progressionMetric (s : SimState ℝ n T) : Except Err MetricResult :=
  match s.sdcPaths with
  | none => .error .valueError
  | some paths =>
    if noPathPoints paths then .error .valueError else
    let xy := sdcXyCurrent s
    let dist : SdcPath ℝ → PathPoint ℝ → WithTop ℝ := fun path p =>
      if sdcValidCurrent s then orInf (p.valid && path.onRoute) (pathDist xy p) else ⊤
    let distPath := paths.map fun path => listMin (path.points.map fun p => dist path p)
    let idx := argmin distPath
    let minDistPath := minOverPaths paths dist
    match paths[idx]? with
    | none => .error .valueError
    | some ref =>
      let startDist := arclengthForPts (sdcXyLog s ⟨0, Nat.pos_of_ne_zero (NeZero.ne T)⟩) ref
      let endDist := arclengthForPts (sdcXyLog s ⟨T - 1, Nat.sub_lt (Nat.pos_of_ne_zero (NeZero.ne T)) one_pos⟩) ref
      let currDist := arclengthForPts xy ref
      let progress := if endDist = startDist then 1 else (currDist - startDist) / (endDist - startDist)
      match minDistPath with
      | ⊤ => .ok { value := 0, valid := false }
      | (_ : ℝ) => .ok { value := progress, valid := true }

end

/-! ### Off-road -/

/-- `is_road_edge`: types ROAD_EDGE_BOUNDARY = 15 and ROAD_EDGE_MEDIAN = 16. waymax/datatypes/roadgraph.py:236-251 -/
def isRoadEdge (type : Int) : Bool := decide (type = 15) || decide (type = 16)

/-- `jnp.cross` of 2D vectors. Called at waymax/metrics/roadgraph.py:213-214 -/
def cross2 (a b : ℝ × ℝ) : ℝ := a.1 * b.2 - a.2 * b.1

/-- `compute_signed_distance_to_nearest_road_edge_point` for one query point; `none` when there is no road point at all
(argmin of an empty array raises). waymax/metrics/roadgraph.py:158-233 -/
noncomputable def signedDistanceToNearestRoadEdgePoint (rg : List (RgPoint ℝ)) (qx qy qz : ℝ) (zStretch : ℝ := 2) :
    Option ℝ :=
  let squareDistances := rg.map fun p =>
    orInf (p.valid && isRoadEdge p.type) ((p.x - qx) ^ 2 + (p.y - qy) ^ 2 + ((p.z - qz) * zStretch) ^ 2)
  let nearest := argmin squareDistances
  let prior := nearest - 1
  match rg[nearest]?, rg[prior]? with
  | some pn, some pp =>
    let toEdge := (qx - pn.x, qy - pn.y)
    let cross := cross2 toEdge (pn.dirX, pn.dirY)
    let crossPrior := cross2 toEdge (pp.dirX, pp.dirY)
    let chosen := if pn.id = pp.id ∧ crossPrior < cross then crossPrior else cross
    let sign : ℝ := if chosen > 0 then 1 else if chosen < 0 then -1 else 0
    some (hypot (pn.x - qx) (pn.y - qy) * sign)
  | _, _ => none

/-- `is_offroad` for one object: some corner of its box, lifted to the height of its centre, has a positive signed distance.
waymax/metrics/roadgraph.py:104-155 -/
def isOffroad (rg : List (RgPoint ℝ)) (p : Pt ℝ) : Prop :=
  ∃ k : Fin 4, ∃ d, signedDistanceToNearestRoadEdgePoint rg (cornersFromBbox p.box k).1 (cornersFromBbox p.box k).2 p.z =
    some d ∧ d > 0

open Classical in
/-- `OffroadMetric.compute`: valid for every object. Without road points (`None` or empty) the code raises.
waymax/metrics/roadgraph.py:71-101 -/
noncomputable def offroadMetric {n T : Nat} [NeZero T] (s : SimState ℝ n T) : Except Err (Fin n → MetricResult) :=
  match s.roadgraphPoints with
  | none => .error .attributeError
  | some [] => .error .valueError
  | some rg => .ok fun i =>
    { value := if isOffroad rg (dynIndex (s.simTrajectory i) s.timestep) then 1 else 0, valid := true }

end Waymax
