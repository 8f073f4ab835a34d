import Verif.Model.IeeeOffroad
/-
The route progression metric in the arithmetic with NaN, infinities and overflow of Model/Ieee.lean.
-/

namespace Waymax

/-- `==`: NaN differs from everything. waymax/metrics/route.py:142 -/
noncomputable def Ieee.eq {F : IeeeFormat} : Ieee F → Ieee F → Bool
  | .inf s, .inf t => s == t
  | .fin x _, .fin y _ => decide (x.val = y.val)
  | _, _ => false

section
variable {F : IeeeFormat} (L : Libm F.fmt) {n T : Nat}

/-- `select_by_onehot` on the logged positions of one step: all entries are multiplied with the mask and added up.
waymax/metrics/route.py:81-90 -/
noncomputable def sdcXyLogIe (s : SimState (Ieee F) n T) (t : Fin T) : Ieee F × Ieee F :=
  (selectByOnehotIe (fun i => (s.logTrajectory i t).x) (fun i => (s.objectMetadata i).isSdc),
   selectByOnehotIe (fun i => (s.logTrajectory i t).y) (fun i => (s.objectMetadata i).isSdc))

/-- `get_arclength_for_pts`. waymax/metrics/route.py:130-139 -/
noncomputable def arclengthForPtsIe (xy : Ieee F × Ieee F) (path : SdcPath (Ieee F)) : Ieee F :=
  ((path.points[argminIe (path.points.map fun p => if p.valid then distIe L xy (p.x, p.y) else .inf false)]?).map
    PathPoint.arcLength).getD (Ieee.ofReal F 0)

/-- `jnp.where(end_dist == start_dist, FULL_PROGRESS_VALUE, (curr_dist - start_dist) / (end_dist - start_dist))`.
waymax/metrics/route.py:141-145 -/
noncomputable def progressIe (curr start stop : Ieee F) : Ieee F :=
  if stop.eq start then Ieee.ofReal F 1 else (curr.sub start).div (stop.sub start)

/-- `dist` of the metric: infinite unless the car, the point and the path count. waymax/metrics/route.py:104-116 -/
noncomputable def routeDistIe (sdcValid : Bool) (xy : Ieee F × Ieee F) (path : SdcPath (Ieee F)) (p : PathPoint (Ieee F)) : Ieee F :=
  if sdcValid then (if p.valid && path.onRoute then distIe L (p.x, p.y) xy else .inf false) else .inf false

/-- `ProgressionMetric.compute`. waymax/metrics/route.py:28-147 -/
noncomputable def progressionMetricIe [NeZero T] (s : SimState (Ieee F) n T) : Except Err (MetricResultIe F) :=
  match s.sdcPaths with
  | none => .error .valueError
  | some paths =>
    if paths.all fun path => path.points.isEmpty then .error .valueError else
    let xy := sdcXyCurrentIe s
    let dist := routeDistIe L (sdcValidCurrentIe s) xy
    let distPath := paths.map fun path => Ieee.minList (path.points.map (dist path))
    let idx := argminIe distPath
    let minDistPath := Ieee.minList (paths.flatMap fun path => path.points.map (dist path))
    match paths[idx]? with
    | none => .error .valueError
    | some ref =>
      let startDist := arclengthForPtsIe L (sdcXyLogIe s ⟨0, Nat.pos_of_ne_zero (NeZero.ne T)⟩) ref
      let endDist := arclengthForPtsIe L (sdcXyLogIe s ⟨T - 1, Nat.sub_lt (Nat.pos_of_ne_zero (NeZero.ne T)) one_pos⟩) ref
      let currDist := arclengthForPtsIe L xy ref
      let valid := minDistPath.isFinite
      .ok { value := if valid then progressIe currDist startDist endDist else Ieee.ofReal F 0, valid := valid }

end

end Waymax
