import Verif.Model.MachineFrame
import Verif.Model.MachineMetrics
/-
Model of the route progression metric in machine arithmetic: the functions of Model/Metrics.lean with every operation rounded.
-/

namespace Waymax

section
variable {φ : Format} (L : Libm φ) {n T : Nat}

/-- `select_by_onehot` on the logged positions of one step. waymax/metrics/route.py:81-90 -/
noncomputable def sdcXyLogFl (s : SimState (Flt φ) n T) (t : Fin T) : Flt φ × Flt φ :=
  (selectByOnehotFl (fun i => (s.logTrajectory i t).x) (fun i => (s.objectMetadata i).isSdc),
   selectByOnehotFl (fun i => (s.logTrajectory i t).y) (fun i => (s.objectMetadata i).isSdc))

/-- `get_arclength_for_pts`; the position is the first operand of the subtraction. waymax/metrics/route.py:130-139 -/
noncomputable def arclengthForPtsFl (xy : Flt φ × Flt φ) (path : SdcPath (Flt φ)) : Flt φ :=
  ((path.points[argmin (path.points.map fun p => orInfFl p.valid (distFl L xy (p.x, p.y)))]?).map PathPoint.arcLength).getD (Flt.zero φ)

/-- `jnp.where(end_dist == start_dist, FULL_PROGRESS_VALUE, (curr_dist - start_dist) / (end_dist - start_dist))`. The quotient is also
computed where it is not used; there it may be NaN without effect. waymax/metrics/route.py:141-145 -/
noncomputable def progressFl (curr start stop : Flt φ) : Flt φ :=
  if stop.val = start.val then Flt.one φ else (curr.sub start).div (stop.sub start)

/-- `ProgressionMetric.compute`. To choose the path, the position is the second operand of the subtraction.
waymax/metrics/route.py:28-147 -/
noncomputable def progressionMetricFl [NeZero T] (s : SimState (Flt φ) n T) : Except Err (MetricResultFl φ) :=
  match s.sdcPaths with
  | none => .error .valueError
  | some paths =>
    if noPathPointsFl paths then .error .valueError else
    let xy := sdcXyCurrentFl s
    let dist : SdcPath (Flt φ) → PathPoint (Flt φ) → WithTop (Flt φ) := fun path p =>
      if sdcValidCurrentFl s then orInfFl (p.valid && path.onRoute) (distFl L (p.x, p.y) xy) else ⊤
    let distPath := paths.map fun path => listMin (path.points.map fun p => dist path p)
    let idx := argmin distPath
    let minDistPath := minOverPathsFl paths dist
    match paths[idx]? with
    | none => .error .valueError
    | some ref =>
      let startDist := arclengthForPtsFl L (sdcXyLogFl s ⟨0, Nat.pos_of_ne_zero (NeZero.ne T)⟩) ref
      let endDist := arclengthForPtsFl L (sdcXyLogFl s ⟨T - 1, Nat.sub_lt (Nat.pos_of_ne_zero (NeZero.ne T)) one_pos⟩) ref
      let currDist := arclengthForPtsFl L xy ref
      match minDistPath with
      | ⊤ => .ok { value := Flt.zero φ, valid := false }
      | (_ : Flt φ) => .ok { value := progressFl currDist startDist endDist, valid := true }

end

end Waymax
