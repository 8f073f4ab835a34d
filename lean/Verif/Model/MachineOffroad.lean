import Verif.Model.MachineGeometry
import Verif.Model.MachineMetrics
/-
Model of the off-road metric in machine arithmetic: the functions of Model/Metrics.lean with every operation rounded.
-/

namespace Waymax

/-- The parts of the off-road test that a compiler may evaluate in more than one way: sums of two or three products, rounded after every
operation or fused, and the square root. waymax/metrics/roadgraph.py:190, 213-214, 232 -/
structure RoadKernel (φ : Format) extends Kernel φ where
  square3 : Flt φ → Flt φ → Flt φ → Flt φ
  cross : Flt φ × Flt φ → Flt φ × Flt φ → Flt φ
  norm : Flt φ × Flt φ → Flt φ

section
variable {φ : Format} (K : RoadKernel φ)

/-- The squared distance of a road point with heights stretched by two, infinite unless the point is a valid road edge. The factors 1.0 of
x and y are left out; multiplying by them is exact. waymax/metrics/roadgraph.py:183-197 -/
noncomputable def squareDistanceFl (qx qy qz : Flt φ) (p : RgPoint (Flt φ)) : WithTop (Flt φ) :=
  orInfFl (p.valid && isRoadEdge p.type) (K.square3 (p.x.sub qx) (p.y.sub qy) ((p.z.sub qz).mul (Flt.round φ 2)))

/-- `jnp.sign`. waymax/metrics/roadgraph.py:222 -/
noncomputable def signFl (x : Flt φ) : Flt φ :=
  if x.val > 0 then Flt.round φ 1 else if x.val < 0 then Flt.round φ (-1) else Flt.zero φ

/-- `compute_signed_distance_to_nearest_road_edge_point` for one query point. waymax/metrics/roadgraph.py:158-233 -/
noncomputable def signedDistanceFl (rg : List (RgPoint (Flt φ))) (qx qy qz : Flt φ) : Option (Flt φ) :=
  let nearest := argmin (rg.map (squareDistanceFl K qx qy qz))
  let prior := nearest - 1
  match rg[nearest]?, rg[prior]? with
  | some pn, some pp =>
    let toEdge := (qx.sub pn.x, qy.sub pn.y)
    let cross := K.cross toEdge (pn.dirX, pn.dirY)
    let crossPrior := K.cross toEdge (pp.dirX, pp.dirY)
    let chosen := if pn.id = pp.id ∧ crossPrior.val < cross.val then crossPrior else cross
    some ((K.norm (pn.x.sub qx, pn.y.sub qy)).mul (signFl chosen))
  | _, _ => none

/-- `is_offroad` for one object. The height of the corners is that of the centre times 1.0, which is exact.
waymax/metrics/roadgraph.py:104-155 -/
def isOffroadFl (rg : List (RgPoint (Flt φ))) (p : Pt (Flt φ)) : Prop :=
  ∃ k : Fin 4, ∃ d, signedDistanceFl K rg (cornersFl K.toKernel p.boxFl k).1 (cornersFl K.toKernel p.boxFl k).2 p.z = some d ∧ d.val > 0

open Classical in
/-- `OffroadMetric.compute`: valid for every object. waymax/metrics/roadgraph.py:71-101 -/
noncomputable def offroadMetricFl {n T : Nat} [NeZero T] (s : SimState (Flt φ) n T) : Except Err (Fin n → MetricResult) :=
  match s.roadgraphPoints with
  | none => .error .attributeError
  | some [] => .error .valueError
  | some rg => .ok fun i =>
    { value := if isOffroadFl K rg (dynIndex (s.simTrajectory i) s.timestep) then 1 else 0, valid := true }

end

end Waymax
