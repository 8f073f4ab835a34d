import Verif.Model.Ieee
/-
The off-road metric in the arithmetic with NaN, infinities and overflow of Model/Ieee.lean.
-/

namespace Waymax

section
variable {F : IeeeFormat} (L : Libm F.fmt)

/-- `jnp.argmin` with its value: the first NaN if there is one, otherwise the first smallest element. waymax/metrics/roadgraph.py:199 -/
noncomputable def argminIeAux : List (Ieee F) → Option (Nat × Ieee F)
  | [] => none
  | x :: xs =>
    if x.isNan then some (0, x) else
    match argminIeAux xs with
    | none => some (0, x)
    | some (j, v) => if v.isNan || v.lt x then some (j + 1, v) else some (0, x)

/-- `jnp.argmin`; 0 for an empty list, which JAX rejects. waymax/metrics/roadgraph.py:199 -/
noncomputable def argminIe (xs : List (Ieee F)) : Nat := ((argminIeAux xs).map Prod.fst).getD 0

/-- `jnp.sign`: NaN of NaN. waymax/metrics/roadgraph.py:222 -/
noncomputable def signIe (a : Ieee F) : Ieee F :=
  if a.isNan then .nan else
  if (Ieee.ofReal F 0).lt a then Ieee.ofReal F 1 else if a.lt (Ieee.ofReal F 0) then Ieee.ofReal F (-1) else Ieee.ofReal F 0

/-- The squared distance of a road point with heights stretched by two, infinite unless the point is a valid road edge. The factors 1.0 of
x and y are left out; multiplying by them changes no number. waymax/metrics/roadgraph.py:183-197 -/
noncomputable def squareDistanceIe (qx qy qz : Ieee F) (p : RgPoint (Ieee F)) : Ieee F :=
  let dx := p.x.sub qx
  let dy := p.y.sub qy
  let dz := (p.z.sub qz).mul (Ieee.ofReal F 2)
  if p.valid && isRoadEdge p.type then ((dx.mul dx).add (dy.mul dy)).add (dz.mul dz) else .inf false

/-- `jnp.cross` of plane vectors. waymax/metrics/roadgraph.py:213-214 -/
noncomputable def crossIe (a b : Ieee F × Ieee F) : Ieee F := (a.1.mul b.2).sub (a.2.mul b.1)

/-- The part of `compute_signed_distance_to_nearest_road_edge_point` after the nearest and the prior point are chosen.
waymax/metrics/roadgraph.py:201-233 -/
noncomputable def signedDistanceAtIe (pn pp : RgPoint (Ieee F)) (qx qy : Ieee F) : Ieee F :=
  let toEdge := (qx.sub pn.x, qy.sub pn.y)
  let cross := crossIe toEdge (pn.dirX, pn.dirY)
  let crossPrior := crossIe toEdge (pp.dirX, pp.dirY)
  let chosen := if decide (pn.id = pp.id) && crossPrior.lt cross then crossPrior else cross
  (distIe L (pn.x, pn.y) (qx, qy)).mul (signIe chosen)

/-- `compute_signed_distance_to_nearest_road_edge_point` for one query point. waymax/metrics/roadgraph.py:158-233 -/
noncomputable def signedDistanceIe (rg : List (RgPoint (Ieee F))) (qx qy qz : Ieee F) : Option (Ieee F) :=
  let nearest := argminIe (rg.map (squareDistanceIe qx qy qz))
  let prior := nearest - 1
  match rg[nearest]?, rg[prior]? with
  | some pn, some pp => some (signedDistanceAtIe L pn pp qx qy)
  | _, _ => none

/-- `is_offroad` for one object. The height of the corners is that of the centre times 1.0. waymax/metrics/roadgraph.py:104-155 -/
noncomputable def isOffroadIe (rg : List (RgPoint (Ieee F))) (p : Pt (Ieee F)) : Bool :=
  (List.finRange 4).any fun k =>
    match signedDistanceIe L rg (cornersIe L p.boxIe k).1 (cornersIe L p.boxIe k).2 p.z with
    | some d => (Ieee.ofReal F 0).lt d
    | none => false

/-- `OffroadMetric.compute`: valid for every object. waymax/metrics/roadgraph.py:71-101 -/
noncomputable def offroadMetricIe {n T : Nat} [NeZero T] (s : SimState (Ieee F) n T) : Except Err (Fin n → MetricResultIe F) :=
  match s.roadgraphPoints with
  | none => .error .attributeError
  | some [] => .error .valueError
  | some rg => .ok fun i =>
    { value := if isOffroadIe L rg (dynIndex (s.simTrajectory i) s.timestep) then Ieee.ofReal F 1 else Ieee.ofReal F 0, valid := true }

end

end Waymax
