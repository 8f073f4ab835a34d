import Verif.Model.Machine
import Verif.Model.Metrics
/-
Model of the box overlap test and of the overlap metric in machine arithmetic: the functions of Model/Geometry.lean and Model/Metrics.lean
with every operation rounded.
-/

namespace Waymax

open Real

/-- The parts of the arithmetic that IEEE 754 does not fix: sine, cosine, and how a matrix product adds up two products (separately
rounded, or fused). waymax/utils/geometry.py:225, 266, 286, 289 -/
structure Kernel (φ : Format) where
  sin : Flt φ → Flt φ
  cos : Flt φ → Flt φ
  dot : Flt φ × Flt φ → Flt φ × Flt φ → Flt φ

/-- A 5-dof bounding box of machine numbers. waymax/utils/geometry.py:221-246 -/
structure BoxFl (φ : Format) where
  x : Flt φ
  y : Flt φ
  length : Flt φ
  width : Flt φ
  yaw : Flt φ

section
variable {φ : Format} (K : Kernel φ)

/-- `corners_from_bbox`. waymax/utils/geometry.py:221-236 -/
noncomputable def cornersFl (b : BoxFl φ) : Fin 4 → Flt φ × Flt φ :=
  let c := K.cos b.yaw
  let s := K.sin b.yaw
  let two := Flt.round φ 2
  let lc := (b.length.div two).mul c
  let ls := (b.length.div two).mul s
  let wc := (b.width.div two).mul c
  let ws := (b.width.div two).mul s
  ![((lc.add ws).add b.x, (ls.sub wc).add b.y),
    ((lc.sub ws).add b.x, (ls.add wc).add b.y),
    ((lc.neg.sub ws).add b.x, (ls.neg.add wc).add b.y),
    ((lc.neg.add ws).add b.x, (ls.neg.sub wc).add b.y)]

/-- A column of `normals_t`: the two axes of a box. waymax/utils/geometry.py:266-271 -/
noncomputable def axisFl (b : BoxFl φ) (axis : Fin 2) : Flt φ × Flt φ :=
  if axis = 0 then (K.cos b.yaw, K.sin b.yaw) else ((K.sin b.yaw).neg, K.cos b.yaw)

/-- `_overlap_a_over_b`; the minimum and maximum are exact, the difference is rounded. waymax/utils/geometry.py:265-294 -/
def overlapAOverBFl (first second : BoxFl φ) : Prop :=
  let proj : BoxFl φ → Fin 2 → Fin 4 → ℝ := fun b axis k => (K.dot (cornersFl K b k) (axisFl K first axis)).val
  ∀ axis : Fin 2,
    φ.fl (min (max4 (proj first axis)) (max4 (proj second axis)) - max (min4 (proj first axis)) (min4 (proj second axis))) > 0

/-- `has_overlap`. waymax/utils/geometry.py:248-299 -/
def hasOverlapFl (a b : BoxFl φ) : Prop := overlapAOverBFl K a b ∧ overlapAOverBFl K b a

/-- `compute_pairwise_overlaps` at one time step. waymax/utils/geometry.py:303-333 -/
def computePairwiseOverlapsFl {n : Nat} (traj : Fin n → BoxFl φ) (i j : Fin n) : Prop :=
  if i = j then False else hasOverlapFl K (traj i) (traj j)

/-- `stack_fields(['x', 'y', 'length', 'width', 'yaw'])`. waymax/datatypes/object_state.py:214-218 -/
def Pt.boxFl (p : Pt (Flt φ)) : BoxFl φ := { x := p.x, y := p.y, length := p.length, width := p.width, yaw := p.yaw }

open Classical in
/-- `OverlapMetric.compute_overlap` on the current states. waymax/metrics/overlap.py:44-69 -/
noncomputable def computeOverlapFl {n : Nat} (cur : Fin n → Pt (Flt φ)) (j : Fin n) : MetricResult :=
  let numOverlap : ℕ := ∑ i, if computePairwiseOverlapsFl K (fun k => (cur k).boxFl) i j ∧ (cur i).valid = true then 1 else 0
  { value := if numOverlap > 0 then 1 else 0, valid := (cur j).valid }

/-- `OverlapMetric.compute`. waymax/metrics/overlap.py:31-42 -/
noncomputable def overlapMetricFl {n T : Nat} [NeZero T] (s : SimState (Flt φ) n T) : Fin n → MetricResult :=
  computeOverlapFl K fun i => dynIndex (s.simTrajectory i) s.timestep

end

end Waymax
