import Verif.Model.MachineMetrics
import Verif.Model.MachineGeometry
/-
Machine arithmetic with special values: the numbers of Model/Machine.lean with a largest exponent, infinities and NaN, and the distance
metrics, the overlap metric, the reward and the selection of one object's entry in this arithmetic.

The sign of zero is not modelled; a division by zero is taken to be one by positive zero.
-/

namespace Waymax

open Real

/-- A floating point format with its overflow threshold: numbers of absolute value `2 ^ top` or more are infinite.
waymax/datatypes/object_state.py:127-166 -/
structure IeeeFormat where
  fmt : Format
  top : ℕ
  room : 8 ≤ top

/-- Single precision, the type of the arrays of the code. waymax/dataloader/womd_factories.py:60-110 -/
def binary32 : IeeeFormat := { fmt := float32, top := 128, room := by decide }

/-- Double precision, the type of the arrays when JAX runs with 64 bits. waymax/utils/geometry.py:338 -/
def binary64 : IeeeFormat := { fmt := float64, top := 1024, room := by decide }

/-- A machine number: NaN, an infinity, or a finite number below the threshold. waymax/datatypes/object_state.py:127-166 -/
inductive Ieee (F : IeeeFormat) where
  | nan
  | inf (negative : Bool)
  | fin (x : Flt F.fmt) (small : |x.val| < 2 ^ F.top)

namespace Ieee

variable {F : IeeeFormat}

/-- A rounded result: beyond the threshold it is an infinity. waymax/utils/geometry.py:338 -/
noncomputable def ofFlt (F : IeeeFormat) (x : Flt F.fmt) : Ieee F :=
  if h : |x.val| < 2 ^ F.top then .fin x h else .inf (decide (x.val < 0))

/-- A Python number next to an array. waymax/metrics/roadgraph.py:67, waymax/metrics/route.py:243-251 -/
noncomputable def ofReal (F : IeeeFormat) (x : ℝ) : Ieee F := ofFlt F (Flt.round F.fmt x)

/-- Unary minus. waymax/utils/geometry.py:226-236 -/
noncomputable def neg : Ieee F → Ieee F
  | nan => nan
  | inf s => inf !s
  | fin x h => fin x.neg (by simpa [Flt.neg] using h)

/-- `+`: infinities of different signs give NaN. waymax/dynamics/delta.py:88-90 -/
noncomputable def add : Ieee F → Ieee F → Ieee F
  | nan, _ => nan
  | _, nan => nan
  | inf s, inf t => if s = t then inf s else nan
  | inf s, fin _ _ => inf s
  | fin _ _, inf t => inf t
  | fin x _, fin y _ => ofFlt F (x.add y)

/-- `-`. waymax/dynamics/delta.py:144 -/
noncomputable def sub (a b : Ieee F) : Ieee F := add a (neg b)

/-- The sign bit; zero counts as positive. waymax/utils/geometry.py:338 -/
noncomputable def isNeg : Ieee F → Bool
  | nan => false
  | inf s => s
  | fin x _ => decide (x.val < 0)

/-- Whether a number is zero. waymax/utils/geometry.py:338 -/
noncomputable def isZero : Ieee F → Bool
  | fin x _ => decide (x.val = 0)
  | _ => false

/-- `*`: zero times infinity gives NaN. waymax/datatypes/operations.py:239-241, waymax/rewards/linear_combination_reward.py:58-59 -/
noncomputable def mul (a b : Ieee F) : Ieee F :=
  match a, b with
  | nan, _ => nan
  | _, nan => nan
  | fin x _, fin y _ => ofFlt F (x.mul y)
  | a, b => if a.isZero || b.isZero then nan else inf (a.isNeg != b.isNeg)

/-- `/`. waymax/dynamics/delta.py:85-86, waymax/utils/geometry.py:227-230 -/
noncomputable def div (a b : Ieee F) : Ieee F :=
  match a, b with
  | nan, _ => nan
  | _, nan => nan
  | inf _, inf _ => nan
  | inf s, fin y _ => inf (s != decide (y.val < 0))
  | fin _ _, inf _ => Ieee.ofReal F 0
  | fin x _, fin y _ => if y.val = 0 then (if x.val = 0 then nan else inf (decide (x.val < 0))) else ofFlt F (x.div y)

/-- `jnp.sqrt` for a given square root of the finite numbers. waymax/metrics/imitation.py:80 -/
noncomputable def sqrt (L : Libm F.fmt) : Ieee F → Ieee F
  | nan => nan
  | inf s => if s then nan else inf false
  | fin x _ => if x.val < 0 then nan else ofFlt F (L.sqrt x)

/-- `jnp.sin` and `jnp.cos` for a given function on the finite numbers. waymax/utils/geometry.py:225, 266 -/
noncomputable def trig (f : Flt F.fmt → Flt F.fmt) : Ieee F → Ieee F
  | nan => nan
  | inf _ => nan
  | fin x _ => ofFlt F (f x)

/-- `<`: false when an argument is NaN. waymax/metrics/roadgraph.py:67, waymax/metrics/route.py:241-247 -/
noncomputable def lt : Ieee F → Ieee F → Bool
  | nan, _ => false
  | _, nan => false
  | inf s, inf t => s && !t
  | inf s, fin _ _ => s
  | fin _ _, inf t => !t
  | fin x _, fin y _ => decide (x.val < y.val)

/-- `jnp.isfinite`. waymax/metrics/roadgraph.py:66, waymax/metrics/route.py:253 -/
def isFinite : Ieee F → Bool
  | fin _ _ => true
  | _ => false

/-- `jnp.isnan`: whether a number is NaN. waymax/metrics/roadgraph.py:66 -/
def isNan : Ieee F → Bool
  | nan => true
  | _ => false

/-- `jnp.minimum`: NaN if an argument is NaN. waymax/utils/geometry.py:293 -/
noncomputable def min (a b : Ieee F) : Ieee F := if a.isNan || b.isNan then nan else if lt b a then b else a

/-- `jnp.maximum`. waymax/utils/geometry.py:293 -/
noncomputable def max (a b : Ieee F) : Ieee F := if a.isNan || b.isNan then nan else if lt a b then b else a

/-- `jnp.min` over all entries of an array; that of no entries is not used. waymax/metrics/roadgraph.py:65, waymax/metrics/route.py:233-239 -/
noncomputable def minList (l : List (Ieee F)) : Ieee F := l.foldl min (inf false)

end Ieee

open Ieee in
/-- The scalars of the environment in this arithmetic. The `arctan2` of special values is taken to be NaN; only the fallback of
`apply_trajectory_update_to_state` uses it, which no dynamics model turns on.
waymax/datatypes/object_state.py:294-316, waymax/dynamics/abstract_dynamics.py:187-191 -/
noncomputable instance (F : IeeeFormat) : ScalarOps (Ieee F) where
  zero := Ieee.ofReal F 0
  invalid := Ieee.ofReal F (-1)
  add := add
  mul := mul
  arctan2 := fun y x => match y, x with
    | fin y _, fin x _ => ofFlt F (Flt.round _ (arctan2 y.val x.val))
    | _, _ => nan
  dt := Ieee.ofReal F (float64.fl 0.1)

section
variable {F : IeeeFormat} (L : Libm F.fmt) {n T : Nat}

/-! ### Displacement dynamics -/

/-- Action row `(dx, dy, dyaw)`. waymax/dynamics/delta.py:59-67 -/
structure Delta3Ie (F : IeeeFormat) where
  dx : Ieee F
  dy : Ieee F
  dyaw : Ieee F

/-- `DeltaGlobal.compute_update`, one object. waymax/dynamics/delta.py:69-95 -/
noncomputable def deltaUpdateIe (dt : Ieee F) (a : Act (Delta3Ie F)) (p : Pt (Ieee F)) : Upd (Ieee F) :=
  { x := p.x.add a.data.dx, y := p.y.add a.data.dy, yaw := p.yaw.add a.data.dyaw,
    velX := a.data.dx.div dt, velY := a.data.dy.div dt, valid := p.valid && a.valid }

/-! ### Metrics -/

/-- `MetricResult` for one object. waymax/metrics/abstract_metric.py:25-38 -/
structure MetricResultIe (F : IeeeFormat) where
  value : Ieee F
  valid : Bool

/-- `masked_value()` with the default fill value. waymax/datatypes/array.py:65-76 -/
noncomputable def MetricResultIe.maskedValue (r : MetricResultIe F) : Ieee F := if r.valid then r.value else Ieee.ofReal F 0

/-- `jnp.linalg.norm(a - b, axis=-1)` of plane points. waymax/metrics/imitation.py:80, waymax/metrics/roadgraph.py:58-62,
waymax/metrics/route.py:213-217 -/
noncomputable def distIe (a b : Ieee F × Ieee F) : Ieee F :=
  let dx := a.1.sub b.1
  let dy := a.2.sub b.2
  ((dx.mul dx).add (dy.mul dy)).sqrt L

/-- `LogDivergenceMetric.compute`. waymax/metrics/imitation.py:30-80 -/
noncomputable def logDivergenceMetricIe [NeZero T] (s : SimState (Ieee F) n T) (i : Fin n) : MetricResultIe F :=
  let cur := dynIndex (s.simTrajectory i) s.timestep
  let log := dynIndex (s.logTrajectory i) s.timestep
  { value := distIe L (cur.x, cur.y) (log.x, log.y), valid := cur.valid && log.valid }

/-- `select_by_onehot` on numbers: all entries are multiplied with the mask and added up. waymax/datatypes/operations.py:214-245 -/
noncomputable def selectByOnehotIe (x : Fin n → Ieee F) (sel : Fin n → Bool) : Ieee F :=
  (List.ofFn fun i => (x i).mul (Ieee.ofReal F (if sel i then 1 else 0))).foldl Ieee.add (Ieee.ofReal F 0)

/-- The SDC position at the current step. waymax/metrics/roadgraph.py:42-53, waymax/metrics/route.py:189-200 -/
noncomputable def sdcXyCurrentIe [NeZero T] (s : SimState (Ieee F) n T) : Ieee F × Ieee F :=
  (selectByOnehotIe (fun i => (dynIndex (s.simTrajectory i) s.timestep).x) (fun i => (s.objectMetadata i).isSdc),
   selectByOnehotIe (fun i => (dynIndex (s.simTrajectory i) s.timestep).y) (fun i => (s.objectMetadata i).isSdc))

/-- The SDC validity at the current step. waymax/metrics/route.py:201-212 -/
def sdcValidCurrentIe [NeZero T] (s : SimState (Ieee F) n T) : Bool :=
  selectByOnehotBool (fun i => (dynIndex (s.simTrajectory i) s.timestep).valid) (fun i => (s.objectMetadata i).isSdc)

/-- `jnp.where(use, d, inf)` over all points of all paths, and its minimum. waymax/metrics/roadgraph.py:63-65,
waymax/metrics/route.py:219-239 -/
noncomputable def minDistIe (paths : List (SdcPath (Ieee F))) (use : SdcPath (Ieee F) → PathPoint (Ieee F) → Bool) (xy : Ieee F × Ieee F) :
    Ieee F :=
  Ieee.minList (paths.flatMap fun path => path.points.map fun p => if use path p then distIe L xy (p.x, p.y) else .inf false)

/-- `WrongWayMetric.compute`. waymax/metrics/roadgraph.py:23-68 -/
noncomputable def wrongWayMetricIe [NeZero T] (s : SimState (Ieee F) n T) : Except Err (MetricResultIe F) :=
  match s.sdcPaths with
  | none => .error .attributeError
  | some paths =>
    if paths.all fun path => path.points.isEmpty then .error .valueError else
    let minDist := minDistIe L paths (fun _ p => p.valid) (sdcXyCurrentIe s)
    let valid := minDist.isFinite
    .ok { value := if minDist.lt (Ieee.ofReal F 3.5) || !valid then Ieee.ofReal F 0 else minDist, valid := valid }

/-- `OffRouteMetric.compute`. waymax/metrics/route.py:150-256 -/
noncomputable def offRouteMetricIe [NeZero T] (s : SimState (Ieee F) n T) : Except Err (MetricResultIe F) :=
  match s.sdcPaths with
  | none => .error .valueError
  | some paths =>
    if paths.all fun path => path.points.isEmpty then .error .valueError else
    let xy := sdcXyCurrentIe s
    let sdcValid := sdcValidCurrentIe s
    let minOn := minDistIe L paths (fun path p => path.onRoute && (sdcValid && p.valid)) xy
    let minOff := minDistIe L paths (fun path p => !path.onRoute && (sdcValid && p.valid)) xy
    let offRoute := (Ieee.ofReal F 5).lt minOn || (Ieee.ofReal F 2).lt (minOn.sub minOff)
    let value := if offRoute then minOn else Ieee.ofReal F 0
    .ok { value := value, valid := value.isFinite }

/-! ### Overlap -/

/-- A 5-dof bounding box. waymax/utils/geometry.py:221-246 -/
structure BoxIe (F : IeeeFormat) where
  x : Ieee F
  y : Ieee F
  length : Ieee F
  width : Ieee F
  yaw : Ieee F

/-- `corners_from_bbox`. waymax/utils/geometry.py:221-236 -/
noncomputable def cornersIe (b : BoxIe F) : Fin 4 → Ieee F × Ieee F :=
  let c := b.yaw.trig L.cos
  let s := b.yaw.trig L.sin
  let two := Ieee.ofReal F 2
  let lc := (b.length.div two).mul c
  let ls := (b.length.div two).mul s
  let wc := (b.width.div two).mul c
  let ws := (b.width.div two).mul s
  ![((lc.add ws).add b.x, (ls.sub wc).add b.y),
    ((lc.sub ws).add b.x, (ls.add wc).add b.y),
    ((lc.neg.sub ws).add b.x, (ls.neg.add wc).add b.y),
    ((lc.neg.add ws).add b.x, (ls.neg.sub wc).add b.y)]

/-- A column of `normals_t`. waymax/utils/geometry.py:266-271 -/
noncomputable def axisIe (b : BoxIe F) (axis : Fin 2) : Ieee F × Ieee F :=
  if axis = 0 then (b.yaw.trig L.cos, b.yaw.trig L.sin) else ((b.yaw.trig L.sin).neg, b.yaw.trig L.cos)

/-- The projection of a corner, the two products rounded by themselves. waymax/utils/geometry.py:285, 289 -/
noncomputable def projIe (first b : BoxIe F) (axis : Fin 2) (k : Fin 4) : Ieee F :=
  let p := cornersIe L b k
  let a := axisIe L first axis
  (p.1.mul a.1).add (p.2.mul a.2)

/-- `jnp.min` over the four corners. waymax/utils/geometry.py:287, 290 -/
noncomputable def min4Ie (f : Fin 4 → Ieee F) : Ieee F := (((f 0).min (f 1)).min (f 2)).min (f 3)

/-- `jnp.max` over the four corners. waymax/utils/geometry.py:288, 291 -/
noncomputable def max4Ie (f : Fin 4 → Ieee F) : Ieee F := (((f 0).max (f 1)).max (f 2)).max (f 3)

/-- `_overlap_a_over_b`. waymax/utils/geometry.py:265-294 -/
noncomputable def overlapAOverBIe (first second : BoxIe F) : Bool :=
  (List.finRange 2).all fun axis =>
    (Ieee.ofReal F 0).lt
      (((max4Ie (projIe L first first axis)).min (max4Ie (projIe L first second axis))).sub
        ((min4Ie (projIe L first first axis)).max (min4Ie (projIe L first second axis))))

/-- `has_overlap`. waymax/utils/geometry.py:248-299 -/
noncomputable def hasOverlapIe (a b : BoxIe F) : Bool := overlapAOverBIe L a b && overlapAOverBIe L b a

/-- `stack_fields(['x', 'y', 'length', 'width', 'yaw'])`. waymax/datatypes/object_state.py:214-218 -/
def Pt.boxIe (p : Pt (Ieee F)) : BoxIe F := { x := p.x, y := p.y, length := p.length, width := p.width, yaw := p.yaw }

/-- `OverlapMetric.compute`: the pairwise test without the diagonal, other objects counted when they are valid.
waymax/metrics/overlap.py:31-69, waymax/utils/geometry.py:303-333 -/
noncomputable def overlapMetricIe [NeZero T] (s : SimState (Ieee F) n T) (j : Fin n) : MetricResultIe F :=
  let cur := fun i => dynIndex (s.simTrajectory i) s.timestep
  let hit := (List.finRange n).any fun i => (decide (i ≠ j) && hasOverlapIe L (cur i).boxIe (cur j).boxIe) && (cur i).valid
  { value := if hit then Ieee.ofReal F 1 else Ieee.ofReal F 0, valid := (cur j).valid }

/-! ### Rewards and the planning agent -/

/-- What a metric returns for one scenario. waymax/metrics/abstract_metric.py:25-38 -/
inductive MetricArrIe (F : IeeeFormat) (n : Nat) where
  | perObject (r : Fin n → MetricResultIe F)
  | scalar (r : MetricResultIe F)

/-- `masked_value()` as broadcast against an array over objects. waymax/datatypes/array.py:65-76 -/
noncomputable def MetricArrIe.masked : MetricArrIe F n → Fin n → Ieee F
  | .perObject r, i => (r i).maskedValue
  | .scalar r, _ => r.maskedValue

/-- The loop of `LinearCombinationReward.compute` over computed metrics and their weights. waymax/rewards/linear_combination_reward.py:52-60 -/
noncomputable def linearRewardIe (terms : List (MetricArrIe F n × Ieee F)) (agentMask : Fin n → Bool) (i : Fin n) : Ieee F :=
  terms.foldl (fun reward e => reward.add (((e.1.masked i).mul (Ieee.ofReal F (if agentMask i then 1 else 0))).mul e.2)) (Ieee.ofReal F 0)

/-- `select_by_onehot` on a metric, as in `PlanningAgentEnvironment.metrics`. waymax/env/planning_agent_environment.py:296-303 -/
noncomputable def planMetricIe (r : Fin n → MetricResultIe F) (isSdc : Fin n → Bool) : MetricResultIe F :=
  { value := selectByOnehotIe (fun i => (r i).value) isSdc, valid := selectByOnehotBool (fun i => (r i).valid) isSdc }

/-- `PlanningAgentEnvironment.reward` with rewards computed: the entry of the SDC; the environment controls the SDC only.
waymax/env/planning_agent_environment.py:323-352 -/
noncomputable def planRewardIe (terms : List (MetricArrIe F n × Ieee F)) (isSdc : Fin n → Bool) : Ieee F :=
  selectByOnehotIe (linearRewardIe terms isSdc) isSdc

end

end Waymax
