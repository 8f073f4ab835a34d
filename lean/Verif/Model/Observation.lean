import Verif.Model.Select
import Verif.Model.BaseEnv
/-
Model of waymax/datatypes/observation.py and of `filter_topk_roadgraph_points` in waymax/datatypes/roadgraph.py, over real
numbers, for one (unbatched) scenario. An observation of shape (num_observations,) is a function from observers to `Obs`.
-/

namespace Waymax

open Real

/-! ### Nearest road-graph points -/

/-- `a / m` rounded to the nearest integer, halves to even. Rounding to float32 at waymax/datatypes/roadgraph.py:204-231 -/
def divRoundEven (a : Int) (m : Nat) : Int :=
  let q := a / m
  let r := a % m
  if 2 * r < m then q else if 2 * r > m then q + 1 else if q % 2 = 0 then q else q + 1

/-- An integer converted to float32 (24 bit significand) and back. Out-of-range results of the conversion back (beyond int32) are
not modelled. waymax/datatypes/roadgraph.py:204-216, 226-228 -/
def f32OfInt (a : Int) : Int :=
  let e := Nat.log2 a.natAbs - 23
  divRoundEven a (2 ^ e) * 2 ^ e

open Classical in
/-- `jax.lax.top_k(-key, k)`: indices by increasing key, the lower index first among equal keys.
Called at waymax/datatypes/roadgraph.py:202 -/
noncomputable def topKIdx {N : Nat} (key : Fin N → WithTop ℝ) (k : Nat) : List (Fin N) :=
  ((List.finRange N).mergeSort fun a b => decide (key a ≤ key b)).take k

/-- `filter_topk_roadgraph_points` for one reference point. All fields travel through one float32 array, so the integer ones are
rounded. waymax/datatypes/roadgraph.py:171-233 -/
noncomputable def filterTopk (rg : List (RgPoint ℝ)) (ref : ℝ × ℝ) (topk : Nat) : Except Err (List (RgPoint ℝ)) :=
  if topk > rg.length then .error .notImplemented
  else if topk < rg.length then
    let key := fun i : Fin rg.length => orInf rg[i].valid (hypot (ref.1 - rg[i].x) (ref.2 - rg[i].y))
    .ok ((topKIdx key topk).map fun i => { rg[i] with type := f32OfInt rg[i].type, id := f32OfInt rg[i].id })
  else .ok rg

/-! ### Observations -/

/-- One observer's `Observation`: `n` objects, `K` history steps. waymax/datatypes/observation.py:181-232 -/
structure Obs (n K : Nat) where
  trajectory : Traj ℝ n K
  isEgo : Fin n → Bool
  pose2d : Pose2D
  metadata : Fin n → ObjMeta
  roadgraph : List (RgPoint ℝ)
  trafficLights : List (Fin K → TlState ℝ)
  sdcPaths : Option (List (SdcPath ℝ))

/-- `transform_trajectory`, one point. waymax/datatypes/observation.py:289-329 -/
def transformTrajectoryPt (p : Pt ℝ) (pose : Pose2D) : Pt ℝ :=
  let localXy := transformPoints pose.matrix (p.x, p.y)
  let localVel := transformDirection pose.matrix (p.velX, p.velY)
  { p with x := localXy.1, y := localXy.2, velX := localVel.1, velY := localVel.2, yaw := p.yaw + pose.deltaYaw
           valid := p.valid && pose.valid }

/-- `transform_roadgraph_points`, one point. waymax/datatypes/observation.py:332-363 -/
def transformRoadgraphPt (p : RgPoint ℝ) (pose : Pose2D) : RgPoint ℝ :=
  let dstXy := transformPoints pose.matrix (p.x, p.y)
  let dstDir := transformDirection pose.matrix (p.dirX, p.dirY)
  { p with x := dstXy.1, y := dstXy.2, dirX := dstDir.1, dirY := dstDir.2, valid := p.valid && pose.valid }

/-- `transform_traffic_lights`, one light at one step. waymax/datatypes/observation.py:366-391 -/
def transformTrafficLight (p : TlState ℝ) (pose : Pose2D) : TlState ℝ :=
  let dstXy := transformPoints pose.matrix (p.x, p.y)
  { p with x := dstXy.1, y := dstXy.2, valid := p.valid && pose.valid }

/-- `transform_observation` for one observer. waymax/datatypes/observation.py:394-427 -/
noncomputable def transformObservation {n K : Nat} (o : Obs n K) (pose2d : Pose2D) : Obs n K :=
  let pose := combineTwoObjectPose2d o.pose2d pose2d
  { o with
    trajectory := fun i t => transformTrajectoryPt (o.trajectory i t) pose
    roadgraph := o.roadgraph.map fun p => transformRoadgraphPt p pose
    trafficLights := o.trafficLights.map fun l t => transformTrafficLight (l t) pose
    pose2d := pose2d }

/-- The placeholder SDC path of a global observation. waymax/datatypes/observation.py:498-507 -/
def placeholderPaths : List (SdcPath ℝ) :=
  [{ points := [{ x := 0, y := 0, z := 0, id := 0, valid := false, arcLength := 0 }], onRoute := false }]

section
variable {n T : Nat}

/-- `global_observation_from_state` for one of the tiled observers. A window longer than the time axis is rejected by JAX; a state
without road graph fails when the observation is validated. waymax/datatypes/observation.py:457-530 -/
noncomputable def globalObservation (s : SimState ℝ n T) (K : Nat) : Except Err (Obs n K) :=
  if h : K ≤ T then
    match s.roadgraphPoints with
    | none => .error .attributeError
    | some rg =>
      .ok { trajectory := fun i => dynSlice (s.simTrajectory i) (s.timestep - K + 1) K h
            isEgo := fun _ => false
            pose2d := Pose2D.fromCenterAndYaw (0, 0) 0 true
            metadata := s.objectMetadata
            roadgraph := rg
            trafficLights := s.logTrafficLight.map fun l => dynSlice l (s.timestep - K + 1) K h
            sdcPaths := some placeholderPaths }
  else .error .typeError

/-- `config.CoordinateFrame`. waymax/config.py:29-44 -/
inductive Frame where
  | SDC | OBJECT | GLOBAL
  deriving DecidableEq, Repr

/-- `jax.lax.top_k(is_sdc, k=1)`: the first index of a largest entry; fails without objects.
waymax/datatypes/observation.py:585, 638 -/
def sdcIndex (md : Fin n → ObjMeta) : Except Err (Fin n) :=
  if h : 0 < n then
    match (List.finRange n).find? fun i => (md i).isSdc with
    | some i => .ok i
    | none => .ok ⟨0, h⟩
  else .error .valueError

/-- The road graph as filtered for a reference point. waymax/datatypes/observation.py:572-577, 655-660 -/
noncomputable def Obs.withTopk {K : Nat} (o : Obs n K) (isEgo : Fin n → Bool) (ref : ℝ × ℝ) (topk : Nat) :
    Except Err (Obs n K) := do
  let rg ← filterTopk o.roadgraph ref topk
  return { o with isEgo := isEgo, roadgraph := rg }

/-- `observation_from_state`, the row of observer `i`. `is_ego` is the diagonal matrix of `arange` compared with 1.
waymax/datatypes/observation.py:540-605 -/
noncomputable def observationFromState [NeZero T] (s : SimState ℝ n T) (K topk : Nat) (frame : Frame) (i : Fin n) :
    Except Err (Obs n K) := do
  let cur := s.currentSim
  let g ← globalObservation s K
  let isEgo := fun j : Fin n => decide ((if i = j then i.val else 0) = 1)
  let o ← g.withTopk isEgo ((cur i).x, (cur i).y) topk
  match frame with
  | .OBJECT => return transformObservation o (Pose2D.fromCenterAndYaw ((cur i).x, (cur i).y) (cur i).yaw (cur i).valid)
  | .GLOBAL => return o
  | .SDC => do
    let k ← sdcIndex s.objectMetadata
    return transformObservation o (Pose2D.fromCenterAndYaw ((cur k).x, (cur k).y) (cur k).yaw (cur k).valid)

/-- `sdc_observation_from_state` (its single row). waymax/datatypes/observation.py:608-676 -/
noncomputable def sdcObservationFromState [NeZero T] (s : SimState ℝ n T) (K topk : Nat) (frame : Frame) :
    Except Err (Obs n K) := do
  let cur := s.currentSim
  let k ← sdcIndex s.objectMetadata
  let g ← globalObservation s K
  let o ← g.withTopk (fun j => (s.objectMetadata j).isSdc) ((cur k).x, (cur k).y) topk
  let o := match s.sdcPaths with
    | none => o
    | some paths => { o with sdcPaths := some paths }
  match frame with
  | .OBJECT | .SDC =>
    return transformObservation o (Pose2D.fromCenterAndYaw ((cur k).x, (cur k).y) (cur k).yaw (cur k).valid)
  | .GLOBAL => return o

end

end Waymax
