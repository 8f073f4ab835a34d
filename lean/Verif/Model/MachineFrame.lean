import Verif.Model.MachineMetrics
import Verif.Model.Observation
/-
Model of the change into the frame of an object in machine arithmetic: the functions of Model/Geometry.lean and Model/Observation.lean
with every operation rounded.
-/

namespace Waymax

open Real

/-- A 3x3 matrix of machine numbers. waymax/utils/geometry.py:98-104 -/
abbrev MatFl (φ : Format) := Fin 3 → Fin 3 → Flt φ

/-- The parts of the arithmetic that IEEE 754 does not fix: sine, cosine, how a matrix product adds up two or three products (in any
order, rounded or fused), and the inverse of a matrix. waymax/utils/geometry.py:63-65, 93, 126, waymax/datatypes/observation.py:146-148, 449-451 -/
structure FrameKernel (φ : Format) where
  sin : Flt φ → Flt φ
  cos : Flt φ → Flt φ
  dot2 : (Fin 2 → Flt φ) → (Fin 2 → Flt φ) → Flt φ
  dot3 : (Fin 3 → Flt φ) → (Fin 3 → Flt φ) → Flt φ
  inv : MatFl φ → MatFl φ

/-- The machine number one. waymax/utils/geometry.py:103, 124 -/
noncomputable def Flt.one (φ : Format) : Flt φ := Flt.round φ 1

section
variable {φ : Format} (K : FrameKernel φ)

/-- `pose_from_xy_yaw`: the homogeneous matrix. waymax/utils/geometry.py:69-114 -/
noncomputable def poseMatrixFl (xy : Flt φ × Flt φ) (yaw : Flt φ) : MatFl φ :=
  let poseYaw := yaw.neg
  let c := K.cos poseYaw
  let s := K.sin poseYaw
  ![![c, s.neg, ((c.mul xy.1).sub (s.mul xy.2)).neg],
    ![s, c, ((s.mul xy.1).add (c.mul xy.2)).neg],
    ![Flt.zero φ, Flt.zero φ, Flt.one φ]]

/-- `transform_points`, one 2D point: pad with 1, multiply by the matrix, drop the last coordinate. waymax/utils/geometry.py:117-148 -/
noncomputable def transformPointsFl (m : MatFl φ) (p : Flt φ × Flt φ) : Flt φ × Flt φ :=
  (K.dot3 ![p.1, p.2, Flt.one φ] (m 0), K.dot3 ![p.1, p.2, Flt.one φ] (m 1))

/-- `transform_direction`: the rotation part of the matrix. waymax/utils/geometry.py:47-65, 203-218 -/
def transformDirectionFl (m : MatFl φ) (d : Flt φ × Flt φ) : Flt φ × Flt φ :=
  (K.dot2 ![m 0 0, m 0 1] ![d.1, d.2], K.dot2 ![m 1 0, m 1 1] ![d.1, d.2])

/-- A 7-dof trajectory point of machine numbers. waymax/utils/geometry.py:157-173 -/
structure Row7Fl (φ : Format) where
  xy : Flt φ × Flt φ
  length : Flt φ
  width : Flt φ
  yaw : Flt φ
  vel : Flt φ × Flt φ

/-- `transform_trajectories` for 7 degrees of freedom: the velocity is the image of the velocity taken as a point, minus the image of the
origin. waymax/utils/geometry.py:157-199 -/
noncomputable def transformTrajectoriesFl (r : Row7Fl φ) (m : MatFl φ) (poseYaw : Flt φ) : Row7Fl φ :=
  let out := transformPointsFl K m r.vel
  let origin := transformPointsFl K m (Flt.zero φ, Flt.zero φ)
  { xy := transformPointsFl K m r.xy, length := r.length, width := r.width, yaw := r.yaw.add poseYaw,
    vel := (out.1.sub origin.1, out.2.sub origin.2) }

/-- `ObjectPose2D` of machine numbers. waymax/datatypes/observation.py:34-88 -/
structure Pose2DFl (φ : Format) where
  originalXy : Flt φ × Flt φ
  originalYaw : Flt φ
  matrix : MatFl φ
  deltaYaw : Flt φ
  valid : Bool

/-- `ObjectPose2D.from_center_and_yaw`. waymax/datatypes/observation.py:98-124 -/
noncomputable def Pose2DFl.fromCenterAndYaw (xy : Flt φ × Flt φ) (yaw : Flt φ) (valid : Bool) : Pose2DFl φ :=
  { originalXy := xy, originalYaw := yaw, matrix := poseMatrixFl K xy yaw, deltaYaw := yaw.neg, valid := valid }

/-- `ObjectPose2D.from_transformation`. waymax/datatypes/observation.py:126-159 -/
noncomputable def Pose2DFl.fromTransformation (matrix : MatFl φ) (deltaYaw : Flt φ) (valid : Bool) : Pose2DFl φ :=
  { originalXy := transformPointsFl K (K.inv matrix) (Flt.zero φ, Flt.zero φ), originalYaw := deltaYaw.neg, matrix := matrix,
    deltaYaw := deltaYaw, valid := valid }

/-- `combine_two_object_pose_2d`. waymax/datatypes/observation.py:430-454 -/
noncomputable def combineTwoObjectPose2dFl (src dst : Pose2DFl φ) : Pose2DFl φ :=
  let back := K.inv src.matrix
  Pose2DFl.fromTransformation K (fun i j => K.dot3 (dst.matrix i) fun k => back k j) (dst.deltaYaw.sub src.deltaYaw)
    (dst.valid && src.valid)

/-- `transform_trajectory`, one point. waymax/datatypes/observation.py:289-329 -/
noncomputable def transformTrajectoryPtFl (p : Pt (Flt φ)) (pose : Pose2DFl φ) : Pt (Flt φ) :=
  let localXy := transformPointsFl K pose.matrix (p.x, p.y)
  let localVel := transformDirectionFl K pose.matrix (p.velX, p.velY)
  { p with x := localXy.1, y := localXy.2, velX := localVel.1, velY := localVel.2, yaw := p.yaw.add pose.deltaYaw
           valid := p.valid && pose.valid }

/-- `transform_roadgraph_points`, one point. waymax/datatypes/observation.py:332-363 -/
noncomputable def transformRoadgraphPtFl (p : RgPoint (Flt φ)) (pose : Pose2DFl φ) : RgPoint (Flt φ) :=
  let dstXy := transformPointsFl K pose.matrix (p.x, p.y)
  let dstDir := transformDirectionFl K pose.matrix (p.dirX, p.dirY)
  { p with x := dstXy.1, y := dstXy.2, dirX := dstDir.1, dirY := dstDir.2, valid := p.valid && pose.valid }

/-- `transform_traffic_lights`, one light at one step. waymax/datatypes/observation.py:366-391 -/
noncomputable def transformTrafficLightFl (p : TlState (Flt φ)) (pose : Pose2DFl φ) : TlState (Flt φ) :=
  let dstXy := transformPointsFl K pose.matrix (p.x, p.y)
  { p with x := dstXy.1, y := dstXy.2, valid := p.valid && pose.valid }

/-- The parts of one observer's `Observation` that a change of frame touches. waymax/datatypes/observation.py:181-232 -/
structure ObsFl (φ : Format) (n k : Nat) where
  trajectory : Traj (Flt φ) n k
  pose2d : Pose2DFl φ
  roadgraph : List (RgPoint (Flt φ))
  trafficLights : List (Fin k → TlState (Flt φ))

/-- `transform_observation` for one observer. waymax/datatypes/observation.py:394-427 -/
noncomputable def transformObservationFl {n k : Nat} (o : ObsFl φ n k) (pose2d : Pose2DFl φ) : ObsFl φ n k :=
  let pose := combineTwoObjectPose2dFl K o.pose2d pose2d
  { trajectory := fun i t => transformTrajectoryPtFl K (o.trajectory i t) pose
    roadgraph := o.roadgraph.map fun p => transformRoadgraphPtFl K p pose
    trafficLights := o.trafficLights.map fun l t => transformTrafficLightFl K (l t) pose
    pose2d := pose2d }

/-- The pose of an observation in global coordinates. waymax/datatypes/observation.py:488-494 -/
noncomputable def globalPoseFl : Pose2DFl φ := Pose2DFl.fromCenterAndYaw K (Flt.zero φ, Flt.zero φ) (Flt.zero φ) true

/-- What an observer with the state `e` sees of a global observation: `observation_from_state` in the frame of an object and
`sdc_observation_from_state` after the road points have been selected. waymax/datatypes/observation.py:578-604, 662-674 -/
noncomputable def observeFromFl {n k : Nat} (trajectory : Traj (Flt φ) n k) (roadgraph : List (RgPoint (Flt φ)))
    (trafficLights : List (Fin k → TlState (Flt φ))) (e : Pt (Flt φ)) : ObsFl φ n k :=
  transformObservationFl K
    { trajectory := trajectory, pose2d := globalPoseFl K, roadgraph := roadgraph, trafficLights := trafficLights }
    (Pose2DFl.fromCenterAndYaw K (e.x, e.y) e.yaw e.valid)

/-- `filter_topk_roadgraph_points` for one reference point, in single precision: the distances are computed, the selection is exact.
waymax/datatypes/roadgraph.py:171-233 -/
noncomputable def filterTopkFl (L : Libm float32) (rg : List (RgPoint (Flt float32))) (ref : Flt float32 × Flt float32) (topk : Nat) :
    Except Err (List (RgPoint (Flt float32))) :=
  if topk > rg.length then .error .notImplemented
  else if topk < rg.length then
    let key := fun i : Fin rg.length => (orInf rg[i].valid (distFl L ref (rg[i].x, rg[i].y)).val : WithTop ℝ)
    .ok ((topKIdx key topk).map fun i => { rg[i] with type := f32OfInt rg[i].type, id := f32OfInt rg[i].id })
  else .ok rg

end

end Waymax
