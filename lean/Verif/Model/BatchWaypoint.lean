import Verif.Model.BatchPlanning
import Verif.Model.BatchMetrics
import Verif.Model.Validate
import Verif.Model.Waypoint
/-
The agents of waymax/agents/waypoint_following_agent.py and waymax/agents/constant_speed.py on whole batches, with the axis arithmetic,
broadcasting and shape checks of the code. As in Model/BatchMetrics.lean, a trailing axis of named entries (`xy`, `xyz`, the five numbers of
a box) is kept as an array of records, so that axis numbers counted from the end are smaller by one there. Data types are not modelled.
-/

namespace Waymax

open Real

namespace Nd
variable {β γ : Type}

/-- `jnp.expand_dims(x, axis)`, also written `x[..., None, :]` and the like.
Called at waymax/agents/waypoint_following_agent.py:332, 338, 348-349, 360, 366 -/
def expandDims (x : Nd β) (axis : Int) : Except Err (Nd β) := do
  let a ← normAxis (x.shape.length + 1) axis
  return { shape := x.shape.insertIdx a 1, get := fun idx => x.get (idx.eraseIdx a) }

/-- Reduction of one axis. Called at waymax/agents/waypoint_following_agent.py:373, 427, 433, 475 -/
def reduceAxis (f : List β → γ) (x : Nd β) (axis : Int) : Except Err (Nd γ) := do
  let a ← normAxis x.shape.length axis
  return { shape := x.shape.eraseIdx a, get := fun idx => f ((List.range (x.shape.getD a 0)).map fun k => x.get (idx.insertIdx a k)) }

/-- `jnp.min(x, axis)`: an axis without entries raises a ValueError. Called at waymax/agents/waypoint_following_agent.py:427, 433, 475 -/
noncomputable def minAxis (x : Nd (WithTop ℝ)) (axis : Int) : Except Err (Nd (WithTop ℝ)) := do
  let a ← normAxis x.shape.length axis
  assertThat (0 < x.shape.getD a 0) .valueError
  x.reduceAxis listMin axis

/-- `jnp.cumsum(x, axis=-1)`. Called at waymax/agents/waypoint_following_agent.py:429 -/
noncomputable def cumsumLast (x : Nd ℝ) : Nd ℝ :=
  { shape := x.shape, get := fun idx => ((List.range (idx.getLastD 0 + 1)).map fun k => x.get (idx.dropLast ++ [k])).sum }

/-- `x[..., -1:]`. Called at waymax/agents/waypoint_following_agent.py:619-620, 633 -/
def lastSlice (x : Nd β) : Nd β := x.sliceLast (x.shape.getLastD 0 - 1) (x.shape.getLastD 0)

/-- `jnp.tile(x, (1, ..., 1, m))`. Called at waymax/agents/waypoint_following_agent.py:632-633 -/
def tileLast (x : Nd β) (m : Nat) : Nd β :=
  { shape := x.shape.dropLast ++ [x.shape.getLastD 0 * m]
    get := fun idx => x.get (idx.dropLast ++ [idx.getLastD 0 % x.shape.getLastD 0]) }

end Nd

/-! ### Trajectories -/

namespace TrajNd

/-- `Trajectory.speed`. waymax/datatypes/object_state.py:192-202 -/
noncomputable def speed (t : TrajNd ℝ) : Except Err (Nd ℝ) := do
  let velXy ← Nd.stackLast2 t.velX t.velY
  Nd.where3 t.valid velXy.normLast2 (Nd.scalar (-1))

/-- `Trajectory.xyz`, as an array of triples. waymax/datatypes/object_state.py:187-190 -/
def xyz (t : TrajNd ℝ) : Except Err (Nd (ℝ × ℝ × ℝ)) := do
  assertThat (t.y.shape = t.x.shape ∧ t.z.shape = t.x.shape) .valueError
  return { shape := t.x.shape, get := fun idx => (t.x.get idx, t.y.get idx, t.z.get idx) }

end TrajNd

/-- `jnp.linalg.norm(a - b, axis=-1)` of two positions. Called at waymax/agents/waypoint_following_agent.py:469, 500 -/
noncomputable def distTriple (a b : ℝ × ℝ × ℝ) : ℝ := √((a.1 - b.1) ^ 2 + (a.2.1 - b.2.1) ^ 2 + (a.2.2 - b.2.2) ^ 2)

/-! ### Following the logged way points -/

/-- `project_point_to_traj` on one trajectory, given by its length, which the caller has found to be positive.
waymax/agents/waypoint_following_agent.py:531-570 -/
noncomputable def projectRow (T : Nat) (xy : ℝ × ℝ) (row : Nat → Pt ℝ) (extrapolate : Bool) : Projection :=
  match T with
  | 0 => { x := 0, y := 0, yaw := 0, reachedLastPoint := false }
  | T + 1 => projectToTrajectory xy.1 xy.2 (fun t : Fin (T + 1) => row t.val) extrapolate

/-- `_project_to_a_trajectory`: mapped over all axes but the last one, which have to agree. Fields of
different lengths are rejected here; the code would broadcast a field of length one.
waymax/agents/waypoint_following_agent.py:512-577 -/
noncomputable def projectNd (x y : Nd ℝ) (t : TrajNd ℝ) (extrapolate : Bool) : Except Err (Nd Projection) := do
  assertThat (y.shape = x.shape) .valueError
  assertThat (t.y.shape = t.x.shape ∧ t.yaw.shape = t.x.shape ∧ t.valid.shape = t.x.shape) .valueError
  assertThat (x.shape.dropLast = t.shape.dropLast) .valueError
  assertThat (x.shape.getLastD 0 = 1) .assertion
  assertThat (0 < t.numTimesteps) .valueError
  return { shape := x.shape
           get := fun idx => projectRow t.numTimesteps (x.get idx, y.get idx) (fun k => t.at_ (idx.dropLast ++ [k])) extrapolate }

/-- `default_x_vel` and `default_y_vel`. waymax/agents/waypoint_following_agent.py:140-145 -/
def defaultVelNd (invalidateOnEnd : Bool) (v : Nd ℝ) : Nd ℝ := if invalidateOnEnd then v.map fun _ => 0 else v

open Classical in
/-- The validity after reaching the end. waymax/agents/waypoint_following_agent.py:157-165 -/
noncomputable def endValidNd (invalidateOnEnd : Bool) (valid reached : Nd Bool) (newSpeed : Nd ℝ) : Except Err (Nd Bool) :=
  if invalidateOnEnd then (do
    let moving ← Nd.zip (fun r (v : ℝ) => r && decide (v > 1)) reached newSpeed
    Nd.zip (fun a b => a && !b) valid moving)
  else .ok valid

/-- `_get_next_trajectory_by_projection`. waymax/agents/waypoint_following_agent.py:91-182 -/
noncomputable def nextByProjectionNd (invalidateOnEnd : Bool) (log cur : TrajNd ℝ) (newSpeed : Nd ℝ) (newSpeedValid : Nd Bool)
    (dt : ℝ := 0.1) : Except Err (TrajNd ℝ) := do
  let curSpeed ← cur.speed
  let valid := newSpeedValid.expandLast
  let newSpeed ← Nd.where3 valid newSpeed.expandLast curSpeed
  let distTravel ← Nd.zip (fun a b => (a + b) / 2 * dt) newSpeed curSpeed
  let dx ← Nd.zip (fun d a => d * cos a) distTravel cur.yaw
  let dy ← Nd.zip (fun d a => d * sin a) distTravel cur.yaw
  let nextX ← Nd.zip (fun a b => a + b) cur.x dx
  let nextY ← Nd.zip (fun a b => a + b) cur.y dy
  let proj ← projectNd nextX nextY log !invalidateOnEnd
  let reached := proj.map fun q => q.reachedLastPoint
  let vx ← Nd.zip (fun v a => v * cos a) newSpeed cur.yaw
  let vy ← Nd.zip (fun v a => v * sin a) newSpeed cur.yaw
  let velX ← Nd.where3 reached (defaultVelNd invalidateOnEnd cur.velX) vx
  let velY ← Nd.where3 reached (defaultVelNd invalidateOnEnd cur.velY) vy
  let valid ← endValidNd invalidateOnEnd valid reached newSpeed
  let valid ← Nd.zip (fun a b => a && b) valid cur.valid
  let next : TrajNd ℝ :=
    { cur with x := proj.map fun q => q.x, y := proj.map fun q => q.y, yaw := proj.map fun q => q.yaw, velX, velY, valid }
  next.validate
  next.zipLeaves (fun _ x y => Nd.where3 next.valid x y) next.fillInvalid

/-- What `update_speed` of a subclass returns for a batch. waymax/agents/waypoint_following_agent.py:184-199 -/
abbrev UpdateSpeedNd := StateNd ℝ → Except Err (Nd ℝ × Nd Bool)

/-- `WaypointFollowingPolicy.update_trajectory`. waymax/agents/waypoint_following_agent.py:68-89 -/
noncomputable def waypointUpdateNd (invalidateOnEnd : Bool) (updateSpeed : UpdateSpeedNd) (s : StateNd ℝ) : Except Err (UpdNd ℝ) := do
  let v ← updateSpeed s
  let cur ← s.simTrajectory.slice s.timestep 1
  let next ← nextByProjectionNd invalidateOnEnd s.logTrajectory cur v.1 v.2
  return { x := next.x, y := next.y, yaw := next.yaw, velX := next.velX, velY := next.velY, valid := next.valid }

/-- `ConstantSpeedPolicy.update_speed`. waymax/agents/constant_speed.py:114-128 -/
def constantSpeedUpdateNd (speed : ℝ) : UpdateSpeedNd := fun s => do
  let n ← s.simTrajectory.numObjects
  return ({ shape := s.shape ++ [n], get := fun _ => speed }, { shape := s.shape ++ [n], get := fun _ => true })

/-- `vel_x`, `vel_y` of the continuation. waymax/agents/constant_speed.py:61-66 -/
noncomputable def constantVelNd (speed : Option ℝ) (along : ℝ → ℝ) (vel yaw : Nd ℝ) : Nd ℝ :=
  match speed with
  | none => vel
  | some v => yaw.map fun a => v * along a

/-- `create_constant_speed_actor`: the selected actions. waymax/agents/constant_speed.py:28-99 -/
noncomputable def constantSpeedActionNd (inverse : InverseNd ℝ) (isControlled : StateNd ℝ → Nd Bool) (speed : Option ℝ) (s : StateNd ℝ) :
    Except Err (ActNd ℝ) := do
  let t0 ← s.simTrajectory.slice s.timestep 1
  let velX := constantVelNd speed cos t0.velX t0.yaw
  let velY := constantVelNd speed sin t0.velY t0.yaw
  let x ← Nd.zip (fun a v => a + v * 0.1) t0.x velX
  let y ← Nd.zip (fun a v => a + v * 0.1) t0.y velY
  let valid ← Nd.zip (fun a b => a && b) (isControlled s).expandLast t0.valid
  let t1 : TrajNd ℝ := { t0 with x, y, velX, velY, valid, timestampMicros := t0.timestampMicros.map fun t => t + 100000 }
  let combined ← t0.zipLeaves (fun _ a b => a.concatLast b) t1
  inverse combined s.objectMetadata 0

/-! ### The intelligent driver model -/

/-- `_find_reference_traj_from_log_traj`. waymax/agents/waypoint_following_agent.py:479-509 -/
noncomputable def findReferenceNd (xyz : Nd (ℝ × ℝ × ℝ)) (t : TrajNd ℝ) (numPts : Nat) : Except Err (TrajNd ℝ) := do
  assertThat (xyz.shape = t.shape.dropLast) .assertion
  let pts ← t.xyz
  assertThat (0 < t.numTimesteps) .valueError
  let top : Nd Int :=
    { shape := xyz.shape
      get := fun q => argmin ((List.range t.numTimesteps).map fun k => orInf (t.valid.get (q ++ [k])) (distTriple (xyz.get q) (pts.get (q ++ [k])))) }
  t.slice top numPts

/-- `_repeat_last`. waymax/agents/waypoint_following_agent.py:631-634 -/
def repeatLastNd (numPoints : Nat) (β : Type) (x : Nd β) : Except Err (Nd β) := x.concatLast (x.lastSlice.tileLast numPoints)

/-- One coordinate of `new_xy_points`: `along` is the cosine or the sine. waymax/agents/waypoint_following_agent.py:618-629 -/
noncomputable def headwayNd (along : ℝ → ℝ) (c yaw : Nd ℝ) (distance : ℝ) (numPoints : Nat) : Except Err (Nd ℝ) := do
  let dir := yaw.lastSlice.map along
  let spacings : Nd ℝ :=
    { shape := List.replicate (dir.shape.length - 1) 1 ++ [numPoints + 1], get := fun idx => distance * (idx.getLastD 0 : Nat) / numPoints }
  let p ← Nd.zip (fun d s => d * s) dir spacings
  let p ← Nd.zip (fun a b => a + b) p c.lastSlice
  c.concatLast (p.sliceLast 1 (numPoints + 1))

/-- `_add_headway_waypoints`. waymax/agents/waypoint_following_agent.py:598-643 -/
noncomputable def addHeadwayNd (t : TrajNd ℝ) (distance : ℝ) (numPoints : Nat) : Except Err (TrajNd ℝ) := do
  let x ← headwayNd cos t.x t.yaw distance numPoints
  let y ← headwayNd sin t.y t.yaw distance numPoints
  let rep ← t.mapLeaves (repeatLastNd numPoints)
  let new : TrajNd ℝ := { rep with x, y }
  new.validate
  return new

/-- The way points along which IDM looks for collisions. waymax/agents/waypoint_following_agent.py:301-326 -/
noncomputable def idmLookaheadNd (P : IdmParams) (log : TrajNd ℝ) (position : Nd (ℝ × ℝ × ℝ)) (cur : TrajNd ℝ) (pre : List Nat) (n : Nat) :
    Except Err (TrajNd ℝ) := do
  let size := if P.lookaheadFromCurrentPosition then 1 else P.maxLookahead
  let traj ← findReferenceNd position (if P.lookaheadFromCurrentPosition then cur else log) size
  assertThat (traj.x.shape = pre ++ [n, size]) .assertion
  if P.additionalLookaheadPoints > 0 then addHeadwayNd traj P.additionalLookaheadDistance P.additionalLookaheadPoints
  else return traj

open Classical in
/-- `collision_pairwise`. waymax/agents/waypoint_following_agent.py:328-357 -/
noncomputable def idmCollisionNd (traj cur : TrajNd ℝ) (pre : List Nat) (n total : Nat) : Except Err (Nd Bool) := do
  let shape := pre ++ [n, n, total]
  let boxes ← boxesNd traj
  let boxes ← boxes.expandDims (-2)
  let trajBox ← boxes.broadcastTo shape
  let boxes ← boxesNd cur
  let boxes ← boxes.expandDims (-3)
  let objBox ← boxes.broadcastTo shape
  assertThat (trajBox.shape = objBox.shape) .assertion
  let overlap ← Nd.zip (fun a b => decide (hasOverlap a b)) trajBox objBox
  let selfMask : Nd Bool :=
    { shape := List.replicate pre.length 1 ++ [n, n, 1], get := fun idx => decide (idx.getD pre.length 0 = idx.getD (pre.length + 1) 0) }
  let a ← traj.valid.expandDims (-2)
  let b ← cur.valid.expandDims (-3)
  let ab ← Nd.zip (fun a b => a && b) a b
  let valid ← Nd.zip (fun a m => a && !m) ab selfMask
  Nd.where3 valid overlap (Nd.scalar false)

/-- `_compute_lead_velocity`. waymax/agents/waypoint_following_agent.py:399-435 -/
noncomputable def leadVelocityNd (speeds : Nd ℝ) (collisions speedsValid : Nd Bool) : Except Err (Nd ℝ) := do
  let velsAt ← Nd.zip (fun c v => orInf c v) collisions speeds
  let velsAt ← Nd.zip (fun (ok : Bool) v => if ok then v else ⊤) speedsValid velsAt
  let velsT ← velsAt.minAxis (-2)
  let cumsumT := (velsT.map fun v => v.untopD 0).cumsumLast
  let cum ← Nd.zip (fun v (c : ℝ) => if v = ⊤ then ⊤ else (c : WithTop ℝ)) velsT cumsumT
  let lead ← cum.minAxis (-1)
  return lead.map fun v => v.untopD (-1)

/-- `_compute_lead_distance` (`use_arclength=False`, `current_position` given). waymax/agents/waypoint_following_agent.py:437-476 -/
noncomputable def leadDistanceNd (future : Nd (ℝ × ℝ × ℝ)) (collision : Nd Bool) (position : Nd (ℝ × ℝ × ℝ)) : Except Err (Nd ℝ) := do
  let dists ← Nd.zip distTriple position future
  let d ← Nd.zip (fun c v => orInf c v) collision dists
  let lead ← d.minAxis (-1)
  return lead.map fun v => v.untopD (-1)

/-- `_get_accel`. The last statements combine arrays of one shape. waymax/agents/waypoint_following_agent.py:270-397 -/
noncomputable def idmAccelNd (P : IdmParams) (log : TrajNd ℝ) (position : Nd (ℝ × ℝ × ℝ)) (curSpeed : Nd ℝ) (cur : TrajNd ℝ) :
    Except Err (Nd ℝ) := do
  let n ← cur.numObjects
  let pre := cur.shape.dropLast.dropLast
  let r := pre.length + 1
  assertThat (position.shape.take r = log.shape.take r ∧ curSpeed.shape.take r = log.shape.take r ∧ cur.shape.take r = log.shape.take r)
    .assertion
  log.validate
  cur.validate
  let traj ← idmLookaheadNd P log position cur pre n
  let total := (if P.lookaheadFromCurrentPosition then 1 else P.maxLookahead) + P.additionalLookaheadPoints
  let collision ← idmCollisionNd traj cur pre n total
  let speed ← cur.speed
  let speed ← speed.expandDims (-3)
  let speedTiled ← speed.broadcastTo collision.shape
  let speedValid ← cur.valid.expandDims (-3)
  let leadVel ← leadVelocityNd speedTiled collision speedValid
  let future ← traj.xyz
  let anyCollision ← collision.reduceAxis (fun l => l.any id) (-2)
  let curPos ← cur.xyz
  let leadDist ← leadDistanceNd future anyCollision curPos
  let lead ← Nd.zip (fun u g => (u, g)) leadVel leadDist
  Nd.zip (fun v (ug : ℝ × ℝ) => idmFormula P v ug.1 ug.2) curSpeed lead

open Classical in
/-- `IDMRoutePolicy.update_speed`. waymax/agents/waypoint_following_agent.py:239-268 -/
noncomputable def idmSpeedsNd (P : IdmParams) (dt : ℝ := 0.1) : UpdateSpeedNd := fun s => do
  let cur ← s.simTrajectory.slice s.timestep 1
  let xyz ← cur.xyz
  let position ← xyz.indexLast 0
  let speed ← cur.speed
  let curSpeed ← speed.indexLast 0
  let accel ← idmAccelNd P s.logTrajectory position curSpeed cur
  let speed ← Nd.zip (fun v a => v + dt * a) curSpeed accel
  return (speed.map fun v => if v < 0 then 0 else v, curSpeed.map fun _ => true)

/-! ### The agents -/

/-- `ConstantSpeedPolicy` on batches. waymax/agents/constant_speed.py:102-128 -/
noncomputable def constantSpeedPolicyNd {K P : Type} (speed : ℝ) : SimAgentNd Unit K P :=
  simAgentNd defaultControlNd (waypointUpdateNd true (constantSpeedUpdateNd speed))

/-- `IDMRoutePolicy` on batches. waymax/agents/waypoint_following_agent.py:202-268 -/
noncomputable def idmAgentNd {K P' : Type} (P : IdmParams) (isControlled : StateNd ℝ → Nd Bool := defaultControlNd) : SimAgentNd Unit K P' :=
  simAgentNd isControlled (waypointUpdateNd P.invalidateOnEnd (idmSpeedsNd P))

end Waymax
