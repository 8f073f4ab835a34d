import Verif.Model.Planning
import Mathlib.Analysis.SpecialFunctions.Pow.Real
/-
Model of waymax/agents: waypoint_following_agent.py, constant_speed.py and sim_agent.py, over real numbers.

Not modelled: `_compute_arclengths` (waypoint_following_agent.py:580-595), which no caller uses (`use_arclength` is never set).
`jnp` powers are real powers; the division by `desired_vel` is real division.
-/

namespace Waymax

open Real

/-- `Trajectory.speed` of one point. waymax/datatypes/object_state.py:196-201 -/
noncomputable def Pt.speed (p : Pt ℝ) : ℝ := if p.valid then hypot p.velX p.velY else -1

/-- `jnp.linalg.norm` of the difference of two 3D positions. Called at waymax/agents/waypoint_following_agent.py:469, 500 -/
noncomputable def dist3 (p q : Pt ℝ) : ℝ := √((p.x - q.x) ^ 2 + (p.y - q.y) ^ 2 + (p.z - q.z) ^ 2)

/-- `jnp.argmin` along an axis. Called at waymax/agents/waypoint_following_agent.py:502, 541 -/
def argminFin {β : Type} [LinearOrder β] {T : Nat} (f : Fin T → β) : Nat := argmin (List.ofFn f)

/-- `jnp.argmax` along an axis: the first index of a largest element. Called at waymax/agents/waypoint_following_agent.py:548 -/
def argmaxFin {β : Type} [LinearOrder β] {T : Nat} (f : Fin T → β) : Nat := argmin (List.ofFn fun t => OrderDual.toDual (f t))

/-! ### Following the logged way points -/

section
variable {n T : Nat} [NeZero T]

/-- Result of `_project_to_a_trajectory`. waymax/agents/waypoint_following_agent.py:512-577 -/
structure Projection where
  x : ℝ
  y : ℝ
  yaw : ℝ
  reachedLastPoint : Bool

open Classical in
/-- `_project_to_a_trajectory` for one object. waymax/agents/waypoint_following_agent.py:512-577 -/
noncomputable def projectToTrajectory (x y : ℝ) (traj : Fin T → Pt ℝ) (extrapolate : Bool) : Projection :=
  let dist : Fin T → WithTop ℝ := fun t => orInf (traj t).valid (hypot ((traj t).x - x) ((traj t).y - y))
  let idx : Int := argminFin dist
  let src := dynIndex traj idx
  let dir := (cos src.yaw, sin src.yaw)
  let lastValidIdx : Int := argmaxFin fun t : Fin T => if (traj t).valid then t.val else 0
  let last := dynIndex traj lastValidIdx
  let reached := decide (hypot (last.x - src.x) (last.y - src.y) < 5e-2) || decide (dynIndex dist idx > ((5 : ℝ) : WithTop ℝ))
  let dir := if !extrapolate && reached then (0, 0) else dir
  let along := dir.1 * (x - src.x) + dir.2 * (y - src.y)
  { x := dir.1 * along + src.x, y := dir.2 * along + src.y, yaw := src.yaw, reachedLastPoint := reached }

open Classical in
/-- `_get_next_trajectory_by_projection` for one object. waymax/agents/waypoint_following_agent.py:91-182 -/
noncomputable def nextByProjection (invalidateOnEnd : Bool) (log : Fin T → Pt ℝ) (cur : Pt ℝ) (newSpeed : ℝ)
    (newSpeedValid : Bool) (dt : ℝ := 0.1) : Pt ℝ :=
  let newSpeed := if newSpeedValid then newSpeed else cur.speed
  let distTravel := (newSpeed + cur.speed) / 2 * dt
  let proj := projectToTrajectory (cur.x + distTravel * cos cur.yaw) (cur.y + distTravel * sin cur.yaw) log !invalidateOnEnd
  let defaultVelX := if invalidateOnEnd then 0 else cur.velX
  let defaultVelY := if invalidateOnEnd then 0 else cur.velY
  let velX := if proj.reachedLastPoint then defaultVelX else newSpeed * cos cur.yaw
  let velY := if proj.reachedLastPoint then defaultVelY else newSpeed * sin cur.yaw
  let valid := if invalidateOnEnd then newSpeedValid && !(proj.reachedLastPoint && decide (newSpeed > 1)) else newSpeedValid
  if valid && cur.valid then
    { cur with x := proj.x, y := proj.y, yaw := proj.yaw, velX := velX, velY := velY, valid := true }
  else invalidPt

/-- What `update_speed` of a subclass returns for each object: speed and validity.
waymax/agents/waypoint_following_agent.py:184-199 -/
abbrev UpdateSpeed (n T : Nat) := SimState ℝ n T → Fin n → ℝ × Bool

/-- `WaypointFollowingPolicy.update_trajectory`. waymax/agents/waypoint_following_agent.py:68-89 -/
noncomputable def waypointUpdate (invalidateOnEnd : Bool) (updateSpeed : UpdateSpeed n T) (s : SimState ℝ n T) (i : Fin n) :
    Upd ℝ :=
  let p := nextByProjection invalidateOnEnd (s.logTrajectory i) (dynIndex (s.simTrajectory i) s.timestep)
    (updateSpeed s i).1 (updateSpeed s i).2
  { x := p.x, y := p.y, yaw := p.yaw, velX := p.velX, velY := p.velY, valid := p.valid }

/-- `SimAgentActor.select_action` and `init`, for a subclass given by its `update_trajectory`. `isControlled` is
`is_controlled_func`. waymax/agents/sim_agent.py:63-97 -/
def simAgent {K P : Type} (isControlled : SimState ℝ n T → Fin n → Bool) (updateTrajectory : SimState ℝ n T → Fin n → Upd ℝ) :
    SimAgent Unit K P n T where
  init := fun _ _ => ()
  selectAction := fun _ s _ _ =>
    { action := fun i => (updateTrajectory s.sim i).asAction, actorState := (), isControlled := isControlled s.sim }

/-- `_DEFAULT_CONTROL_FUNC`. waymax/agents/sim_agent.py:24 -/
def defaultControlFunc (s : SimState ℝ n T) (i : Fin n) : Bool := !(s.objectMetadata i).isSdc

/-- `FrozenSimPolicy.update_trajectory`. waymax/agents/sim_agent.py:105-123 -/
def frozenUpdate (s : SimState ℝ n T) (i : Fin n) : Upd ℝ :=
  let p := dynIndex (s.simTrajectory i) s.timestep
  { x := p.x, y := p.y, yaw := p.yaw, velX := p.velX, velY := p.velY, valid := p.valid }

/-- `ConstantSpeedPolicy.update_speed`. waymax/agents/constant_speed.py:114-128 -/
def constantSpeedUpdate (speed : ℝ) : UpdateSpeed n T := fun _ _ => (speed, true)

/-- `ConstantSpeedPolicy`: it always passes `invalidate_on_end=True` and keeps the default control function.
waymax/agents/constant_speed.py:102-128 -/
noncomputable def constantSpeedPolicy {K P : Type} (speed : ℝ) : SimAgent Unit K P n T :=
  simAgent defaultControlFunc (waypointUpdate true (constantSpeedUpdate speed))

/-- The one-step continuation built by `create_constant_speed_actor`. waymax/agents/constant_speed.py:58-80 -/
noncomputable def constantSpeedNext (speed : Option ℝ) (isControlled : Bool) (p : Pt ℝ) : Pt ℝ :=
  let velX := match speed with
    | none => p.velX
    | some v => v * cos p.yaw
  let velY := match speed with
    | none => p.velY
    | some v => v * sin p.yaw
  { p with
    x := p.x + velX * 0.1, y := p.y + velY * 0.1, velX := velX, velY := velY, valid := isControlled && p.valid
    timestampMicros := p.timestampMicros + 100000 }

/-- `create_constant_speed_actor`: the selected actions. waymax/agents/constant_speed.py:28-99 -/
noncomputable def constantSpeedAction {D : Type} (d : DynamicsModel ℝ D n) (isControlled : SimState ℝ n T → Fin n → Bool)
    (speed : Option ℝ) (s : SimState ℝ n T) : Fin n → Act D :=
  let t0 := fun i => dynIndex (s.simTrajectory i) s.timestep
  let t1 := fun i => constantSpeedNext speed (isControlled s i) (t0 i)
  d.inverse (T := 2) (fun i => ![t0 i, t1 i]) s.objectMetadata 0

/-! ### The intelligent driver model -/

/-- Constructor arguments of `IDMRoutePolicy`, with their defaults. waymax/agents/waypoint_following_agent.py:209-237 -/
structure IdmParams where
  desiredVel : ℝ := 30
  minSpacing : ℝ := 2
  safeTimeHeadway : ℝ := 2
  maxAccel : ℝ := 2
  maxDecel : ℝ := 4
  delta : ℝ := 4
  maxLookahead : Nat := 10
  lookaheadFromCurrentPosition : Bool := true
  additionalLookaheadPoints : Nat := 10
  additionalLookaheadDistance : ℝ := 10
  invalidateOnEnd : Bool := false

/-- `_find_reference_traj_from_log_traj` for one object; `T` is the length of `traj`. A window longer than the trajectory is
rejected by JAX. waymax/agents/waypoint_following_agent.py:479-509 -/
noncomputable def findReference {T : Nat} (cur : Pt ℝ) (traj : Fin T → Pt ℝ) (numPts : Nat) : Except Err (List (Pt ℝ)) :=
  let dists : Fin T → WithTop ℝ := fun t => orInf (traj t).valid (dist3 cur (traj t))
  if h : numPts ≤ T then .ok (List.ofFn (dynSlice traj (argminFin dists) numPts h)) else .error .typeError

/-- `_add_headway_waypoints` for one object; an empty trajectory fails when broadcasting.
waymax/agents/waypoint_following_agent.py:598-643 -/
noncomputable def addHeadwayWaypoints (traj : List (Pt ℝ)) (distance : ℝ) (numPoints : Nat) : Except Err (List (Pt ℝ)) :=
  match traj.getLast? with
  | none => .error .typeError
  | some last =>
    .ok (traj ++ (List.range numPoints).map fun k =>
      let spacing := distance * (k + 1 : Nat) / numPoints
      { last with x := cos last.yaw * spacing + last.x, y := sin last.yaw * spacing + last.y })

/-- The way points along which IDM looks for collisions. waymax/agents/waypoint_following_agent.py:303-326 -/
noncomputable def idmLookahead (P : IdmParams) (log : Fin T → Pt ℝ) (cur : Pt ℝ) : Except Err (List (Pt ℝ)) := do
  let traj ← if P.lookaheadFromCurrentPosition then findReference cur (fun _ : Fin 1 => cur) 1
    else findReference cur log P.maxLookahead
  if P.additionalLookaheadPoints > 0 then
    addHeadwayWaypoints traj P.additionalLookaheadDistance P.additionalLookaheadPoints
  else .ok traj

open Classical in
/-- `collision_pairwise[i, j, t]`, `w` being way point `t` of object `i`. waymax/agents/waypoint_following_agent.py:328-359 -/
noncomputable def idmCollision (cur : Fin n → Pt ℝ) (i : Fin n) (w : Pt ℝ) (j : Fin n) : Bool :=
  let collisionValid := w.valid && (cur j).valid && !(decide (i = j))
  if collisionValid then decide (hasOverlap w.box (cur j).box) else false

/-- `jnp.cumsum` started at `acc`. Called at waymax/agents/waypoint_following_agent.py:429, 465 -/
noncomputable def cumsumFrom (acc : ℝ) : List ℝ → List ℝ
  | [] => []
  | x :: xs => (acc + x) :: cumsumFrom (acc + x) xs

/-- `_compute_lead_velocity` for one object. The caller passes the objects' current speeds and validities at every way point;
`collisions` has one entry per way point. waymax/agents/waypoint_following_agent.py:399-435 -/
noncomputable def computeLeadVelocity (speed : Fin n → ℝ) (valid : Fin n → Bool) (collisions : List (Fin n → Bool)) : ℝ :=
  let velsT : List (WithTop ℝ) := collisions.map fun c =>
    listMin (List.ofFn fun j => if valid j then orInf (c j) (speed j) else ⊤)
  let cumsumT := cumsumFrom 0 (velsT.map fun v => v.untopD 0)
  let cumT := List.zipWith (fun v (c : ℝ) => if v = ⊤ then ⊤ else (c : WithTop ℝ)) velsT cumsumT
  (listMin cumT).untopD (-1)

/-- `_compute_lead_distance` for one object (`use_arclength=False`, `current_position` given).
waymax/agents/waypoint_following_agent.py:437-476 -/
noncomputable def computeLeadDistance (future : List (Pt ℝ)) (collision : Pt ℝ → Bool) (cur : Pt ℝ) : ℝ :=
  (listMin (future.map fun w => orInf (collision w) (dist3 cur w))).untopD (-1)

/-- The IDM formula with its sentinels. waymax/agents/waypoint_following_agent.py:377-397 -/
noncomputable def idmFormula (P : IdmParams) (curSpeed leadVel leadDist : ℝ) : ℝ :=
  let sStar := P.minSpacing + max 0 (curSpeed * P.safeTimeHeadway +
    curSpeed * (curSpeed - leadVel) / (2 * √(P.maxAccel * P.maxDecel)))
  let sStar := if leadDist = -1 ∨ leadVel = -1 then 0 else sStar
  let leadDist := if leadDist = 0 then 0.1 else leadDist
  P.maxAccel * (1 - (curSpeed / P.desiredVel) ^ P.delta - (sStar / leadDist) ^ 2)

/-- `_get_accel` for object `i`. The minimum over the way points (line 433) rejects an empty list.
waymax/agents/waypoint_following_agent.py:270-397 -/
noncomputable def idmAccel (P : IdmParams) (log : Fin n → Fin T → Pt ℝ) (cur : Fin n → Pt ℝ) (i : Fin n) : Except Err ℝ := do
  let traj ← idmLookahead P (log i) (cur i)
  if traj.length = 0 then throw .valueError
  let leadVel := computeLeadVelocity (fun j => (cur j).speed) (fun j => (cur j).valid) (traj.map fun w => idmCollision cur i w)
  let leadDist := computeLeadDistance traj (fun w => (List.ofFn fun j => idmCollision cur i w j).any id) (cur i)
  return idmFormula P (cur i).speed leadVel leadDist

/-- `IDMRoutePolicy.update_speed` for object `i`. waymax/agents/waypoint_following_agent.py:239-268 -/
noncomputable def idmUpdateSpeed (P : IdmParams) (s : SimState ℝ n T) (i : Fin n) (dt : ℝ := 0.1) : Except Err (ℝ × Bool) := do
  let cur := fun j => dynIndex (s.simTrajectory j) s.timestep
  let accel ← idmAccel P s.logTrajectory cur i
  let speed := (cur i).speed + dt * accel
  return (if speed < 0 then 0 else speed, true)

/-- `IDMRoutePolicy.update_speed` for all objects. Its failures are static shape errors that do not depend on the state
(`C48_fails_iff`); the totalised value `(0, false)` stands for them. waymax/agents/waypoint_following_agent.py:239-268 -/
noncomputable def idmSpeeds (P : IdmParams) : UpdateSpeed n T := fun s i =>
  match idmUpdateSpeed P s i with
  | .ok r => r
  | .error _ => (0, false)

/-- `IDMRoutePolicy` as a sim agent. waymax/agents/waypoint_following_agent.py:202-268 -/
noncomputable def idmAgent {K P' : Type} (P : IdmParams) (isControlled : SimState ℝ n T → Fin n → Bool := defaultControlFunc) :
    SimAgent Unit K P' n T :=
  simAgent isControlled (waypointUpdate P.invalidateOnEnd (idmSpeeds P))

end

end Waymax
