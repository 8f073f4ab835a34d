import Verif.Model.IeeeProgression
import Verif.Model.Waypoint
/-
Model of the speed update of `IDMRoutePolicy` in the arithmetic with NaN and infinities: the same functions as in Model/Waypoint.lean.

The power `** delta` is a given function `pw` on machine numbers, since its rounding is up to the library. `jnp.cumsum` is taken from left to
right. `linspace` is taken to give every spacing rounded once. The constructor arguments are Python numbers.
-/

namespace Waymax

open Real

section
variable {F : IeeeFormat} (L : Libm F.fmt) (pw : Ieee F → Ieee F) {n T : Nat}

/-- `Trajectory.speed` of one point. waymax/datatypes/object_state.py:196-201 -/
noncomputable def Pt.speedIe (p : Pt (Ieee F)) : Ieee F :=
  if p.valid then ((p.velX.mul p.velX).add (p.velY.mul p.velY)).sqrt L else Ieee.ofReal F (-1)

/-- `jnp.linalg.norm` of the difference of two 3D positions. Called at waymax/agents/waypoint_following_agent.py:469, 500 -/
noncomputable def dist3Ie (p q : Pt (Ieee F)) : Ieee F :=
  let dx := p.x.sub q.x
  let dy := p.y.sub q.y
  let dz := p.z.sub q.z
  (((dx.mul dx).add (dy.mul dy)).add (dz.mul dz)).sqrt L

/-- `_find_reference_traj_from_log_traj` for one object. waymax/agents/waypoint_following_agent.py:479-509 -/
noncomputable def findReferenceIe [NeZero T] (cur : Pt (Ieee F)) (traj : Fin T → Pt (Ieee F)) (numPts : Nat) : Except Err (List (Pt (Ieee F))) :=
  let dists := List.ofFn fun t => if (traj t).valid then dist3Ie L cur (traj t) else .inf false
  if h : numPts ≤ T then .ok (List.ofFn (dynSlice traj (argminIe dists) numPts h)) else .error .typeError

/-- `_add_headway_waypoints` for one object. waymax/agents/waypoint_following_agent.py:598-643 -/
noncomputable def addHeadwayWaypointsIe (traj : List (Pt (Ieee F))) (distance : ℝ) (numPoints : Nat) : Except Err (List (Pt (Ieee F))) :=
  match traj.getLast? with
  | none => .error .typeError
  | some last =>
    .ok (traj ++ (List.range numPoints).map fun k =>
      let spacing := Ieee.ofReal F (distance * (k + 1 : Nat) / numPoints)
      { last with x := ((last.yaw.trig L.cos).mul spacing).add last.x, y := ((last.yaw.trig L.sin).mul spacing).add last.y })

/-- The way points along which IDM looks for collisions. waymax/agents/waypoint_following_agent.py:303-326 -/
noncomputable def idmLookaheadIe [NeZero T] (P : IdmParams) (log : Fin T → Pt (Ieee F)) (cur : Pt (Ieee F)) : Except Err (List (Pt (Ieee F))) := do
  let traj ← if P.lookaheadFromCurrentPosition then findReferenceIe L cur (fun _ : Fin 1 => cur) 1
    else findReferenceIe L cur log P.maxLookahead
  if P.additionalLookaheadPoints > 0 then
    addHeadwayWaypointsIe L traj P.additionalLookaheadDistance P.additionalLookaheadPoints
  else .ok traj

/-- `collision_pairwise[i, j, t]`, `w` being way point `t` of object `i`. waymax/agents/waypoint_following_agent.py:328-359 -/
noncomputable def idmCollisionIe (cur : Fin n → Pt (Ieee F)) (i : Fin n) (w : Pt (Ieee F)) (j : Fin n) : Bool :=
  let collisionValid := w.valid && (cur j).valid && !(decide (i = j))
  if collisionValid then hasOverlapIe L w.boxIe (cur j).boxIe else false

/-- `jnp.cumsum` started at `acc`. Called at waymax/agents/waypoint_following_agent.py:429 -/
noncomputable def cumsumFromIe (acc : Ieee F) : List (Ieee F) → List (Ieee F)
  | [] => []
  | x :: xs => acc.add x :: cumsumFromIe (acc.add x) xs

/-- `_compute_lead_velocity` for one object; `collisions` has one entry per way point. waymax/agents/waypoint_following_agent.py:399-435 -/
noncomputable def computeLeadVelocityIe (speed : Fin n → Ieee F) (valid : Fin n → Bool) (collisions : List (Fin n → Bool)) : Ieee F :=
  let velsT := collisions.map fun c =>
    Ieee.minList (List.ofFn fun j => if valid j then (if c j then speed j else .inf false) else .inf false)
  let cumsumT := cumsumFromIe (Ieee.ofReal F 0) (velsT.map fun v => if v.isFinite then v else Ieee.ofReal F 0)
  let cumT := List.zipWith (fun (v c : Ieee F) => if v.isFinite then c else .inf false) velsT cumsumT
  let leadVel := Ieee.minList cumT
  if leadVel.isFinite then leadVel else Ieee.ofReal F (-1)

/-- `_compute_lead_distance` for one object (`use_arclength=False`, `current_position` given).
waymax/agents/waypoint_following_agent.py:437-476 -/
noncomputable def computeLeadDistanceIe (future : List (Pt (Ieee F))) (collision : Pt (Ieee F) → Bool) (cur : Pt (Ieee F)) : Ieee F :=
  let leadDist := Ieee.minList (future.map fun w => if collision w then dist3Ie L cur w else .inf false)
  if leadDist.isFinite then leadDist else Ieee.ofReal F (-1)

/-- The IDM formula with its sentinels. waymax/agents/waypoint_following_agent.py:377-397 -/
noncomputable def idmFormulaIe (P : IdmParams) (curSpeed leadVel leadDist : Ieee F) : Ieee F :=
  let comfort := (Ieee.ofReal F 2).mul ((Ieee.ofReal F (float64.fl (P.maxAccel * P.maxDecel))).sqrt L)
  let sStar := (Ieee.ofReal F P.minSpacing).add ((Ieee.ofReal F 0).max
    ((curSpeed.mul (Ieee.ofReal F P.safeTimeHeadway)).add ((curSpeed.mul (curSpeed.sub leadVel)).div comfort)))
  let sStar := if leadDist.eq (Ieee.ofReal F (-1)) || leadVel.eq (Ieee.ofReal F (-1)) then Ieee.ofReal F 0 else sStar
  let leadDist := if leadDist.eq (Ieee.ofReal F 0) then Ieee.ofReal F (float64.fl 0.1) else leadDist
  let ratio := sStar.div leadDist
  (Ieee.ofReal F P.maxAccel).mul (((Ieee.ofReal F 1).sub (pw (curSpeed.div (Ieee.ofReal F P.desiredVel)))).sub (ratio.mul ratio))

/-- `_get_accel` for object `i`. waymax/agents/waypoint_following_agent.py:270-397 -/
noncomputable def idmAccelIe [NeZero T] (P : IdmParams) (log : Fin n → Fin T → Pt (Ieee F)) (cur : Fin n → Pt (Ieee F)) (i : Fin n) :
    Except Err (Ieee F) := do
  let traj ← idmLookaheadIe L P (log i) (cur i)
  if traj.length = 0 then throw .valueError
  let leadVel := computeLeadVelocityIe (fun j => (cur j).speedIe L) (fun j => (cur j).valid) (traj.map fun w => idmCollisionIe L cur i w)
  let leadDist := computeLeadDistanceIe L traj (fun w => (List.ofFn fun j => idmCollisionIe L cur i w j).any id) (cur i)
  return idmFormulaIe L pw P ((cur i).speedIe L) leadVel leadDist

/-- `IDMRoutePolicy.update_speed` for object `i`: its new speed. waymax/agents/waypoint_following_agent.py:239-268 -/
noncomputable def idmUpdateSpeedIe [NeZero T] (P : IdmParams) (s : SimState (Ieee F) n T) (i : Fin n) : Except Err (Ieee F) := do
  let cur := fun j => dynIndex (s.simTrajectory j) s.timestep
  let accel ← idmAccelIe L pw P s.logTrajectory cur i
  let speed := ((cur i).speedIe L).add ((Ieee.ofReal F (float64.fl 0.1)).mul accel)
  return if speed.lt (Ieee.ofReal F 0) then Ieee.ofReal F 0 else speed

end

end Waymax
