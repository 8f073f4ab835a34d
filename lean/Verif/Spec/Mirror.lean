import Verif.Spec.Motion
/-
Vocabulary for C169 - C171: the same scenario seen in a mirror, left and right exchanged.
-/

namespace Waymax

/-- Where a point, or a vector, goes: the second coordinate changes its sign. -/
def flip2 (p : ℝ × ℝ) : ℝ × ℝ := (p.1, -p.2)

/-- A road point in the mirror. Road edges have the road on their left; to keep it there, the mirrored edge runs in the opposite
direction. -/
def flipRoad (p : RgPoint ℝ) : RgPoint ℝ := { p with y := -p.y, dirX := -p.dirX, dirY := p.dirY }

/-- A point of an SDC path in the mirror. -/
def flipPathPoint (p : PathPoint ℝ) : PathPoint ℝ := { p with y := -p.y }

/-- An SDC path in the mirror. -/
def flipPath (p : SdcPath ℝ) : SdcPath ℝ := { p with points := p.points.map flipPathPoint }

/-- A traffic light in the mirror. -/
def flipLight (p : TlState ℝ) : TlState ℝ := { p with y := -p.y }

/-- `p'` is the object state `p` in the mirror. Of absent objects only flag, sizes, height and time stamp are compared. -/
structure PtFlipped (p p' : Pt ℝ) : Prop where
  valid : p'.valid = p.valid
  z : p'.z = p.z
  time : p'.timestampMicros = p.timestampMicros
  length : p'.length = p.length
  width : p'.width = p.width
  height : p'.height = p.height
  position : p.valid = true → (p'.x, p'.y) = flip2 (p.x, p.y)
  velocity : p.valid = true → (p'.velX, p'.velY) = flip2 (p.velX, p.velY)
  yaw : p.valid = true → AnglesAgree p'.yaw (-p.yaw)

/-- The direction in which an object goes: that of its velocity if it is faster than 0.6 m/s, its heading otherwise. -/
noncomputable def courseOf (q : Pt ℝ) : ℝ := if √(q.velX ^ 2 + q.velY ^ 2) ≤ 0.6 then q.yaw else arctan2 q.velY q.velX

section
variable {n T : Nat}

/-- `s'` is the scenario or simulator state `s` in the mirror. -/
structure Flipped (s s' : SimState ℝ n T) : Prop where
  sim : ∀ i t, PtFlipped (s.simTrajectory i t) (s'.simTrajectory i t)
  log : ∀ i t, PtFlipped (s.logTrajectory i t) (s'.logTrajectory i t)
  objects : s'.objectMetadata = s.objectMetadata
  clock : s'.timestep = s.timestep
  lights : s'.logTrafficLight = s.logTrafficLight.map fun l t => flipLight (l t)
  paths : s'.sdcPaths = s.sdcPaths.map (List.map flipPath)
  roadgraph : s'.roadgraphPoints = s.roadgraphPoints.map (List.map flipRoad)

/-- A state command in the mirror. -/
structure StateFlipped (a a' : StateRow ℝ) : Prop where
  position : (a'.x, a'.y) = flip2 (a.x, a.y)
  velocity : (a'.velX, a'.velY) = flip2 (a.velX, a.velY)
  yaw : AnglesAgree a'.yaw (-a.yaw)

/-- A displacement in the mirror, in map axes as in the axes of the vehicle. -/
structure DeltaFlipped (a a' : Delta3) : Prop where
  shift : (a'.dx, a'.dy) = flip2 (a.dx, a.dy)
  turn : a'.dyaw = -a.dyaw

/-- Pedal and steering in the mirror: the same acceleration, steering to the other side. -/
structure SteerFlipped (a a' : AccelSteer) : Prop where
  accel : a'.accel = a.accel
  steering : a'.steering = -a.steering

/-- An update of one object in the mirror. -/
structure UpdFlipped (u u' : Upd ℝ) : Prop where
  position : (u'.x, u'.y) = flip2 (u.x, u.y)
  velocity : (u'.velX, u'.velY) = flip2 (u.velX, u.velY)
  yaw : AnglesAgree u'.yaw (-u.yaw)
  valid : u'.valid = u.valid

/-- A dynamics model, actions being compared by `rel`, treats left and right alike. -/
def MirrorFree {D : Type} (rel : D → D → Prop) (d : DynamicsModel ℝ D n) : Prop :=
  ∀ (a a' : Fin n → Act D) (c c' : Fin n → Pt ℝ), ActsMoved rel a a' → (∀ i, PtFlipped (c i) (c' i)) →
    ∀ i, (c i).valid = true → UpdFlipped (d.computeUpdate a c i) (d.computeUpdate a' c' i)

/-- An agent's update of one object in the mirror: its numbers count only where the update is valid. -/
def AgentFlipped (u u' : Upd ℝ) : Prop := u'.valid = u.valid ∧ (u.valid = true → UpdFlipped u u')

/-- Two observations, the second showing what the first shows with left and right exchanged: the same objects, road points and lights,
in the same order. The recorded poses of the observers and the SDC paths, which are given in map coordinates, are not compared. -/
structure FlippedSight {K : Nat} (o o' : Obs n K) : Prop where
  objects : ∀ i t, PtFlipped (o.trajectory i t) (o'.trajectory i t)
  roads : o'.roadgraph = o.roadgraph.map flipRoad
  lights : o'.trafficLights = o.trafficLights.map fun l t => flipLight (l t)
  info : o'.metadata = o.metadata
  ego : o'.isEgo = o.isEgo

end

end Waymax
