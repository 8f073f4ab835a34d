import Verif.Spec.Padding
import Verif.Spec.Geometry
import Verif.Spec.Episode
import Verif.Model.Observation
/-
Vocabulary for C142 - C145: the same scenario drawn in another map frame, that is turned and shifted as a whole.
-/

namespace Waymax

open Real

/-- A change of map frame: turn by `angle`, then shift by `(dx, dy)`. -/
structure Motion where
  angle : ℝ
  dx : ℝ
  dy : ℝ

namespace Motion

/-- Where the vector `v` goes. -/
noncomputable def vec (g : Motion) (v : ℝ × ℝ) : ℝ × ℝ :=
  (cos g.angle * v.1 - sin g.angle * v.2, sin g.angle * v.1 + cos g.angle * v.2)

/-- Where the point `p` goes. -/
noncomputable def point (g : Motion) (p : ℝ × ℝ) : ℝ × ℝ := ((g.vec p).1 + g.dx, (g.vec p).2 + g.dy)

/-- A road point, moved. -/
noncomputable def road (g : Motion) (p : RgPoint ℝ) : RgPoint ℝ :=
  { p with x := (g.point (p.x, p.y)).1, y := (g.point (p.x, p.y)).2
           dirX := (g.vec (p.dirX, p.dirY)).1, dirY := (g.vec (p.dirX, p.dirY)).2 }

/-- A point of an SDC path, moved. -/
noncomputable def pathPoint (g : Motion) (p : PathPoint ℝ) : PathPoint ℝ :=
  { p with x := (g.point (p.x, p.y)).1, y := (g.point (p.x, p.y)).2 }

/-- An SDC path, moved. -/
noncomputable def path (g : Motion) (p : SdcPath ℝ) : SdcPath ℝ := { p with points := p.points.map g.pathPoint }

/-- A traffic light, moved. -/
noncomputable def light (g : Motion) (p : TlState ℝ) : TlState ℝ :=
  { p with x := (g.point (p.x, p.y)).1, y := (g.point (p.x, p.y)).2 }

end Motion

/-- `p'` is the object state `p` seen in the other frame. Absent objects have no position, only their flag, sizes, height and time
stamp are compared. -/
structure PtMoved (g : Motion) (p p' : Pt ℝ) : Prop where
  valid : p'.valid = p.valid
  z : p'.z = p.z
  time : p'.timestampMicros = p.timestampMicros
  length : p'.length = p.length
  width : p'.width = p.width
  height : p'.height = p.height
  position : p.valid = true → (p'.x, p'.y) = g.point (p.x, p.y)
  velocity : p.valid = true → (p'.velX, p'.velY) = g.vec (p.velX, p.velY)
  yaw : p.valid = true → AnglesAgree p'.yaw (p.yaw + g.angle)

section
variable {n T : Nat}

/-- `s'` is the scenario or simulator state `s` in the other frame. -/
structure Moved (g : Motion) (s s' : SimState ℝ n T) : Prop where
  sim : ∀ i t, PtMoved g (s.simTrajectory i t) (s'.simTrajectory i t)
  log : ∀ i t, PtMoved g (s.logTrajectory i t) (s'.logTrajectory i t)
  objects : s'.objectMetadata = s.objectMetadata
  clock : s'.timestep = s.timestep
  lights : s'.logTrafficLight = s.logTrafficLight.map fun l t => g.light (l t)
  paths : s'.sdcPaths = s.sdcPaths.map (List.map g.path)
  roadgraph : s'.roadgraphPoints = s.roadgraphPoints.map (List.map g.road)

/-- What an action of each kind becomes in the other frame: poses and global displacements are turned, local displacements and
pedal and steering commands stay. -/
structure StateMoved (g : Motion) (a a' : StateRow ℝ) : Prop where
  position : (a'.x, a'.y) = g.point (a.x, a.y)
  velocity : (a'.velX, a'.velY) = g.vec (a.velX, a.velY)
  yaw : AnglesAgree a'.yaw (a.yaw + g.angle)

/-- A displacement in map axes. -/
structure DeltaMoved (g : Motion) (a a' : Delta3) : Prop where
  shift : (a'.dx, a'.dy) = g.vec (a.dx, a.dy)
  turn : a'.dyaw = a.dyaw

/-- All objects' actions. -/
def ActsMoved {D : Type} (rel : D → D → Prop) (a a' : Fin n → Act D) : Prop := ∀ i, rel (a i).data (a' i).data ∧ (a' i).valid = (a i).valid

/-- An update of one object, moved. -/
structure UpdMoved (g : Motion) (u u' : Upd ℝ) : Prop where
  position : (u'.x, u'.y) = g.point (u.x, u.y)
  velocity : (u'.velX, u'.velY) = g.vec (u.velX, u.velY)
  yaw : AnglesAgree u'.yaw (u.yaw + g.angle)
  valid : u'.valid = u.valid

/-- A dynamics model, actions being compared by `rel`, does not care about the map frame: for objects that are present, moving
the states and actions moves the update. -/
def FrameFree {D : Type} (g : Motion) (rel : D → D → Prop) (d : DynamicsModel ℝ D n) : Prop :=
  ∀ (a a' : Fin n → Act D) (c c' : Fin n → Pt ℝ), ActsMoved rel a a' → (∀ i, PtMoved g (c i) (c' i)) →
    ∀ i, (c i).valid = true → UpdMoved g (d.computeUpdate a c i) (d.computeUpdate a' c' i)

/-- No controlled object enters the scene after the warm-up. Here an object enters if it is absent in the last warm-up step and in
the log later; the question only arises if new objects are allowed. -/
def NoControlledEntry (cfg : EnvConfig) (s : SimState ℝ n T) : Prop :=
  cfg.allowNewObjectsAfterWarmup = true → ∀ i, IsControlled cfg s i → ∀ t t0 : Fin T, cfg.initSteps ≤ t.val →
    t0.val + 1 = cfg.initSteps → (s.logTrajectory i t).valid = true → (s.logTrajectory i t0).valid = true

/-- Two observations show the same: the same objects, at the same positions with the same velocities and headings (up to full
turns) where present, the same road points and lights. The recorded poses of the observers and the SDC paths, which are given in
map coordinates, are not compared. -/
structure SameSight {K : Nat} (o o' : Obs n K) : Prop where
  objects : ∀ i t, PtMoved ⟨0, 0, 0⟩ (o.trajectory i t) (o'.trajectory i t)
  roads : o'.roadgraph = o.roadgraph
  lights : o'.trafficLights = o.trafficLights
  info : o'.metadata = o.metadata
  ego : o'.isEgo = o.isEgo

/-- The same metric result: an invalid entry's number does not count. -/
def SameResult (r r' : MetricResult) : Prop := r'.valid = r.valid ∧ (r.valid = true → r'.value = r.value)

end

end Waymax
