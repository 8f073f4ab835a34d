import Verif.Model.Observation
import Verif.Spec.Geometry
import Verif.Spec.Episode
/-
Vocabulary for the statements about observations: what it means to see the same scene from another frame, and which road-graph
points are nearest. Nothing here is used by the model.
-/

namespace Waymax

/-- Point `i` of the road graph ranks before point `j`: it is valid and the other is not, or both are valid and it is closer to
`ref`; among equals the lower index ranks first. -/
def RanksBefore (rg : List (RgPoint ℝ)) (ref : ℝ × ℝ) (i j : Fin rg.length) : Prop :=
  let d := fun k : Fin rg.length => dist2 ref (rg[k].x, rg[k].y)
  (rg[i].valid = true ∧ rg[j].valid = false) ∨
  (rg[i].valid = true ∧ rg[j].valid = true ∧ (d i < d j ∨ (d i = d j ∧ i < j))) ∨
  (rg[i].valid = false ∧ rg[j].valid = false ∧ i < j)

/-- The same road-graph point up to the integer fields. -/
def SameGeometry (p q : RgPoint ℝ) : Prop :=
  p.x = q.x ∧ p.y = q.y ∧ p.z = q.z ∧ p.dirX = q.dirX ∧ p.dirY = q.dirY ∧ p.dirZ = q.dirZ ∧ p.valid = q.valid

/-! ### Frames -/

/-- The point `g` of the map has coordinates `l` in the frame with origin `c` and heading `yaw`. -/
def SeenPoint (c : ℝ × ℝ) (yaw : ℝ) (g l : ℝ × ℝ) : Prop := g = pointAt c.1 c.2 yaw l.1 l.2

/-- The direction `g` of the map has components `l` along heading `yaw` and to its left. -/
def SeenDir (yaw : ℝ) (g l : ℝ × ℝ) : Prop :=
  g = (l.1 * (heading yaw).1 + l.2 * (leftOf yaw).1, l.1 * (heading yaw).2 + l.2 * (leftOf yaw).2)

/-- An object at one time step, on the map (`g`) and in the frame (`l`); `vis` is whether the frame itself is valid. -/
structure SeenPt (c : ℝ × ℝ) (yaw : ℝ) (vis : Bool) (g l : Pt ℝ) : Prop where
  pos : SeenPoint c yaw (g.x, g.y) (l.x, l.y)
  vel : SeenDir yaw (g.velX, g.velY) (l.velX, l.velY)
  yaw : l.yaw = g.yaw - yaw
  valid : l.valid = (g.valid && vis)
  other : l.z = g.z ∧ l.length = g.length ∧ l.width = g.width ∧ l.height = g.height ∧ l.timestampMicros = g.timestampMicros

/-- A road-graph point. -/
structure SeenRg (c : ℝ × ℝ) (yaw : ℝ) (vis : Bool) (g l : RgPoint ℝ) : Prop where
  pos : SeenPoint c yaw (g.x, g.y) (l.x, l.y)
  dir : SeenDir yaw (g.dirX, g.dirY) (l.dirX, l.dirY)
  valid : l.valid = (g.valid && vis)
  other : l.z = g.z ∧ l.dirZ = g.dirZ ∧ l.type = g.type ∧ l.id = g.id

/-- A traffic light. -/
structure SeenTl (c : ℝ × ℝ) (yaw : ℝ) (vis : Bool) (g l : TlState ℝ) : Prop where
  pos : SeenPoint c yaw (g.x, g.y) (l.x, l.y)
  valid : l.valid = (g.valid && vis)
  other : l.z = g.z ∧ l.state = g.state ∧ l.laneId = g.laneId

/-- Observation `o` shows the scene `g` (in map coordinates) from the frame with origin `c` and heading `yaw`. SDC paths are dealt
with by `PathsSeen`. -/
structure ShowsFrom {n K : Nat} (c : ℝ × ℝ) (yaw : ℝ) (vis : Bool) (g o : Obs n K) : Prop where
  objects : ∀ i t, SeenPt c yaw vis (g.trajectory i t) (o.trajectory i t)
  roads : List.Forall₂ (SeenRg c yaw vis) g.roadgraph o.roadgraph
  lights : List.Forall₂ (fun a b => ∀ t, SeenTl c yaw vis (a t) (b t)) g.trafficLights o.trafficLights
  objectInfo : o.metadata = g.metadata
  ego : o.isEgo = g.isEgo

/-- The SDC paths of `o` are those of `g`, in the frame with origin `c` and heading `yaw`. -/
def PathsSeen {n K : Nat} (c : ℝ × ℝ) (yaw : ℝ) (g o : Obs n K) : Prop :=
  ∀ gs os, g.sdcPaths = some gs → o.sdcPaths = some os →
    List.Forall₂ (fun a b : SdcPath ℝ => List.Forall₂ (fun p q : PathPoint ℝ =>
      SeenPoint c yaw (p.x, p.y) (q.x, q.y)) a.points b.points) gs os

end Waymax
