import Verif.Model.Batch
import Verif.Props.Axes
/-
Vocabulary for batches: what it means that the leaves of a state have the documented shapes, and the scenario stored at one batch
index. A batch index is a list of numbers, one per batch axis; the empty list is the only index when there is no batch axis.
-/

namespace Waymax

namespace TrajNd
variable {α : Type}

/-- Every leaf has the shape `sh`. -/
structure HasShape (t : TrajNd α) (sh : List Nat) : Prop where
  x : t.x.shape = sh
  y : t.y.shape = sh
  z : t.z.shape = sh
  velX : t.velX.shape = sh
  velY : t.velY.shape = sh
  yaw : t.yaw.shape = sh
  valid : t.valid.shape = sh
  timestampMicros : t.timestampMicros.shape = sh
  length : t.length.shape = sh
  width : t.width.shape = sh
  height : t.height.shape = sh

end TrajNd

/-- Every leaf has the shape `sh`. -/
structure MetaNd.HasShape (m : MetaNd) (sh : List Nat) : Prop where
  ids : m.ids.shape = sh
  objectTypes : m.objectTypes.shape = sh
  isSdc : m.isSdc.shape = sh
  isModeled : m.isModeled.shape = sh
  isValid : m.isValid.shape = sh
  objectsOfInterest : m.objectsOfInterest.shape = sh
  isControlled : m.isControlled.shape = sh

/-- The entries of all leaves at one index. -/
def MetaNd.at_ (m : MetaNd) (idx : List Nat) : ObjMeta :=
  { id := m.ids.get idx, objectType := m.objectTypes.get idx, isSdc := m.isSdc.get idx, isModeled := m.isModeled.get idx,
    isValid := m.isValid.get idx, objectsOfInterest := m.objectsOfInterest.get idx, isControlled := m.isControlled.get idx }

/-- Every leaf has the shape `sh`. -/
structure UpdNd.HasShape {α : Type} (u : UpdNd α) (sh : List Nat) : Prop where
  x : u.x.shape = sh
  y : u.y.shape = sh
  yaw : u.yaw.shape = sh
  velX : u.velX.shape = sh
  velY : u.velY.shape = sh
  valid : u.valid.shape = sh

/-- The entries of all leaves at one index. -/
def UpdNd.at_ {α : Type} (u : UpdNd α) (idx : List Nat) : Upd α :=
  { x := u.x.get idx, y := u.y.get idx, yaw := u.yaw.get idx, velX := u.velX.get idx, velY := u.velY.get idx,
    valid := u.valid.get idx }

/-- Trajectories of shape `(..., n, T)` and metadata of shape `(..., n)`, where `...` is `pre`. -/
structure StateNd.Shaped {α : Type} (s : StateNd α) (pre : List Nat) (n T : Nat) : Prop where
  sim : s.simTrajectory.HasShape (pre ++ [n, T])
  log : s.logTrajectory.HasShape (pre ++ [n, T])
  metadata : s.objectMetadata.HasShape (pre ++ [n])

/-- The scenario at batch index `p`: `jax.tree_map(lambda leaf: leaf[p], state)`, where a time step without batch axes is shared
by all scenarios. -/
def StateNd.scenario {α : Type} (s : StateNd α) (n T : Nat) (p : List Nat) : SimState α n T where
  simTrajectory := fun i t => s.simTrajectory.at_ (p ++ [i.val, t.val])
  logTrajectory := fun i t => s.logTrajectory.at_ (p ++ [i.val, t.val])
  logTrafficLight := (List.range (s.logTrafficLight.shape.getD p.length 0)).map fun l =>
    fun t => s.logTrafficLight.get (p ++ [l, t.val])
  objectMetadata := fun i => s.objectMetadata.at_ (p ++ [i.val])
  timestep := s.timestep.get (p.take s.timestep.shape.length)
  sdcPaths := s.sdcPaths.map fun pts =>
    (List.range (pts.1.shape.getD p.length 0)).map fun k => { points := pts.1.rows (p ++ [k]), onRoute := pts.2.get (p ++ [k, 0]) }
  roadgraphPoints := s.roadgraphPoints.map fun rg => rg.rows p

/-- Actions of `dim` numbers for each of `n` objects: data of shape `(..., n, dim)`, validity of shape `(..., n, 1)`. -/
structure ActNd.Shaped {α : Type} (a : ActNd α) (pre : List Nat) (n dim : Nat) : Prop where
  data : a.data.shape = pre ++ [n, dim]
  valid : a.valid.shape = pre ++ [n, 1]

/-- The actions for the scenario at batch index `p`; `row` names the numbers of a row. -/
def ActNd.scenario {α D : Type} (a : ActNd α) (row : (Nat → α) → D) (n : Nat) (p : List Nat) : Fin n → Act D :=
  fun i => { data := row fun k => a.data.get (p ++ [i.val, k]), valid := a.valid.get (p ++ [i.val, 0]) }

/-- Row of a state action. -/
def stateRowOf {α : Type} (f : Nat → α) : StateRow α := { x := f 0, y := f 1, yaw := f 2, velX := f 3, velY := f 4 }

/-- Row of a delta action. -/
def deltaRowOf (f : Nat → ℝ) : Delta3 := { dx := f 0, dy := f 1, dyaw := f 2 }

/-- Row of a bicycle action. -/
def bicycleRowOf (f : Nat → ℝ) : AccelSteer := { accel := f 0, steering := f 1 }

/-- On batches of the documented shapes the dynamics does, for each scenario of the batch, what the one-scenario dynamics does. -/
def DynNd.Refines {α D : Type} (dn : DynNd α) (n dim : Nat) (row : (Nat → α) → D) (d : DynamicsModel α D n) : Prop :=
  ∀ (pre : List Nat) (a : ActNd α) (cur : TrajNd α), a.Shaped pre n dim → cur.HasShape (pre ++ [n, 1]) →
    ∃ u, dn.computeUpdate a cur = .ok u ∧ u.HasShape (pre ++ [n, 1]) ∧
      ∀ p, InRange pre p → ∀ i : Fin n,
        u.at_ (p ++ [i.val, 0]) = d.computeUpdate (a.scenario row n p) (fun j => cur.at_ (p ++ [j.val, 0])) i

/-- The outcome of an operation on a batch agrees with the outcomes on the single scenarios: it succeeds with the documented
shapes and every scenario of the result is what the scenario alone gives, or it raises what every scenario alone raises. -/
def BatchAgrees {α : Type} (pre : List Nat) (n T : Nat) (batch : Except Err (StateNd α))
    (single : List Nat → Except Err (SimState α n T)) : Prop :=
  match batch with
  | .ok s' => s'.Shaped pre n T ∧ s'.timestep.shape = [] ∧ ∀ p, InRange pre p → single p = .ok (s'.scenario n T p)
  | .error e => ∀ p, InRange pre p → single p = .error e

end Waymax
