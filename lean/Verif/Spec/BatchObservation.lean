import Verif.Spec.BatchMetrics
import Verif.Model.BatchObservation
/- Vocabulary for observations of batches. -/

namespace Waymax

/-- Every leaf has the shape `sh` (the coordinate axes are grouped). -/
structure PoseNd.HasShape (p : PoseNd) (sh : List Nat) : Prop where
  originalXy : p.originalXy.shape = sh
  originalYaw : p.originalYaw.shape = sh
  matrix : p.matrix.shape = sh
  deltaYaw : p.deltaYaw.shape = sh
  valid : p.valid.shape = sh

/-- The entries of all leaves at one index. -/
def PoseNd.at_ (p : PoseNd) (idx : List Nat) : Pose2D :=
  { originalXy := p.originalXy.get idx, originalYaw := p.originalYaw.get idx, matrix := p.matrix.get idx
    deltaYaw := p.deltaYaw.get idx, valid := p.valid.get idx }

/-- An observation of the documented shapes: `m` observers in each scenario, `n` objects, `K` steps, and for each observer the same
number of road-graph points, of traffic lights and of paths. `sh` is the shape `(..., m)`. -/
structure ObsNd.Shaped (o : ObsNd) (sh : List Nat) (n K : Nat) : Prop where
  trajectory : o.trajectory.HasShape (sh ++ [n, K])
  isEgo : o.isEgo.shape = sh ++ [n]
  pose2d : o.pose2d.HasShape sh
  metadata : o.metadata.HasShape (sh ++ [n])
  roadgraph : ∃ rg N, o.roadgraph = some rg ∧ rg.shape = sh ++ [N]
  trafficLights : ∃ L, o.trafficLights.shape = sh ++ [L, K]
  sdcPaths : ∃ pts on P Q, o.sdcPaths = some (pts, on) ∧ pts.shape = sh ++ [P, Q] ∧ on.shape = sh ++ [P, 1]

/-- What the observer at index `q` sees: `jax.tree_map(lambda leaf: leaf[q], observation)`. -/
def ObsNd.observer (o : ObsNd) (n K : Nat) (q : List Nat) : Obs n K where
  trajectory := fun i t => o.trajectory.at_ (q ++ [i.val, t.val])
  isEgo := fun i => o.isEgo.get (q ++ [i.val])
  pose2d := o.pose2d.at_ q
  metadata := fun i => o.metadata.at_ (q ++ [i.val])
  roadgraph := (o.roadgraph.map fun rg => rg.rows q).getD []
  trafficLights := (List.range (o.trafficLights.shape.getD q.length 0)).map fun l =>
    fun t => o.trafficLights.get (q ++ [l, t.val])
  sdcPaths := o.sdcPaths.map fun pts =>
    (List.range (pts.1.shape.getD q.length 0)).map fun k => { points := pts.1.rows (q ++ [k]), onRoute := pts.2.get (q ++ [k, 0]) }

/-- The observations of a batch agree with those of its scenarios: they have the documented shapes, and every observer of every
scenario sees what it sees when the scenario is observed alone; or an exception is raised, the one each scenario alone raises. -/
def ObsAgrees (pre : List Nat) (m n K : Nat) (batch : Except Err ObsNd) (single : List Nat → Fin m → Except Err (Obs n K)) : Prop :=
  match batch with
  | .ok o => o.Shaped (pre ++ [m]) n K ∧ ∀ p, InRange pre p → ∀ i : Fin m, single p i = .ok (o.observer n K (p ++ [i.val]))
  | .error e => ∀ p, InRange pre p → ∀ i : Fin m, single p i = .error e

/-- The static members of a state have the documented shapes: traffic lights `(..., numLights, T)`, and, when present, a road graph
`(..., numPoints)` and paths `(..., numPaths, numPointsPerPath)` with one flag per path. -/
structure StateNd.StaticsShaped {α : Type} (s : StateNd α) (pre : List Nat) (T : Nat) : Prop where
  lights : ∃ L, s.logTrafficLight.shape = pre ++ [L, T]
  roads : ∀ rg, s.roadgraphPoints = some rg → ∃ N, s.HasRoadgraph pre N
  paths : ∀ pts, s.sdcPaths = some pts → ∃ P Q, s.HasPaths pre P Q

end Waymax
