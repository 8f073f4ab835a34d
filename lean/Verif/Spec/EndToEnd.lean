import Verif.Spec.Generator
import Verif.Spec.BatchRollout
/- Vocabulary for going from files to rollouts. Nothing here is used by the model. -/

namespace Waymax

/-- Scenario `p` of a rollout of `steps` steps after a warm-up of `first` steps shows the first `n` objects of the record moving as
recorded, and reports that they do. -/
structure Replays (n first steps : Nat) (r : Record) (o : RolloutNd) (p : List Nat) : Prop where
  /-- The simulated steps. -/
  clock : ∀ k ≤ steps, (o.state.scenario n 91 (k :: p)).timestep + 1 = first + k
  /-- At every simulated step of every entry the position, velocity, direction and time stamp in the record. -/
  motion : ∀ k ≤ steps, ∀ (i : Fin n) (t : Fin 91), t.val < first + k → ∃ w, (r.object i.val)[t.val]? = some w ∧
    let q := (o.state.scenario n 91 (k :: p)).simTrajectory i t
    q.x = w.x ∧ q.y = w.y ∧ q.velX = w.velocityX ∧ q.velY = w.velocityY ∧ AnglesAgree q.yaw w.bboxYaw ∧
      q.timestampMicros = w.timestampMicros
  /-- No object is reported to be away from its recorded position. -/
  divergence : ∀ m, ("log_divergence", m) ∈ o.metrics → ∀ k ≤ steps, ∀ i : Fin n, m.value.get (k :: (p ++ [i.val])) = 0

/-- The data set provides what the built-in metric of that name needs: `offroad` map points, the `sdc_*` metrics points on paths. -/
def DatasetConfig.Provides (c : DatasetConfig) (name : String) : Prop :=
  (name = "offroad" → 0 < c.maxNumRgPoints) ∧
  (name ∈ scenarioMetricNames → c.includeSdcPaths = true ∧ 0 < c.numPaths.getD 0 ∧ 0 < c.numPointsPerPath.getD 0)

/-- All scenarios of a list of batches, as pairs of a batch and a position in it. -/
def places (Ss : List (StateNd ℝ)) : List (StateNd ℝ × List Nat) :=
  Ss.flatMap fun S => (indices S.timestep.shape).map fun p => (S, p)

end Waymax
