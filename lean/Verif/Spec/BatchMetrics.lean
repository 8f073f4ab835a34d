import Verif.Spec.Batch
import Verif.Model.BatchMetrics
/- Vocabulary for metrics of batches. -/

namespace Waymax

/-- The arrays have shape `(..., n)` and hold, at each batch index, the metric of that scenario's objects. -/
def MetricNd.PerObject (m : MetricNd) (pre : List Nat) (n : Nat) (single : List Nat → Except Err (Fin n → MetricResult)) : Prop :=
  m.value.shape = pre ++ [n] ∧ m.valid.shape = pre ++ [n] ∧
    ∀ p, InRange pre p →
      single p = .ok fun i => { value := m.value.get (p ++ [i.val]), valid := m.valid.get (p ++ [i.val]) }

/-- The arrays have shape `(...)` and hold, at each batch index, the metric of that scenario. -/
def MetricNd.PerScenario (m : MetricNd) (pre : List Nat) (single : List Nat → Except Err MetricResult) : Prop :=
  m.value.shape = pre ∧ m.valid.shape = pre ∧
    ∀ p, InRange pre p → single p = .ok { value := m.value.get p, valid := m.valid.get p }

/-- `sdc_paths` of the documented shapes: `numPaths` paths of `numPoints` points in each scenario, one `on_route` flag per path. -/
def StateNd.HasPaths {α : Type} (s : StateNd α) (pre : List Nat) (numPaths numPoints : Nat) : Prop :=
  ∃ pts on, s.sdcPaths = some (pts, on) ∧ pts.shape = pre ++ [numPaths, numPoints] ∧ on.shape = pre ++ [numPaths, 1]

/-- A road graph of `numPoints` points in each scenario. -/
def StateNd.HasRoadgraph {α : Type} (s : StateNd α) (pre : List Nat) (numPoints : Nat) : Prop :=
  ∃ rg, s.roadgraphPoints = some rg ∧ rg.shape = pre ++ [numPoints]

end Waymax
