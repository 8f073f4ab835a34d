import Verif.Model.MachineProgression
import Verif.Spec.MachineMetrics
/-
Vocabulary for the statements about the route progression metric in machine arithmetic: points and paths that are nearest up to the
tolerance of a computed distance, and the tolerance of a computed ratio.
-/

namespace Waymax

/-- `p` is nearest to `xy` or cannot be told from the nearest: `a` and `b` are distances whose tolerances overlap. -/
def NotClearlyLarger (ε a b : ℝ) : Prop := a - distanceTolerance ε a ≤ b + distanceTolerance ε b

/-- `p` is a valid point of the path, and no valid point of it is clearly nearer to `xy`. -/
def NearlyNearestOn (ε : ℝ) (path : SdcPath ℝ) (xy : ℝ × ℝ) (p : PathPoint ℝ) : Prop :=
  p ∈ path.points ∧ p.valid = true ∧
    ∀ q ∈ path.points, q.valid = true → NotClearlyLarger ε (dist2 xy (p.x, p.y)) (dist2 xy (q.x, q.y))

/-- `path` is on the route and has a valid point such that no valid point of an on-route path is clearly nearer to `xy`. -/
def NearlyReferencePath (ε : ℝ) (paths : List (SdcPath ℝ)) (xy : ℝ × ℝ) (path : SdcPath ℝ) : Prop :=
  path ∈ paths ∧ path.onRoute = true ∧ ∃ p ∈ path.points, p.valid = true ∧
    ∀ path' ∈ paths, path'.onRoute = true → ∀ q ∈ path'.points, q.valid = true →
      NotClearlyLarger ε (dist2 xy (p.x, p.y)) (dist2 xy (q.x, q.y))

/-- The fraction of the way from `start` to `stop` at `curr`; 1 if they coincide. -/
noncomputable def fractionCovered (curr start stop : ℝ) : ℝ := if stop = start then 1 else (curr - start) / (stop - start)

/-- The tolerance of a computed fraction: four relative errors and the smallest number of the format. -/
noncomputable def fractionTolerance (φ : Format) (ε f : ℝ) : ℝ := 4 * ε * |f| + 2 ^ φ.emin

end Waymax
