import Verif.Model.Types
import Verif.Spec.Geometry
import Mathlib.Order.Bounds.Basic
/-
Vocabulary for the statements about metrics: distances to path points, nearest road-edge point, sides. It uses the data types
of the model and plane geometry, none of the metric code.
-/

namespace Waymax

/-- Object `k`, and only it, is marked as the self-driving car. -/
def IsTheSdc {α : Type} {n T : Nat} (s : SimState α n T) (k : Fin n) : Prop :=
  ∀ i, (s.objectMetadata i).isSdc = true ↔ i = k

/-- The distances from `xy` to the valid points of the paths satisfying `use`. -/
def distancesTo (paths : List (SdcPath ℝ)) (use : SdcPath ℝ → Prop) (xy : ℝ × ℝ) : Set ℝ :=
  {d | ∃ path ∈ paths, use path ∧ ∃ p ∈ path.points, p.valid = true ∧ d = dist2 xy (p.x, p.y)}

/-- `p` is the first valid point of `path` whose distance to `xy` is smallest. -/
def IsNearestOn (path : SdcPath ℝ) (xy : ℝ × ℝ) (p : PathPoint ℝ) : Prop :=
  ∃ k : Nat, path.points[k]? = some p ∧ p.valid = true ∧
    ∀ (j : Nat) (q : PathPoint ℝ), path.points[j]? = some q → q.valid = true →
      dist2 xy (p.x, p.y) ≤ dist2 xy (q.x, q.y) ∧ (j < k → dist2 xy (p.x, p.y) < dist2 xy (q.x, q.y))

/-- `path` is the first on-route path that has a valid point at the smallest distance from `xy`. -/
def IsReferencePath (paths : List (SdcPath ℝ)) (xy : ℝ × ℝ) (path : SdcPath ℝ) : Prop :=
  ∃ (k : Nat) (d : ℝ), paths[k]? = some path ∧ path.onRoute = true ∧
    IsLeast (distancesTo paths (fun p => p.onRoute = true) xy) d ∧ IsLeast (distancesTo [path] (fun _ => True) xy) d ∧
    ∀ (j : Nat) (path' : SdcPath ℝ), j < k → paths[j]? = some path' → path'.onRoute = true → d ∉ distancesTo [path'] (fun _ => True) xy

/-- A usable road-edge point: valid, of type road-edge boundary (15) or road-edge median (16). -/
def IsEdge (p : RgPoint ℝ) : Prop := p.valid = true ∧ (p.type = 15 ∨ p.type = 16)

/-- Distance from the point `q` at height `z`, heights counting double. -/
noncomputable def stretchedDist (p : RgPoint ℝ) (q : ℝ × ℝ) (z : ℝ) : ℝ :=
  √((p.x - q.1) ^ 2 + (p.y - q.2) ^ 2 + (2 * (p.z - z)) ^ 2)

/-- `k` is the first index of a road-edge point nearest to `q` at height `z`. -/
def IsNearestEdge (rg : List (RgPoint ℝ)) (q : ℝ × ℝ) (z : ℝ) (k : Nat) (p : RgPoint ℝ) : Prop :=
  rg[k]? = some p ∧ IsEdge p ∧ ∀ (j : Nat) (p' : RgPoint ℝ), rg[j]? = some p' → IsEdge p' →
    stretchedDist p q z ≤ stretchedDist p' q z ∧ (j < k → stretchedDist p q z < stretchedDist p' q z)

/-- `q` lies strictly to the right of the directed line through `p` with direction `(dx, dy)`. -/
def RightOf (p : RgPoint ℝ) (dx dy : ℝ) (q : ℝ × ℝ) : Prop := dx * (q.2 - p.y) - dy * (q.1 - p.x) < 0

/-- `q` at height `z` is on the off-road side: to the right of the road edge at its nearest point, and also to the right of the
direction of the preceding point if that belongs to the same curve. -/
def OffroadSide (rg : List (RgPoint ℝ)) (q : ℝ × ℝ) (z : ℝ) : Prop :=
  ∃ (k : Nat) (p : RgPoint ℝ), IsNearestEdge rg q z k p ∧ RightOf p p.dirX p.dirY q ∧
    ∀ (j : Nat) (p' : RgPoint ℝ), j + 1 = k → rg[j]? = some p' → p'.id = p.id → RightOf p p'.dirX p'.dirY q

/-- `q` is one of the four corners of the box of `p`. -/
def IsCorner (p : Pt ℝ) (q : ℝ × ℝ) : Prop :=
  ∃ a b : ℝ, (a = 1 ∨ a = -1) ∧ (b = 1 ∨ b = -1) ∧ q = pointAt p.x p.y p.yaw (a * p.length / 2) (b * p.width / 2)

end Waymax
