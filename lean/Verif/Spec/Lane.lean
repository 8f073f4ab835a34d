import Verif.Spec.Agents
/-
Vocabulary for C192: parked objects as seen from an object that drives straight on. Nothing here is used by the model.

The driving object is at `p` and drives in the direction of its heading; `aheadOf p s` is the same object `s` metres further on. The
other objects `o` stand still.
-/

namespace Waymax

variable {n : Nat}

/-- The same position, heading, size and velocity, and both present or both absent. -/
structure StandsAs (p q : Pt ℝ) : Prop where
  x : p.x = q.x
  y : p.y = q.y
  yaw : p.yaw = q.yaw
  length : p.length = q.length
  width : p.width = q.width
  velX : p.velX = q.velX
  velY : p.velY = q.velY
  valid : p.valid = q.valid

/-- The driving object `i` never touches object `j`, however far it drives. -/
def LaneClear (p : Pt ℝ) (o : Fin n → Pt ℝ) (i j : Fin n) : Prop := ∀ s, 0 ≤ s → ¬ Meets o i (aheadOf p s) j

/-- Object `j` blocks the way after `g` metres: up to there object `i` does not overlap it, and on the metre after that it would. -/
def BlocksLane (p : Pt ℝ) (o : Fin n → Pt ℝ) (i j : Fin n) (g : ℝ) : Prop :=
  (∀ s, 0 ≤ s → s ≤ g → ¬ Meets o i (aheadOf p s) j) ∧ ∀ s, g < s → s ≤ g + 1 → Meets o i (aheadOf p s) j

/-- Every object `j` other than `i` is out of the way, or it blocks the way at a distance of at least a tenth of a second at the
present speed. -/
def WayAhead (p : Pt ℝ) (o : Fin n → Pt ℝ) (i : Fin n) : Prop :=
  ∀ j, j ≠ i → LaneClear p o i j ∨ ∃ g, 0.1 * speedOf p ≤ g ∧ BlocksLane p o i j g

/-- The logged route leads straight on from `p` for at least `d` metres: all logged way points are on the line through `p` with the
heading of `p`, and the route does not end on the way. -/
structure StraightRoute {T : Nat} (log : Fin T → Pt ℝ) (p : Pt ℝ) (d : ℝ) : Prop where
  logged : ∃ t, (log t).valid = true
  straight : ∀ t, (log t).valid = true → (log t).yaw = p.yaw ∧ ∃ s, posOf (log t) = posOf (aheadOf p s)
  goesOn : ∀ x, 0 ≤ x → x ≤ d → ∀ t, NearestLogged log (posOf (aheadOf p x)) t → ¬ AtEnd log (posOf (aheadOf p x)) (log t)

/-- The logged route is at its end at `p`: all logged way points are on the line through `p` with the heading of `p`, and wherever on
that line, ahead of `p`, the nearest of them is the end of the route. -/
structure RouteOver {T : Nat} (log : Fin T → Pt ℝ) (p : Pt ℝ) : Prop where
  logged : ∃ t, (log t).valid = true
  straight : ∀ t, (log t).valid = true → (log t).yaw = p.yaw ∧ ∃ s, posOf (log t) = posOf (aheadOf p s)
  over : ∀ x, 0 ≤ x → ∀ t, NearestLogged log (posOf (aheadOf p x)) t → AtEnd log (posOf (aheadOf p x)) (log t)

end Waymax
