import Verif.Spec.Agents
/-
Vocabulary for the statements about what an IDM agent brakes for: the stretch of the logged route ahead of it.
-/

namespace Waymax

open Real

section
variable {n T : Nat} [NeZero T]

/-- Distance in space. -/
noncomputable def spaceDist (p q : Pt ℝ) : ℝ := √((p.x - q.x) ^ 2 + (p.y - q.y) ^ 2 + (p.z - q.z) ^ 2)

/-- Logged step `t` is the (first) valid one nearest to `p` in space. -/
def NearestInSpace (log : Fin T → Pt ℝ) (p : Pt ℝ) (t : Fin T) : Prop :=
  (log t).valid = true ∧ (∀ u, (log u).valid = true → spaceDist p (log t) ≤ spaceDist p (log u)) ∧
    ∀ u < t, (log u).valid = true → spaceDist p (log t) < spaceDist p (log u)

/-- `w` is one of the next `m` logged points of the route, counted from the one nearest to `p`. -/
def OnRouteAhead (log : Fin T → Pt ℝ) (p : Pt ℝ) (m : Nat) (w : Pt ℝ) : Prop :=
  ∃ t u : Fin T, NearestInSpace log p t ∧ t.val ≤ u.val ∧ u.val < t.val + m ∧ w = log u

/-- Some other object stands on the next `max_lookahead` logged points of the route of object `i`. -/
def RouteBlocked (P : IdmParams) (log : Fin T → Pt ℝ) (cur : Fin n → Pt ℝ) (i : Fin n) : Prop :=
  ∃ w, OnRouteAhead log (cur i) P.maxLookahead w ∧ ∃ j, Meets cur i w j

/-- The speed chosen on an empty road. -/
noncomputable def freeSpeed (P : IdmParams) (p : Pt ℝ) : ℝ := speedAfter (speedOf p) (idmFree P (speedOf p))

variable (n T)

/-- If an object stands on the next stretch of its route, the agent drives slower than on an empty road. -/
def ReactsToRoute (P : IdmParams) : Prop :=
  ∀ (s : SimState ℝ n T) (i : Fin n) (t : Fin T), (t : Int) = s.timestep → (s.simTrajectory i t).valid = true →
    RouteBlocked P (s.logTrajectory i) (fun j => s.simTrajectory j t) i → 0 < freeSpeed P (s.simTrajectory i t) →
    ∀ r, idmUpdateSpeed P s i = .ok r → r.1 < freeSpeed P (s.simTrajectory i t)

/-- If no object stands on the next stretch of its route, the agent drives as on an empty road. -/
def IgnoresOffRoute (P : IdmParams) : Prop :=
  ∀ (s : SimState ℝ n T) (i : Fin n) (t : Fin T), (t : Int) = s.timestep → (s.simTrajectory i t).valid = true →
    (∃ u, (s.logTrajectory i u).valid = true) → ¬ RouteBlocked P (s.logTrajectory i) (fun j => s.simTrajectory j t) i →
    ∀ r, idmUpdateSpeed P s i = .ok r → r.1 = freeSpeed P (s.simTrajectory i t)

/-- C162 in full: an IDM agent slows down exactly for what stands on the next stretch of its route. -/
def C162_full (P : IdmParams) : Prop := ReactsToRoute n T P ∧ IgnoresOffRoute n T P

end

end Waymax
