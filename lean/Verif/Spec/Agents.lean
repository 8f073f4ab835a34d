import Verif.Model.Waypoint
import Verif.Spec.Planning
import Verif.Spec.Episode
/-
Vocabulary for the statements about sim agents: which objects are met along a list of way points, the leader, the textbook
IDM formula.
-/

namespace Waymax

open Real

section
variable {n : Nat}

/-- Driving object `i` to way point `w` would make it overlap the other object `j`, both being valid. -/
def Meets (cur : Fin n → Pt ℝ) (i : Fin n) (w : Pt ℝ) (j : Fin n) : Prop :=
  j ≠ i ∧ w.valid = true ∧ (cur j).valid = true ∧
    (rectInterior w.x w.y w.length w.width w.yaw ∩
      rectInterior (cur j).x (cur j).y (cur j).length (cur j).width (cur j).yaw).Nonempty

/-- Speed of an object. -/
noncomputable def speedOf (p : Pt ℝ) : ℝ := norm2 (p.velX, p.velY)

/-- No object is met along the way points. -/
def FreeRoad (cur : Fin n → Pt ℝ) (i : Fin n) (ws : List (Pt ℝ)) : Prop := ∀ w ∈ ws, ∀ j, ¬ Meets cur i w j

/-- `u` is the smallest speed among the objects met at the first way point where any object is met. -/
def LeadSpeed (cur : Fin n → Pt ℝ) (i : Fin n) (ws : List (Pt ℝ)) (u : ℝ) : Prop :=
  ∃ pre w post, ws = pre ++ w :: post ∧ FreeRoad cur i pre ∧
    (∃ j, Meets cur i w j ∧ u = speedOf (cur j)) ∧ ∀ j, Meets cur i w j → u ≤ speedOf (cur j)

/-- `g` is the smallest straight-line distance (in space) from the object to a way point where some object is met. -/
def LeadGap (cur : Fin n → Pt ℝ) (i : Fin n) (ws : List (Pt ℝ)) (g : ℝ) : Prop :=
  let d := fun w : Pt ℝ => √(((cur i).x - w.x) ^ 2 + ((cur i).y - w.y) ^ 2 + ((cur i).z - w.z) ^ 2)
  (∃ w ∈ ws, (∃ j, Meets cur i w j) ∧ g = d w) ∧ ∀ w ∈ ws, (∃ j, Meets cur i w j) → g ≤ d w

end

/-- Free-road acceleration of the intelligent driver model. -/
noncomputable def idmFree (P : IdmParams) (v : ℝ) : ℝ := P.maxAccel * (1 - (v / P.desiredVel) ^ P.delta)

/-- Desired gap of the intelligent driver model, behind a leader of speed `u`. -/
noncomputable def idmDesiredGap (P : IdmParams) (v u : ℝ) : ℝ :=
  P.minSpacing + max 0 (v * P.safeTimeHeadway + v * (v - u) / (2 * √(P.maxAccel * P.maxDecel)))

/-- Acceleration of the intelligent driver model behind a leader of speed `u` at gap `g`; a gap of zero counts as 10 cm. -/
noncomputable def idmFollow (P : IdmParams) (v u g : ℝ) : ℝ :=
  idmFree P v - P.maxAccel * (idmDesiredGap P v u / (if g = 0 then 0.1 else g)) ^ 2

/-- The speed after one time step of 0.1 s at acceleration `a`; vehicles do not drive backwards. -/
noncomputable def speedAfter (v a : ℝ) : ℝ := max 0 (v + 0.1 * a)

/-- The point `s` metres straight ahead. -/
noncomputable def aheadOf (p : Pt ℝ) (s : ℝ) : Pt ℝ :=
  { p with x := p.x + s * (heading p.yaw).1, y := p.y + s * (heading p.yaw).2 }

section
variable {K P : Type} {n T : Nat} [NeZero T]

/-- Object `i` is driven by sim agent number `k` of the environment, a sim agent with the given `update_trajectory`: in every
state of the scenario the agent claims the object and no later agent does, and the object does not start in an overlap. -/
structure DrivenBy {D : Type} (E : PlanEnv D Unit K P n T) (k : Nat) (ctrl : SimState ℝ n T → Fin n → Bool)
    (upd : SimState ℝ n T → Fin n → Upd ℝ) (i : Fin n) (scen : SimState ℝ n T) : Prop where
  agent : E.actors[k]? = some (simAgent ctrl upd)
  params : E.actors.length = E.params.length
  claims : ∀ s, SameScenario scen s → ctrl s i = true
  later : ∀ (k' : Nat) (a : SimAgent Unit K P n T), k < k' → E.actors[k']? = some a → ∀ p s x key, SameScenario scen s.sim →
    (a.selectAction p s x key).isControlled i = false
  apart : ¬ StartsOverlapping scen.logTrajectory i

end

section
variable {T : Nat}

/-- Position of a logged or simulated point. -/
def posOf (p : Pt ℝ) : ℝ × ℝ := (p.x, p.y)

/-- Logged step `t` is the (first) valid one nearest to `q`. -/
def NearestLogged (log : Fin T → Pt ℝ) (q : ℝ × ℝ) (t : Fin T) : Prop :=
  (log t).valid = true ∧ (∀ u, (log u).valid = true → dist2 (posOf (log t)) q ≤ dist2 (posOf (log u)) q) ∧
    ∀ u < t, (log u).valid = true → dist2 (posOf (log t)) q < dist2 (posOf (log u)) q

/-- Step `t` is the last valid one of the log. -/
def LastLogged (log : Fin T → Pt ℝ) (t : Fin T) : Prop := (log t).valid = true ∧ ∀ u, (log u).valid = true → u ≤ t

/-- The end of the logged route: the way point `w` used at `q` is within 5 cm of the last logged one, or `q` has strayed more
than 5 m from it. -/
def AtEnd (log : Fin T → Pt ℝ) (q : ℝ × ℝ) (w : Pt ℝ) : Prop :=
  (∃ t, LastLogged log t ∧ dist2 (posOf (log t)) (posOf w) < 0.05) ∨ 5 < dist2 (posOf w) q

/-- Where an object at `p` gets in 0.1 s, straight ahead, at the mean of its speed and `v`. -/
noncomputable def coast (p : Pt ℝ) (v : ℝ) : ℝ × ℝ :=
  (p.x + (v + speedOf p) / 2 * 0.1 * (heading p.yaw).1, p.y + (v + speedOf p) / 2 * 0.1 * (heading p.yaw).2)

/-- `r` is the point nearest to `q` on the line through `w` with the heading of `w`. -/
def FootOn (w : Pt ℝ) (q r : ℝ × ℝ) : Prop :=
  (∃ s, r = posOf (aheadOf w s)) ∧ ∀ s, dist2 r q ≤ dist2 (posOf (aheadOf w s)) q

end

end Waymax
