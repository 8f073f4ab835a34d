import Verif.Spec.Causal
import Verif.Spec.Agents
/-
Vocabulary for C191: what sim agents that follow logged way points know about the future of the log. Nothing here is used by the
model.
-/

namespace Waymax

variable {n T : Nat}

/-- Planning episodes with this one sim agent cannot tell two recordings apart before the step at which the recordings begin to
differ: the simulated states are equal as long as the simulated time does not pass the common part. -/
def KnowsNoFuture (D : Type) [NeZero T] (A : SimAgent Unit Unit Unit n T) : Prop :=
  ∀ (E : PlanEnv D Unit Unit Unit n T) (k : Nat), E.actors = [A] → E.params.length = 1 → 1 ≤ E.cfg.initSteps →
    ∀ s s' : SimState ℝ n T, SameUntil k s s' → ∀ (split : Unit → Nat → List Unit) (rng : Option Unit)
      (as : List (Act D × Option Unit)), E.cfg.initSteps + as.length ≤ k + 1 →
      Both (SamePlanRun k) (planReset E split s rng >>= fun s0 => planMany E split s0 as)
        (planReset E split s' rng >>= fun s0 => planMany E split s0 as)

/-- For an object about to be at `q` the two logged routes are the same: the nearest logged way point is the same one, and it is
the end of both routes or of neither. -/
def SameRoute (log log' : Fin T → Pt ℝ) (q : ℝ × ℝ) : Prop :=
  ∃ t, NearestLogged log q t ∧ NearestLogged log' q t ∧ log' t = log t ∧ (AtEnd log' q (log t) ↔ AtEnd log q (log t))

end Waymax
