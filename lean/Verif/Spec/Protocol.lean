import Verif.Model.Wrappers
/-
The protocol a user of `DMEnvWrapper` expects, as a small automaton that knows nothing about the simulator. Used only in the
statement of C19.
-/

namespace Waymax

/-- Where the user is: no episode yet, an episode with `left` steps to go, or an episode that has ended. -/
inductive Phase where
  | idle
  | running (left : Nat)
  | finished
  deriving DecidableEq

/-- What one call produces: a time step of some type, or an exception. -/
inductive Outcome where
  | time (t : StepType)
  | raised (e : Err)
  deriving DecidableEq

/-- The step type or the exception of a result. -/
def outcome {O R : Type} : Except Err (DmTimeStep O R) → Outcome
  | .ok ts => .time ts.stepType
  | .error e => .raised e

/-- Expected reaction to one call, when every episode lasts `N` steps and `avail` scenarios are left. -/
def expected {Raw : Type} (N : Nat) : Phase × Nat → DmCall Raw → (Phase × Nat) × Outcome
  | (ph, 0), .reset => ((ph, 0), .raised .stopIteration)
  | (_, avail + 1), .reset => ((.running N, avail), .time .FIRST)
  | (.idle, avail), .step _ => ((.idle, avail), .raised .notInitialized)
  | (.finished, avail), .step _ => ((.finished, avail), .raised .alreadyFinished)
  | (.running left, avail), .step _ =>
    if left ≤ 1 then ((.finished, avail), .time .LAST) else ((.running (left - 1), avail), .time .MID)

/-- Expected reactions to a list of calls. -/
def expectedRun {Raw : Type} (N : Nat) : Phase × Nat → List (DmCall Raw) → List Outcome
  | _, [] => []
  | ph, c :: cs => (expected N ph c).2 :: expectedRun N (expected N ph c).1 cs

end Waymax
