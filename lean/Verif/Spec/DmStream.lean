import Verif.Model.Wrappers
/-
C184: the episodes of the DeepMind interface and the scenarios of the generator.
-/

namespace Waymax

section
variable {S A O M R Raw : Type}

/-- The answers to the `reset` calls among a sequence of calls and answers, in order. -/
def resetAnswers : List (DmCall Raw) → List (Except Err (DmTimeStep O R)) → List (Except Err (DmTimeStep O R))
  | .reset :: cs, r :: rs => r :: resetAnswers cs rs
  | .step _ :: cs, _ :: rs => resetAnswers cs rs
  | _, _ => []

/-- How an episode of a scenario starts: with its first observation; scenarios that cannot be reset or are over are refused. -/
def startOf (env : Env S A O M R) (isDone : S → Bool) (scen : S) : Except Err (DmTimeStep O R) :=
  match env.reset scen with
  | .error e => .error e
  | .ok s => if isDone s then .error .notInitialized
    else .ok { stepType := .FIRST, reward := none, discount := none, observation := env.observe s }

/-- What `k` resets answer that go through the scenarios of a list, one after the other. -/
def startsOf (env : Env S A O M R) (isDone : S → Bool) : Nat → List S → List (Except Err (DmTimeStep O R))
  | 0, _ => []
  | k + 1, [] => .error .stopIteration :: startsOf env isDone k []
  | k + 1, sc :: scs => startOf env isDone sc :: startsOf env isDone k scs

/-- The number of `reset` calls. -/
def numResets : List (DmCall Raw) → Nat
  | [] => 0
  | .reset :: cs => numResets cs + 1
  | .step _ :: cs => numResets cs

/-- Expectation: whatever is called in between, the resets go through the scenarios of the generator from the first on. -/
def EveryScenarioPlayed (env : Env S A O M R) (isDone : S → Bool) (mk : Raw → Except Err A) (rew : S → Raw → Except Err R) : Prop :=
  ∀ data w, dmInit data = .ok w → ∀ calls, resetAnswers calls (dmRun env isDone mk rew w calls).2 = startsOf env isDone (numResets calls) data

end

end Waymax
