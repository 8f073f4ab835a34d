import Verif.Model.Wrappers
/-
C183: three ways to drive a scenario - a rollout, the Brax interface, the DeepMind interface - and what it means that they agree.
-/

namespace Waymax

section
variable {S A O M R : Type}

/-- Everything the Brax interface returns when a scenario is reset and the actions are applied one after the other: one time step for the
reset and one for each action. -/
def braxTrace (env : Env S A O M R) (zero : R) (batch : Nat) (scen : S) (acts : List A) : Except Err (List (BraxTimeStep S O M R)) := do
  let rec go (ts : BraxTimeStep S O M R) : List A → Except Err (List (BraxTimeStep S O M R))
    | [] => .ok [ts]
    | a :: as => do
      let ts' ← braxStep env ts a
      let rest ← go ts' as
      return ts :: rest
  let ts ← braxReset env zero batch scen
  go ts acts

/-- The actions a rollout recorded, without the padding action of the last entry. -/
def recordedActions (es : List (RolloutEntry S A O M R)) : List A := es.dropLast.map RolloutEntry.action

/-- The Brax time steps show what the rollout shows: the same states and observations, and the reward of each action one time step later. -/
structure BraxAgrees (es : List (RolloutEntry S A O M R)) (tss : List (BraxTimeStep S O M R)) : Prop where
  length : tss.length = es.length
  state : ∀ k (h : k < es.length), tss[k].state = es[k].state
  observation : ∀ k (h : k < es.length), tss[k].observation = es[k].observation
  reward : ∀ k (h : k + 1 < es.length), tss[k + 1].reward = es[k].reward

/-- Expectation: a Brax time step carries the metrics of the state it carries. -/
def BraxMetricsCurrent (env : Env S A O M R) (zero : R) (batch : Nat) : Prop :=
  ∀ scen acts tss, braxTrace env zero batch scen acts = .ok tss → ∀ ts ∈ tss, env.metrics ts.state = .ok ts.metrics

/-- The DeepMind time steps show what the rollout shows: the first has no reward, the others the reward of the action that led there;
only the last entry may be marked LAST, and it is when every scenario has ended. -/
structure DmAgrees (env : Env S A O M R) (es : List (RolloutEntry S A O M R)) (tss : List (Except Err (DmTimeStep O R))) : Prop where
  length : tss.length = es.length
  first : ∀ h : 0 < es.length, tss[0] = .ok { stepType := .FIRST, reward := none, discount := none, observation := es[0].observation }
  later : ∀ k (h : k + 1 < es.length), ∃ ts, tss[k + 1] = .ok ts ∧ ts.observation = es[k + 1].observation ∧ ts.reward = some es[k].reward ∧
    (ts.stepType = .LAST ↔ ∀ b ∈ List.zipWith (· || ·) (env.termination es[k + 1].state) (env.truncation es[k + 1].state), b = true) ∧
    ts.stepType ≠ .FIRST

end

end Waymax
