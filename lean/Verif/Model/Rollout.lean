import Verif.Model.BaseEnv
/-
Model of waymax/env/rollout.py, of the environment interface it uses (waymax/env/abstract_environment.py) and of the actor
interface (waymax/agents/actor_core.py) and the expert actor (waymax/agents/expert.py).
-/

namespace Waymax

/-- `AbstractEnvironment` as used by rollouts and wrappers: scenario/state type `S`, action `A`, observation `O`, metrics `M`,
reward `R`. Functions that can raise return `Except`. `termination` / `truncation` give one flag per batch element.
waymax/env/abstract_environment.py:28-163 -/
structure Env (S A O M R : Type) where
  reset : S → Except Err S
  step : S → A → Except Err S
  observe : S → O
  metrics : S → Except Err M
  reward : S → A → Except Err R
  termination : S → List Bool
  truncation : S → List Bool

/-- `WaymaxActorOutput`. waymax/agents/actor_core.py:33-54 -/
structure ActorOutput (A X C : Type) where
  actorState : X
  action : A
  isControlled : C

/-- `WaymaxActorCore`: internal state `X`, random keys `K`, parameters `P`, control mask `C`.
waymax/agents/actor_core.py:56-103 -/
structure Actor (S A X K P C : Type) where
  init : K → S → X
  selectAction : P → S → X → K → ActorOutput A X C

/-- One time slice of `RolloutOutput`. waymax/env/rollout.py:53-87 -/
structure RolloutEntry (S A O M R : Type) where
  action : A
  state : S
  observation : O
  metrics : M
  reward : R
  deriving DecidableEq

/-- `RolloutCarry`. waymax/env/rollout.py:30-50 -/
structure RolloutCarry (S O X K : Type) where
  state : S
  observation : O
  rng : K
  actorState : X

section
variable {S A O M R X K P C : Type}

/-- `_step` of the rollout. waymax/env/rollout.py:139-178 -/
def rolloutStep (env : Env S A O M R) (actor : Actor S A X K P C) (split : K → K × K) (params : P)
    (carry : RolloutCarry S O X K) : Except Err (RolloutCarry S O X K × RolloutEntry S A O M R) := do
  let actionRng := (split carry.rng).1
  let rng := (split carry.rng).2
  let out := actor.selectAction params carry.state carry.actorState actionRng
  let nextState ← env.step carry.state out.action
  let nextObservation := env.observe nextState
  let metrics ← env.metrics carry.state
  let reward ← env.reward carry.state out.action
  return ({ state := nextState, observation := nextObservation, rng := rng, actorState := out.actorState },
    { action := out.action, state := carry.state, observation := carry.observation, metrics := metrics, reward := reward })

/-- `jax.lax.scan(f, init, xs=arange(n))`: the final carry and the stacked outputs. Called at
waymax/env/rollout.py:186-188 -/
def scan {Γ Y : Type} (f : Γ → Except Err (Γ × Y)) : Nat → Γ → Except Err (Γ × List Y)
  | 0, c => .ok (c, [])
  | k + 1, c => do
    let (c1, y) ← f c
    let (c2, ys) ← scan f k c1
    return (c2, y :: ys)

/-- `rollout`. waymax/env/rollout.py:103-205. `zerosLike` is `jnp.zeros_like` on actions. With zero steps the padding action is
taken from an empty array (`x[-1]`), which fails. -/
def rollout (env : Env S A O M R) (actor : Actor S A X K P C) (split : K → K × K) (params : P) (zerosLike : A → A)
    (scenario : S) (rng : K) (numSteps : Nat) : Except Err (List (RolloutEntry S A O M R)) := do
  let resetState ← env.reset scenario
  let initRng := (split rng).1
  let rng := (split rng).2
  let actorInitState := actor.init initRng resetState
  let (carry, output) ← scan (rolloutStep env actor split params) numSteps
    { state := resetState, observation := env.observe resetState, rng := rng, actorState := actorInitState }
  match output.getLast? with
  | none => .error .typeError
  | some last => do
    let paddingAction := zerosLike last.action
    let metrics ← env.metrics carry.state
    let reward ← env.reward carry.state paddingAction
    return output ++ [{ action := paddingAction, state := carry.state, observation := carry.observation,
                        metrics := metrics, reward := reward }]

end

section
variable {α D M R : Type} [ScalarOps α] {n T : Nat} [NeZero T]

/-- `BaseEnvironment` as an `Env`: `observe` is the identity (base_environment.py:94-112). Metrics and reward are parameters
here. waymax/env/base_environment.py:33-186 -/
def baseEnv (d : DynamicsModel α D n) (cfg : EnvConfig) (metrics : SimState α n T → Except Err M)
    (reward : SimState α n T → (Fin n → Act D) → Except Err R) :
    Env (SimState α n T) (Fin n → Act D) (SimState α n T) M R where
  reset := reset cfg
  step := step d cfg
  observe := id
  metrics := metrics
  reward := reward
  termination := fun s => [termination s]
  truncation := fun s => [truncation s]

omit [ScalarOps α] in
/-- `infer_expert_action`: inverse dynamics on the two-step trajectory (simulated current step, next logged step).
waymax/agents/expert.py:31-60 -/
def inferExpertAction (s : SimState α n T) (d : DynamicsModel α D n) : Fin n → Act D :=
  let combined : Traj α n 2 := fun i t =>
    if t.val = 0 then dynIndex (s.simTrajectory i) s.timestep else dynIndex (s.logTrajectory i) (s.timestep + 1)
  d.inverse combined s.objectMetadata 0

omit [ScalarOps α] in
/-- `create_expert_actor`. waymax/agents/expert.py:63-107 -/
def expertActor {K P : Type} (d : DynamicsModel α D n) (isControlledFunc : SimState α n T → Fin n → Bool) :
    Actor (SimState α n T) (Fin n → Act D) Unit K P (Fin n → Bool) where
  init := fun _ _ => ()
  selectAction := fun _ s _ _ =>
    { actorState := (), action := inferExpertAction s d, isControlled := isControlledFunc s }

end

end Waymax
