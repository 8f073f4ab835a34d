import Verif.Model.Rollout
/-
Model of waymax/env/wrappers/brax_wrapper.py and waymax/env/wrappers/dm_env_wrapper.py.
-/

namespace Waymax

/-! ### Brax wrapper -/

/-- `TimeStep` (one scenario). `discount` is 0 or 1. waymax/env/wrappers/brax_wrapper.py:36-65 -/
structure BraxTimeStep (S O M R : Type) where
  state : S
  observation : O
  reward : R
  done : List Bool
  discount : List Int
  metrics : M

section
variable {S A O M R : Type}

/-- `BraxWrapper.reset`; `zeroReward` is `jnp.zeros(reward shape)`, `batch` the number of batch elements.
waymax/env/wrappers/brax_wrapper.py:95-115 -/
def braxReset (env : Env S A O M R) (zeroReward : R) (batch : Nat) (s : S) : Except Err (BraxTimeStep S O M R) := do
  let initial ← env.reset s
  let metrics ← env.metrics initial
  return { state := initial, observation := env.observe initial, done := env.termination initial,
           reward := zeroReward, discount := List.replicate batch 1, metrics := metrics }

/-- `BraxWrapper.step`. waymax/env/wrappers/brax_wrapper.py:121-149 -/
def braxStep (env : Env S A O M R) (ts : BraxTimeStep S O M R) (a : A) : Except Err (BraxTimeStep S O M R) := do
  let next ← env.step ts.state a
  let obs := env.observe next
  let reward ← env.reward ts.state a
  let termination := env.termination next
  let truncation := env.truncation next
  let done := List.zipWith (· || ·) termination truncation
  let discount := termination.map fun b => if b then 0 else 1
  let metrics ← env.metrics ts.state
  return { state := next, reward := reward, observation := obs, done := done, discount := discount, metrics := metrics }

/-- A sequence of `BraxWrapper.step` calls. waymax/env/wrappers/brax_wrapper.py:121-149 -/
def braxSteps (env : Env S A O M R) (ts : BraxTimeStep S O M R) : List A → Except Err (BraxTimeStep S O M R)
  | [] => .ok ts
  | a :: as => do
    let ts' ← braxStep env ts a
    braxSteps env ts' as

end

/-! ### DMEnv wrapper -/

/-- `dm_env.StepType`. Used at waymax/env/wrappers/dm_env_wrapper.py:94, 141-152 -/
inductive StepType where
  | FIRST | MID | LAST
  deriving DecidableEq, Repr

/-- `dm_env.TimeStep`: `dm_env.restart` has no reward and discount; `dm_env.transition` has discount 1.
Used at waymax/env/wrappers/dm_env_wrapper.py:94, 139-152 -/
structure DmTimeStep (O R : Type) where
  stepType : StepType
  reward : Option R
  discount : Option (List Int)
  observation : O
  deriving DecidableEq

/-- The mutable attributes of `DMEnvWrapper`; `data` are the scenarios the generator has not produced yet.
waymax/env/wrappers/dm_env_wrapper.py:36-63 -/
structure DmEnv (S : Type) where
  curState : Option S
  initialized : Bool
  done : Bool
  data : List S
  deriving DecidableEq

section
variable {S A O M R : Type}

/-- `DMEnvWrapper.__init__`: the constructor takes one scenario from the generator.
waymax/env/wrappers/dm_env_wrapper.py:36-63 -/
def dmInit (data : List S) : Except Err (DmEnv S) :=
  match data with
  | [] => .error .stopIteration
  | _ :: rest => .ok { curState := none, initialized := false, done := false, data := rest }

/-- `DMEnvWrapper.simulation_state`. waymax/env/wrappers/dm_env_wrapper.py:71-76 -/
def dmSimulationState (w : DmEnv S) : Except Err (Option S) :=
  if w.initialized then .ok w.curState else .error .notInitialized

/-- `DMEnvWrapper.reset`: new wrapper attributes, and the returned or raised value.
waymax/env/wrappers/dm_env_wrapper.py:87-94 -/
def dmReset (env : Env S A O M R) (isDone : S → Bool) (w : DmEnv S) : DmEnv S × Except Err (DmTimeStep O R) :=
  match w.data with
  | [] => (w, .error .stopIteration)
  | sc :: rest =>
    match env.reset sc with
    | .error e => ({ w with data := rest }, .error e)
    | .ok s =>
      let w := { w with curState := some s, initialized := true, data := rest }
      if isDone s then (w, .error .notInitialized)
      else ({ w with done := false },
        .ok { stepType := .FIRST, reward := none, discount := none, observation := env.observe s })

/-- `DMEnvWrapper.step`. `mkAction` is the reshape to the environment's action shape with `valid` all True
(dm_env_wrapper.py:121-131); the reward is computed first from the unreshaped action (`rewardRaw`), in the old state.
waymax/env/wrappers/dm_env_wrapper.py:96-152 -/
def dmStep {Raw : Type} (env : Env S A O M R) (mkAction : Raw → Except Err A) (rewardRaw : S → Raw → Except Err R)
    (w : DmEnv S) (action : Raw) : DmEnv S × Except Err (DmTimeStep O R) :=
  if !w.initialized then (w, .error .notInitialized)
  else if w.done then (w, .error .alreadyFinished)
  else
    match w.curState with
    | none => (w, .error .attributeError)
    | some cur =>
      match rewardRaw cur action with
      | .error e => (w, .error e)
      | .ok reward =>
        match mkAction action with
        | .error e => (w, .error e)
        | .ok a =>
          match env.step cur a with
          | .error e => (w, .error e)
          | .ok s =>
            let w := { w with curState := some s }
            let termination := env.termination s
            let truncation := env.truncation s
            let done := List.zipWith (· || ·) termination truncation
            let discount := termination.map fun b => if b then (0 : Int) else 1
            if done.all id then
              ({ w with done := true },
                .ok { stepType := .LAST, reward := some reward, discount := some discount, observation := env.observe s })
            else if done.any id then (w, .error .notImplemented)
            else (w, .ok { stepType := .MID, reward := some reward, discount := some [1], observation := env.observe s })

/-- A call on the wrapper. waymax/env/wrappers/dm_env_wrapper.py:87-152 -/
inductive DmCall (Raw : Type) where
  | reset
  | step (a : Raw)
  deriving DecidableEq

/-- One call. waymax/env/wrappers/dm_env_wrapper.py:87-152 -/
def dmCall {Raw : Type} (env : Env S A O M R) (isDone : S → Bool) (mkAction : Raw → Except Err A)
    (rewardRaw : S → Raw → Except Err R) (w : DmEnv S) : DmCall Raw → DmEnv S × Except Err (DmTimeStep O R)
  | .reset => dmReset env isDone w
  | .step a => dmStep env mkAction rewardRaw w a

/-- A sequence of calls: the final attributes and the list of results. waymax/env/wrappers/dm_env_wrapper.py:87-152 -/
def dmRun {Raw : Type} (env : Env S A O M R) (isDone : S → Bool) (mkAction : Raw → Except Err A)
    (rewardRaw : S → Raw → Except Err R) : DmEnv S → List (DmCall Raw) → DmEnv S × List (Except Err (DmTimeStep O R))
  | w, [] => (w, [])
  | w, c :: cs =>
    let r := dmCall env isDone mkAction rewardRaw w c
    let rest := dmRun env isDone mkAction rewardRaw r.1 cs
    (rest.1, r.2 :: rest.2)

end

end Waymax
