import Verif.Model.BatchReward
import Verif.Model.Generator
import Verif.Model.Rollout
/-
Rollouts of whole batches: `rollout` and `rollout_log_by_expert_sdc` (waymax/env/rollout.py), the expert actor
(waymax/agents/expert.py) and the inverses of the built-in dynamics, on arrays with any leading batch axes. The output of a rollout
is stacked along a new first axis, as `jax.lax.scan` does.
-/

namespace Waymax

namespace Nd
variable {β : Type}

/-- `jnp.stack(xs, axis=-1)`. Called e.g. at waymax/datatypes/object_state.py:216-218 -/
def stackLast (xs : List (Nd β)) : Except Err (Nd β) :=
  match xs with
  | [] => .error .valueError
  | x :: _ => do
    assertThat (∀ y ∈ xs, y.shape = x.shape) .valueError
    return { shape := x.shape ++ [xs.length], get := fun idx => (xs.getD (idx.getLastD 0) x).get idx.dropLast }

/-- `x[..., k, :]` for a constant `k`. Used at waymax/dynamics/delta.py:144, waymax/dynamics/state_dynamics.py:95 -/
def indexBeforeLast (x : Nd β) (k : Nat) : Except Err (Nd β) := do
  assertThat (2 ≤ x.shape.length ∧ k < x.shape.dropLast.getLastD 0) .indexError
  return { shape := x.shape.dropLast.dropLast ++ [x.shape.getLastD 0]
           get := fun idx => x.get (idx.dropLast ++ [k, idx.getLastD 0]) }

end Nd

/-! ### Inverse dynamics -/

/-- The `inverse` interface on whole batches. waymax/dynamics/abstract_dynamics.py:111-133 -/
abbrev InverseNd (α : Type) := TrajNd α → MetaNd → Int → Except Err (ActNd α)

/-- `StateDynamics.inverse`. waymax/dynamics/state_dynamics.py:67-94 -/
def stateInverseNd (α : Type) : InverseNd α := fun t _ timestep => do
  let stacked ← Nd.stackLast [t.x, t.y, t.yaw, t.velX, t.velY]
  let cut ← stacked.sliceInDim (timestep + 1) 1 (-2)
  let valids ← t.valid.sliceInDim (timestep + 1) 1 (-1)
  let data ← cut.indexBeforeLast 0
  return { data, valid := valids }

/-- `DeltaGlobal._clip_values`. waymax/dynamics/delta.py:97-118 -/
noncomputable def deltaClipNd (P : DeltaParams) (a : Nd ℝ) : Except Err (Nd ℝ) := do
  let x ← a.indexLast 0
  let y ← a.indexLast 1
  let yaw ← a.indexLast 2
  Nd.stackLast [x.map fun v => clip v (-P.maxDx) P.maxDx, y.map fun v => clip v (-P.maxDy) P.maxDy, yaw.map wrapYaws]

/-- `DeltaGlobal.inverse`. waymax/dynamics/delta.py:120-155 -/
noncomputable def deltaGlobalInverseNd (P : DeltaParams) : InverseNd ℝ := fun t _ timestep => do
  let xyYaw_ ← Nd.stackLast [t.x, t.y, t.yaw]
  let xyYaw ← xyYaw_.sliceInDim timestep 2 (-2)
  let after ← xyYaw.indexBeforeLast 1
  let before ← xyYaw.indexBeforeLast 0
  let raw ← Nd.zip (fun a b => a - b) after before
  let valids ← t.valid.sliceInDim timestep 2 (-1)
  let valid ← Nd.zip (fun a b => a && b) (valids.sliceLast 0 1) (valids.sliceLast 1 2)
  let arr ← Nd.where3 valid raw (Nd.scalar 0)
  let data ← deltaClipNd P arr
  return { data, valid }

/-- `DeltaLocal.inverse`. waymax/dynamics/delta.py:197-241 -/
noncomputable def deltaLocalInverseNd (P : DeltaParams) : InverseNd ℝ := fun t m timestep => do
  let g ← deltaGlobalInverseNd P t m timestep
  let yaw1 ← t.yaw.sliceInDim timestep 1 (-1)
  let currentYaw ← yaw1.indexLast 0
  let valid1 ← t.valid.sliceInDim timestep 1 (-1)
  let currentValid := valid1.sliceLast 0 1
  let localXy ← rotateNd (currentYaw.map fun v => -v) g.data
  let localArr ← Nd.concatLast localXy (g.data.sliceLast 2 3)
  let data ← deltaClipNd P localArr
  let valid ← Nd.zip (fun a b => a && b) currentValid g.valid
  return { data, valid }

/-- `InvertibleBicycleModel.inverse`. waymax/dynamics/bicycle_model.py:231-264 -/
noncomputable def bicycleInverseNd (P : BicycleParams) : InverseNd ℝ := fun t _ timestep => do
  let a ← computeInverseNd t (Nd.scalar timestep) P.dt
  let accel ← (a.1.map AccelSteer.accel).indexLast 0
  let steering ← (a.1.map AccelSteer.steering).indexLast 0
  let arr ← Nd.stackLast2 (accel.map fun v => if P.normalizeActions then v / P.maxAccel else v)
    (steering.map fun v => if P.normalizeActions then v / P.maxSteering else v)
  let data ← bicycleClipNd P arr
  return { data, valid := a.2 }

/-! ### Expert -/

/-- `infer_expert_action`. waymax/agents/expert.py:29-59 -/
def inferExpertActionNd {α : Type} (inverse : InverseNd α) (s : StateNd α) : Except Err (ActNd α) := do
  let prev ← s.simTrajectory.slice s.timestep 1
  let next ← s.logTrajectory.slice (s.timestep.map fun t => t + 1) 1
  let combined ← prev.zipLeaves (fun _ x y => x.concatLast y) next
  inverse combined s.objectMetadata 0

/-- The functions of an environment that a rollout calls. waymax/env/abstract_environment.py:28-127 -/
structure RolloutEnv (S A O M R : Type) where
  reset : S → Except Err S
  step : S → A → Except Err S
  observe : S → O
  metrics : S → Except Err M
  reward : S → A → Except Err R

/-- `WaymaxActorCore` whose `select_action` may raise. waymax/agents/actor_core.py:56-103 -/
structure RaisingActor (S A X K P C : Type) where
  init : K → S → X
  selectAction : P → S → X → K → Except Err (ActorOutput A X C)

/-- `create_expert_actor`. waymax/agents/expert.py:62-107 -/
def expertActorNd {α K P : Type} (inverse : InverseNd α) (isControlledFunc : StateNd α → Nd Bool) :
    RaisingActor (StateNd α) (ActNd α) Unit K P (Nd Bool) where
  init := fun _ _ => ()
  selectAction := fun _ s _ _ => do
    let action ← inferExpertActionNd inverse s
    return { actorState := (), action, isControlled := isControlledFunc s }

/-! ### Rollout -/

section
variable {S A O M R X K P C : Type}

/-- `_step` of the rollout. waymax/env/rollout.py:139-178 -/
def rolloutStepE (env : RolloutEnv S A O M R) (actor : RaisingActor S A X K P C) (split : K → K × K) (params : P)
    (carry : RolloutCarry S O X K) : Except Err (RolloutCarry S O X K × RolloutEntry S A O M R) := do
  let out ← actor.selectAction params carry.state carry.actorState (split carry.rng).1
  let nextState ← env.step carry.state out.action
  let metrics ← env.metrics carry.state
  let reward ← env.reward carry.state out.action
  return ({ state := nextState, observation := env.observe nextState, rng := (split carry.rng).2, actorState := out.actorState },
    { action := out.action, state := carry.state, observation := carry.observation, metrics, reward })

/-- The entries of `rollout`, before they are stacked. waymax/env/rollout.py:130-199 -/
def rolloutEntries (env : RolloutEnv S A O M R) (actor : RaisingActor S A X K P C) (split : K → K × K) (params : P)
    (zerosLike : A → A) (scenario : S) (rng : K) (numSteps : Nat) : Except Err (List (RolloutEntry S A O M R)) := do
  let resetState ← env.reset scenario
  let actorInitState := actor.init (split rng).1 resetState
  let r ← scan (rolloutStepE env actor split params) numSteps
    { state := resetState, observation := env.observe resetState, rng := (split rng).2, actorState := actorInitState }
  match r.2.getLast? with
  | none => .error .typeError
  | some last => do
    let paddingAction := zerosLike last.action
    let metrics ← env.metrics r.1.state
    let reward ← env.reward r.1.state paddingAction
    return r.2 ++ [{ action := paddingAction, state := r.1.state, observation := r.1.observation, metrics, reward }]

end

/-- `jnp.zeros_like` of an action. waymax/env/rollout.py:190-192 -/
def ActNd.zerosLike (a : ActNd ℝ) : ActNd ℝ := { data := a.data.map fun _ => 0, valid := a.valid.map fun _ => false }

/-- `BaseEnvironment` on batches. waymax/env/base_environment.py:33-186 -/
noncomputable def baseEnvNd (d : DynNd ℝ) (cfg : EnvConfig) (registry : Dict (StateNd ℝ → Except Err MetricNd)) (metricsToRun : List String)
    (computeReward : Bool) (rewards : Dict ℝ) : RolloutEnv (StateNd ℝ) (ActNd ℝ) (StateNd ℝ) (Dict MetricNd) TypedNd where
  reset := resetNd cfg
  step := stepNd d cfg
  observe := id
  metrics := fun s => runMetricsNd registry s metricsToRun
  reward := fun s _ => baseRewardNd registry cfg computeReward rewards s

/-- `RolloutOutput`: every array has the time axis in front. waymax/env/rollout.py:50-87 -/
abbrev RolloutNd := RolloutEntry (StateNd ℝ) (ActNd ℝ) (StateNd ℝ) (Dict MetricNd) TypedNd

/-- The stacked outputs of the scan with the last entry appended; `e` is the first entry. The step is traced once, so all entries have
the same metrics and shapes. waymax/env/rollout.py:186-203 -/
def stackRollout (es : List RolloutNd) (e : RolloutNd) : RolloutNd where
  action := { data := Nd.stack (es.map fun e => e.action.data) e.action.data, valid := Nd.stack (es.map fun e => e.action.valid) e.action.valid }
  state := StateNd.stack (es.map RolloutEntry.state) e.state
  observation := StateNd.stack (es.map RolloutEntry.observation) e.observation
  metrics := e.metrics.map fun km =>
    (km.1, { value := Nd.stack (es.map fun e => ((e.metrics.get? km.1).getD km.2).value) km.2.value
             valid := Nd.stack (es.map fun e => ((e.metrics.get? km.1).getD km.2).valid) km.2.valid })
  reward := { data := Nd.stack (es.map fun e => e.reward.data) e.reward.data, dtype := e.reward.dtype }

/-- `RolloutOutput.validate`. waymax/env/rollout.py:89-94 -/
def RolloutNd.validate (o : RolloutNd) : Except Err Unit :=
  let r := o.state.shape.length
  assertThat (∀ sh ∈ [o.observation.shape, o.state.shape, o.reward.data.shape], sh.take r = o.action.shape.take r) .assertion

/-- `rollout`. waymax/env/rollout.py:103-205 -/
def rolloutNd {X K P C : Type} (env : RolloutEnv (StateNd ℝ) (ActNd ℝ) (StateNd ℝ) (Dict MetricNd) TypedNd)
    (actor : RaisingActor (StateNd ℝ) (ActNd ℝ) X K P C) (split : K → K × K) (params : P) (scenario : StateNd ℝ) (rng : K)
    (numSteps : Nat) : Except Err RolloutNd := do
  let es ← rolloutEntries env actor split params ActNd.zerosLike scenario rng numSteps
  match es with
  | [] => .error .typeError
  | e :: _ => do
    let out := stackRollout es e
    RolloutNd.validate out
    return out

/-- `rollout_log_by_expert_sdc`; the random key is not used. waymax/env/rollout.py:208-222 -/
def rolloutLogByExpertSdcNd (env : RolloutEnv (StateNd ℝ) (ActNd ℝ) (StateNd ℝ) (Dict MetricNd) TypedNd) (inverse : InverseNd ℝ)
    (scenario : StateNd ℝ) (numSteps : Nat) : Except Err RolloutNd :=
  rolloutNd env (expertActorNd inverse fun s => s.objectMetadata.isSdc) (fun k : Unit => (k, k)) () scenario () numSteps

end Waymax
