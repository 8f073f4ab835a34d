import Verif.Model.Batch
import Verif.Model.Discretizer
/-
The declared shapes and bounds of actions, rewards and discounts, and the actions the DMEnv wrapper builds from plain arrays.
Bounds are extended reals. `dm_env.specs` is outside the repository: `BoundedArray` checks that the bounds broadcast to the shape
and that no lower bound exceeds its upper bound, raises a ValueError otherwise, and keeps the bounds as given.
-/

namespace Waymax

/-- The array data types that occur in the specs. waymax/env/base_environment.py:171-196 -/
inductive DType where
  | bool | int32 | float32
  deriving DecidableEq, Repr

/-- `dm_env.specs.Array`. Used at waymax/env/base_environment.py:183-190 -/
structure ArrSpec where
  shape : List Nat
  dtype : DType

/-- `dm_env.specs.BoundedArray`. Used at waymax/env/base_environment.py:171-182, 191-196 -/
structure BoundedSpec where
  shape : List Nat
  dtype : DType
  minimum : Nd EReal
  maximum : Nd EReal

open Classical in
/-- The constructor of `dm_env.specs.BoundedArray`. Called at waymax/dynamics/delta.py:60-66, waymax/env/base_environment.py:171-182 -/
noncomputable def BoundedSpec.create (shape : List Nat) (dtype : DType) (minimum maximum : Nd EReal) : Except Err BoundedSpec := do
  assertThat (Nd.broadcastShape minimum.shape shape = some shape) .valueError
  assertThat (Nd.broadcastShape maximum.shape shape = some shape) .valueError
  assertThat (∀ idx, List.Forall₂ (fun d i => i < d) shape idx →
    minimum.get (Nd.broadcastIdx minimum.shape idx) ≤ maximum.get (Nd.broadcastIdx maximum.shape idx)) .valueError
  return { shape, dtype, minimum, maximum }

/-- `np.array([a, b, ...])` of finite numbers. Called at waymax/dynamics/delta.py:60-66 -/
noncomputable def vecOf (l : List ℝ) : Nd EReal := { shape := [l.length], get := fun idx => ((l.getD (idx.getD 0 0) 0 : ℝ) : EReal) }

/-! ### Dynamics models -/

/-- `StateDynamics.action_spec`: the bounds are single numbers. waymax/dynamics/state_dynamics.py:30-37 -/
noncomputable def stateSpec : Except Err BoundedSpec := BoundedSpec.create [5] .float32 (Nd.scalar ⊥) (Nd.scalar ⊤)

/-- `DeltaGlobal.action_spec`, also of `DeltaLocal`. waymax/dynamics/delta.py:58-66 -/
noncomputable def deltaSpec (P : DeltaParams) : Except Err BoundedSpec :=
  BoundedSpec.create [3] .float32 (vecOf [-P.maxDx, -P.maxDy, -P.maxDyaw]) (vecOf [P.maxDx, P.maxDy, P.maxDyaw])

/-- `InvertibleBicycleModel.action_spec`. waymax/dynamics/bicycle_model.py:143-160 -/
noncomputable def bicycleSpec (P : BicycleParams) : Except Err BoundedSpec :=
  if P.normalizeActions then BoundedSpec.create [2] .float32 (vecOf [-1, -1]) (vecOf [1, 1])
  else BoundedSpec.create [2] .float32 (vecOf [-P.maxAccel, -P.maxSteering]) (vecOf [P.maxAccel, P.maxSteering])

/-- `DiscreteActionSpaceWrapper.action_spec`. waymax/dynamics/discretizer.py:145-149 -/
noncomputable def discreteSpec (ds : List BinDim) : Except Err BoundedSpec :=
  BoundedSpec.create [1] .int32 (vecOf [0]) (vecOf [numBins ds - 1])

/-! ### Environments -/

/-- `jnp.tile(bound[jnp.newaxis, :], [n, 1])`, for bounds with at most one axis; a number has no axis to take.
waymax/env/base_environment.py:176-183 -/
def tileRows (bound : Nd EReal) (n : Nat) : Except Err (Nd EReal) := do
  assertThat (bound.shape ≠ []) .indexError
  return { shape := n :: bound.shape, get := fun idx => bound.get idx.tail }

/-- `BaseEnvironment.action_spec().data` for a dynamics model with the given spec. waymax/env/base_environment.py:168-188 -/
noncomputable def baseActionSpec (dynamics : Except Err BoundedSpec) (cfg : EnvConfig) : Except Err BoundedSpec := do
  let single ← dynamics
  let minimum ← tileRows single.minimum cfg.maxNumObjects
  let maximum ← tileRows single.maximum cfg.maxNumObjects
  BoundedSpec.create (cfg.maxNumObjects :: single.shape) single.dtype minimum maximum

/-- `BaseEnvironment.action_spec().valid`. waymax/env/base_environment.py:184-186 -/
def baseValidSpec (cfg : EnvConfig) : ArrSpec := { shape := [cfg.maxNumObjects, 1], dtype := .bool }

/-- `PlanningAgentEnvironment.action_spec().data`, through `PlanningAgentDynamics.action_spec`.
waymax/env/planning_agent_environment.py:43-45, 354-357 -/
def planningActionSpec (dynamics : Except Err BoundedSpec) : Except Err BoundedSpec := dynamics

/-- `BaseEnvironment.reward_spec`. waymax/env/base_environment.py:190-191, 220-224 -/
def baseRewardSpec (cfg : EnvConfig) : ArrSpec := { shape := [cfg.maxNumObjects], dtype := .float32 }

/-- `PlanningAgentEnvironment.reward_spec`. waymax/env/planning_agent_environment.py:436-438 -/
def planningRewardSpec : ArrSpec := { shape := [], dtype := .float32 }

/-- `discount_spec` of both environments. waymax/env/base_environment.py:193-196, planning_agent_environment.py:440-443 -/
noncomputable def discountSpec : Except Err BoundedSpec := BoundedSpec.create [] .float32 (Nd.scalar 0) (Nd.scalar 1)

/-! ### DMEnv wrapper -/

/-- Row-major position of an index. Used at waymax/dynamics/discretizer.py:95-101 -/
def ravel : List Nat → List Nat → Nat
  | _ :: s, i :: idx => i * s.prod + ravel s idx
  | _, _ => 0

/-- The index at a row-major position. Used at waymax/dynamics/discretizer.py:95-101 -/
def unravel : List Nat → Nat → List Nat
  | [], _ => []
  | _ :: s, k => k / s.prod :: unravel s (k % s.prod)

/-- `jnp.reshape`. Called at waymax/dynamics/discretizer.py:95-101 -/
def Nd.reshape {β : Type} (x : Nd β) (s : List Nat) : Except Err (Nd β) := do
  assertThat (x.shape.prod = s.prod) .typeError
  return { shape := s, get := fun idx => x.get (unravel x.shape (ravel s idx)) }

/-- `DMEnvWrapper.action_spec`. waymax/env/wrappers/dm_env_wrapper.py:153-165 -/
noncomputable def dmActionSpec (squeeze : Bool) (envSpec : Except Err BoundedSpec) : Except Err BoundedSpec := do
  let s ← envSpec
  if squeeze ∧ s.shape = [1] then squeezed s else return s
where
  /-- `minimum[0]` and `maximum[0]` -/
  squeezed (s : BoundedSpec) : Except Err BoundedSpec := do
    assertThat (s.minimum.shape ≠ [] ∧ s.maximum.shape ≠ []) .indexError
    BoundedSpec.create [] s.dtype { shape := s.minimum.shape.tail, get := fun idx => s.minimum.get (0 :: idx) }
      { shape := s.maximum.shape.tail, get := fun idx => s.maximum.get (0 :: idx) }

/-- The `Action` that `DMEnvWrapper.step` builds from the given array: reshaped to the batch axes followed by the shape of the
action spec, every row valid. waymax/env/wrappers/dm_env_wrapper.py:111-121 -/
def dmAction {α : Type} (batchShape : List Nat) (envSpec : Except Err BoundedSpec) (raw : Nd α) : Except Err (ActNd α) := do
  let s ← envSpec
  let data ← raw.reshape (batchShape ++ s.shape)
  let valid : Nd Bool := { shape := (data.sliceLast 0 1).shape, get := fun _ => true }
  assertThat (data.shape.take (valid.shape.length - 1) = valid.shape.take (valid.shape.length - 1)) .assertion
  assertThat (valid.shape.getLastD 0 = 1) .assertion
  return { data, valid }

/-- `DMEnvWrapper.step` up to the next state, for a multi-agent environment. waymax/env/wrappers/dm_env_wrapper.py:92-122 -/
noncomputable def dmNextState {α : Type} [ScalarOps α] (dn : DynNd α) (spec : Except Err BoundedSpec) (cfg : EnvConfig)
    (s : StateNd α) (raw : Nd α) : Except Err (StateNd α) := do
  let a ← dmAction s.shape (baseActionSpec spec cfg) raw
  stepNd dn cfg s a

end Waymax
