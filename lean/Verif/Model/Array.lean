/-
Model of the array helpers in waymax/datatypes/operations.py and of the JAX primitives they call.

Axes have static length, as in JAX, so one axis is a function on `Fin T`. Batch axes (the `vmap` in operations.py:60-69)
are not modelled: every definition is for one batch element.
-/

namespace Waymax

/-- Failures raised by the Python code (exceptions and failed `assert`s), as values.
Examples: waymax/metrics/metric_factory.py:62, waymax/datatypes/object_state.py:250-293 -/
inductive Err where
  | assertion            -- chex.assert_* / AssertionError
  | valueError           -- ValueError
  | typeError            -- TypeError raised by JAX for static shape errors
  | notImplemented       -- NotImplementedError
  | attributeError       -- AttributeError (e.g. `None.x`)
  | keyError             -- KeyError of a dictionary lookup
  | indexError           -- IndexError of a Python list or array
  | stopIteration        -- StopIteration of an exhausted generator
  | notInitialized       -- waymax/env/errors.py:22-23 SimulationNotInitializedError
  | alreadyFinished      -- waymax/env/errors.py:18-19 EpisodeAlreadyFinishedError
  deriving DecidableEq, Repr

/-- Start index used by `jax.lax.dynamic_slice` / `dynamic_update_slice` on an axis of length `dim` for a window of
length `size`: a negative start has `dim` added, then the start is clamped into `[0, dim - size]`.
(JAX primitive called at waymax/datatypes/operations.py:91, 117, 162, 166.) -/
def startIdx (dim size : Nat) (i : Int) : Nat :=
  let j := if i < 0 then i + dim else i
  (max 0 (min j ((dim : Int) - size))).toNat

theorem startIdx_le {dim size : Nat} (h : size ≤ dim) (i : Int) : startIdx dim size i + size ≤ dim := by
  unfold startIdx; simp only; split <;> omega

/-- `jax.lax.dynamic_slice_in_dim`; JAX rejects a window longer than the axis, here the hypothesis `h`.
waymax/datatypes/operations.py:72-95 -/
def dynSlice {β : Type} {T : Nat} (x : Fin T → β) (start : Int) (k : Nat) (h : k ≤ T) : Fin k → β :=
  fun j => x ⟨startIdx T k start + j, by have := startIdx_le h start; omega⟩

/-- `dynamic_slice(x, start, 1)` / `dynamic_index(x, i, keepdims=False)`: the single element read.
waymax/datatypes/operations.py:72-121 -/
def dynIndex {β : Type} {T : Nat} [NeZero T] (x : Fin T → β) (i : Int) : β :=
  dynSlice x i 1 (Nat.one_le_iff_ne_zero.mpr (NeZero.ne T)) 0

/-- `jax.lax.dynamic_update_slice_in_dim`. JAX primitive called at waymax/datatypes/operations.py:166-168 -/
def dynUpdateSlice {β : Type} {T k : Nat} (x : Fin T → β) (u : Fin k → β) (start : Int) : Fin T → β :=
  fun t =>
    if h : startIdx T k start ≤ t ∧ t < startIdx T k start + k then
      u ⟨t - startIdx T k start, by omega⟩
    else x t

/-- `update_by_slice_in_dim` along one axis. `updatesStart = none` means "same as `inputsStart`", `sliceSize = none`
means "the whole update". Windows longer than an axis are rejected by JAX (TypeError).
waymax/datatypes/operations.py:124-177 -/
def updateBySliceInDim {β : Type} {T U : Nat} (inputs : Fin T → β) (updates : Fin U → β)
    (inputsStart : Int) (updatesStart : Option Int := none) (sliceSize : Option Nat := none) :
    Except Err (Fin T → β) :=
  match sliceSize with
  | some k =>
    if h : k ≤ U then
      if k ≤ T then .ok (dynUpdateSlice inputs (dynSlice updates (updatesStart.getD inputsStart) k h) inputsStart)
      else .error .typeError
    else .error .typeError
  | none =>
    if U ≤ T then .ok (dynUpdateSlice inputs updates inputsStart) else .error .typeError

/-- `update_by_mask`: `jnp.where(mask, updates, inputs)`. waymax/datatypes/operations.py:34-57 -/
def updateByMask {β ι : Type} (inputs updates : ι → β) (mask : ι → Bool) : ι → β :=
  fun i => if mask i then updates i else inputs i

end Waymax
