import Verif.Model.Array
import Mathlib.Data.Real.Basic
/-
Arrays with any number of axes, and the functions whose behaviour depends on which axis is which: `dynamic_slice`,
`dynamic_index`, `select_by_onehot`, `masked_mean` (waymax/datatypes/operations.py), `Observation.for_obj`
(waymax/datatypes/observation.py) and the broadcasting done by the reward (waymax/rewards/linear_combination_reward.py). The rest
of the model works on one scenario and one axis at a time.
-/

namespace Waymax

/-- An array: its shape, and the entry at each index list. Only indices in range are meaningful.
The arrays handled in waymax/datatypes/operations.py:28-286 -/
structure Nd (β : Type) where
  shape : List Nat
  get : List Nat → β

namespace Nd
variable {β γ δ : Type}

/-- The array of one element of the leading axis, `x[b]`.
Slicing along the batch axis as in jax.vmap at waymax/datatypes/operations.py:158-175 -/
def sub (a : Nd β) (b : Nat) : Nd β := { shape := a.shape.tail, get := fun idx => a.get (b :: idx) }

/-- A Python axis number for an array of `rank` axes: negative numbers count from the end.
Used at waymax/datatypes/operations.py:91, 117, 241-243 -/
def normAxis (rank : Nat) (axis : Int) : Except Err Nat :=
  let a := if axis < 0 then axis + rank else axis
  if 0 ≤ a ∧ a < rank then .ok a.toNat else .error .indexError

/-- `jax.lax.dynamic_slice_in_dim` on one leaf. JAX primitive called at waymax/datatypes/operations.py:90-91 -/
def sliceInDim (x : Nd β) (start : Int) (size : Nat) (axis : Int) : Except Err (Nd β) := do
  let a ← normAxis x.shape.length axis
  let dim := x.shape.getD a 0
  if size ≤ dim then
    return { shape := x.shape.set a size, get := fun idx => x.get (idx.modify a fun i => i + startIdx dim size start) }
  else .error .typeError

/-- Shapes written back to front, aligned at the last axis. Used at waymax/datatypes/operations.py:56, 242 -/
def broadcastRev : List Nat → List Nat → Option (List Nat)
  | [], t => some t
  | s, [] => some s
  | a :: s, b :: t => do
    let r ← broadcastRev s t
    if a = b then some (a :: r) else if a = 1 then some (b :: r) else if b = 1 then some (a :: r) else none

/-- NumPy broadcasting of two shapes. Used at waymax/datatypes/operations.py:56, 242 -/
def broadcastShape (s t : List Nat) : Option (List Nat) := (broadcastRev s.reverse t.reverse).map List.reverse

/-- The index into an array of shape `shape` that an index of the broadcast array refers to.
Used at waymax/datatypes/operations.py:56, 242 -/
def broadcastIdx (shape idx : List Nat) : List Nat :=
  List.zipWith (fun d i => if d = 1 then 0 else i) shape (idx.drop (idx.length - shape.length))

/-- Element-wise operation with broadcasting (`x * y`, `x + y`, `jnp.where`, ...). Used at waymax/datatypes/operations.py:56, 242 -/
def zip (f : β → γ → δ) (x : Nd β) (y : Nd γ) : Except Err (Nd δ) :=
  match broadcastShape x.shape y.shape with
  | some s => .ok { shape := s, get := fun idx => f (x.get (broadcastIdx x.shape idx)) (y.get (broadcastIdx y.shape idx)) }
  | none => .error .typeError

/-- `jnp.broadcast_to`. Called at waymax/datatypes/operations.py:286 -/
def broadcastTo (x : Nd β) (s : List Nat) : Except Err (Nd β) :=
  if broadcastShape x.shape s = some s then .ok { shape := s, get := fun idx => x.get (broadcastIdx x.shape idx) }
  else .error .valueError

/-- `x[..., None]`. Called at waymax/datatypes/operations.py:286 -/
def expandLast (x : Nd β) : Nd β := { shape := x.shape ++ [1], get := fun idx => x.get idx.dropLast }

/-- `jnp.sum(x, axis)`: the axis disappears. Called at waymax/datatypes/operations.py:241-243, 281-282 -/
def sumAxis [AddCommMonoid β] (x : Nd β) (axis : Int) : Except Err (Nd β) := do
  let a ← normAxis x.shape.length axis
  return { shape := x.shape.eraseIdx a
           get := fun idx => ((List.range (x.shape.getD a 0)).map fun k => x.get (idx.insertIdx a k)).sum }

/-- Entry-wise map. Used at waymax/datatypes/operations.py:281 -/
def map (f : β → γ) (x : Nd β) : Nd γ := { shape := x.shape, get := fun idx => f (x.get idx) }

end Nd

/-! ### Observation.for_obj -/

/-- `Observation.for_obj(idx)` on one leaf of an observation of shape `obsShape`.
waymax/datatypes/observation.py:248-260, waymax/datatypes/operations.py:72-95 -/
def forObjLeaf {β : Type} (obsShape : List Nat) (idx : Int) (leaf : Nd β) : Except Err (Nd β) :=
  leaf.sliceInDim idx 1 ((obsShape.length : Int) - 2)

/-! ### masked_mean -/

/-- `masked_mean` for an integer `axis`. waymax/datatypes/operations.py:265-286 -/
noncomputable def maskedMeanNd (x : Nd ℝ) (valid : Nd Bool) (axis : Int) (invalidValue : ℝ := -1) : Except Err (Nd ℝ) := do
  let numValid ← (valid.map fun v => if v then (1 : ℝ) else 0).sumAxis axis
  let masked ← Nd.zip (fun a (v : Bool) => if v then a else 0) x valid
  let maskedSum ← masked.sumAxis axis
  let mean ← Nd.zip (fun s c => if c = 0 then invalidValue else s / c) maskedSum numValid
  mean.expandLast.broadcastTo x.shape

/-! ### select_by_onehot -/

/-- `select_by_onehot` on one numeric leaf. A selection without axes is rejected here; the code would sum the last axis.
waymax/datatypes/operations.py:213-245 -/
def selectByOnehotNd (x : Nd ℝ) (selection : Nd Bool) (keepdims : Bool) : Except Err (Nd ℝ) :=
  let r := selection.shape.length
  if x.shape.take r = selection.shape then
    if r = 0 then .error .valueError
    else
      let n := selection.shape.getD (r - 1) 0
      let total := fun pre post : List Nat =>
        ((List.range n).map fun k => x.get (pre ++ k :: post) * if selection.get (pre ++ [k]) then 1 else 0).sum
      .ok (if keepdims then
          { shape := x.shape.set (r - 1) 1, get := fun idx => total (idx.take (r - 1)) (idx.drop r) }
        else { shape := x.shape.eraseIdx (r - 1), get := fun idx => total (idx.take (r - 1)) (idx.drop (r - 1)) })
  else .error .assertion

/-! ### Batched reward -/

/-- `LinearCombinationReward.compute` from the masked metric values, at the level of whole arrays; `agent_mask` as numbers.
waymax/rewards/linear_combination_reward.py:52-61 -/
def rewardNd (metrics : List (Nd ℝ × ℝ)) (agentMask : Nd Bool) : Except Err (Nd ℝ) :=
  metrics.foldlM (init := ({ shape := agentMask.shape, get := fun _ => 0 } : Nd ℝ)) fun reward mw => do
    let metric ← Nd.zip (fun v (m : Bool) => v * if m then 1 else 0) mw.1 agentMask
    Nd.zip (fun a b => a + b) reward (metric.map fun v => v * mw.2)

/-- The kinematic infeasibility metric of `PlanningAgentEnvironment.metrics`: values are multiplied by a flag per scenario, then
the SDC's entry is selected. waymax/env/planning_agent_environment.py:305-321 -/
def planningKimNd (value : Nd ℝ) (afterWarmup isSdc : Nd Bool) : Except Err (Nd ℝ) := do
  let v ← Nd.zip (fun a (w : Bool) => a * if w then 1 else 0) value afterWarmup
  selectByOnehotNd v isSdc false

end Waymax
