import Verif.Model.Geometry
import Mathlib.Algebra.BigOperators.Fin
import Mathlib.Order.WithBot
import Mathlib.Algebra.Order.AddGroupWithTop
/-
Reductions used by metrics and agents: one-hot selection, masked mean, minimum and first index of the minimum.
-/

namespace Waymax

section
variable {n : Nat}

/-- `select_by_onehot` on a numeric array: `sum(x * selection)`. waymax/datatypes/operations.py:213-245 -/
def selectByOnehot {R : Type} [NonAssocSemiring R] (x : Fin n → R) (sel : Fin n → Bool) : R :=
  ∑ i, x i * (if sel i then 1 else 0)

/-- `select_by_onehot` on a boolean array: the product is `and`, the sum counts, `astype(bool)` tests for non-zero.
waymax/datatypes/operations.py:213-245 -/
def selectByOnehotBool (x : Fin n → Bool) (sel : Fin n → Bool) : Bool :=
  decide ((∑ i, if x i && sel i then 1 else 0 : ℕ) ≠ 0)

/-- `masked_mean` of one row along its last axis, broadcast back to every position.
waymax/datatypes/operations.py:265-286 -/
noncomputable def maskedMean (x : Fin n → ℝ) (valid : Fin n → Bool) (invalidValue : ℝ := -1) : Fin n → ℝ :=
  let numValid : ℝ := ∑ i, if valid i then 1 else 0
  let maskedSum := ∑ i, if valid i then x i else 0
  let mean := maskedSum / numValid
  fun _ => if numValid = 0 then invalidValue else mean

end

/-- `jnp.min` of a list, `inf` (`⊤`) being the start value (JAX rejects empty arrays; callers check).
Called at waymax/metrics/roadgraph.py:65, waymax/metrics/route.py:238-243 -/
def listMin {β : Type} [LinearOrder β] (xs : List (WithTop β)) : WithTop β := xs.foldr min ⊤

/-- Index and value of the first minimum. Part of jnp.argmin at waymax/metrics/roadgraph.py:196 -/
def argminAux {β : Type} [LinearOrder β] : List β → Option (Nat × β)
  | [] => none
  | x :: xs =>
    match argminAux xs with
    | none => some (0, x)
    | some (j, v) => if v < x then some (j + 1, v) else some (0, x)

/-- `jnp.argmin`: the first index of a smallest element (`0` for an empty list, which JAX rejects).
Called at waymax/metrics/roadgraph.py:196, waymax/metrics/route.py:117, 132 -/
def argmin {β : Type} [LinearOrder β] (xs : List β) : Nat := ((argminAux xs).map Prod.fst).getD 0

/-- `jnp.linalg.norm` of a 2D vector. Called at waymax/metrics/route.py:105, waymax/metrics/imitation.py:80 -/
noncomputable def hypot (dx dy : ℝ) : ℝ := √(dx ^ 2 + dy ^ 2)

/-- `jnp.where(valid, d, inf)`. Called at waymax/metrics/route.py:110-113, waymax/datatypes/roadgraph.py:201 -/
def orInf (valid : Bool) (d : ℝ) : WithTop ℝ := if valid then d else ⊤

end Waymax
