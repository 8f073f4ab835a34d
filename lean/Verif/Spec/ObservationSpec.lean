import Verif.Model.ObservationSpec
import Verif.Spec.Batch

/-! What it means that observations are as the environment declares them. A layout lists the arrays of an observation, each with its
name and shape. -/

namespace Waymax
variable {α : Type}

/-- A batch of scenarios as the data loader delivers it: every array starts with the batch axes `pre`. -/
structure StateNd.Loaded (s : StateNd α) (pre : List Nat) (n T : Nat) : Prop where
  shaped : s.Shaped pre n T
  batched : ∀ leaf ∈ s.leafShapes, pre <+: leaf.2

/-- The observation has exactly the arrays that are declared, and each has the batch axes followed by the declared axes. -/
def Conforms (pre : List Nat) (declared observed : List (String × List Nat)) : Prop :=
  observed = declared.map fun leaf => (leaf.1, pre ++ leaf.2)

/-- All arrays other than the clock. -/
def withoutClock (leaves : List (String × List Nat)) : List (String × List Nat) :=
  leaves.filter fun leaf => leaf.1 != "timestep"

end Waymax
