import Verif.Model.Equality
/-
What it means that two values are the same, that a value is of a class, and that two values have the same optional parts.
-/

namespace Waymax
namespace PyVal
variable {α : Type}

/-- Same shape, and entries that compare equal. -/
def SameArr [BEq α] (a b : Nd α) : Prop :=
  a.shape = b.shape ∧ ∀ idx, List.Forall₂ (fun d i => i < d) a.shape idx → (a.get idx == b.get idx) = true

mutual
/-- Same class, same parts present, and every array the same. -/
def Same [BEq α] : PyVal α → PyVal α → Prop
  | .arr a, .arr b => SameArr a b
  | .none, .none => True
  | .seq xs, .seq ys => SameL xs ys
  | .obj c xs, .obj d ys => c = d ∧ SameL xs ys
  | _, _ => False
/-- Same fields. -/
def SameL [BEq α] : List (PyVal α) → List (PyVal α) → Prop
  | [], [] => True
  | x :: xs, y :: ys => Same x y ∧ SameL xs ys
  | _, _ => False
end

mutual
/-- The value has the fields its class declares; states of simulated agents are `None`, as for the built-in agents. -/
def Has : Kind → PyVal α → Prop
  | .array, .arr _ => True
  | .cls c, .obj d fs => d = c ∧ HasL (fieldKinds c) fs
  | .opt _, .none => True
  | .opt c, .obj d fs => d = c ∧ HasL (fieldKinds c) fs
  | .states, .seq items => ∀ x ∈ items, x = .none
  | _, _ => False
/-- Every field is of its kind. -/
def HasL : List Kind → List (PyVal α) → Prop
  | [], [] => True
  | k :: ks, x :: xs => Has k x ∧ HasL ks xs
  | _, _ => False
end

mutual
/-- The same optional parts are present in both. -/
def SameParts : PyVal α → PyVal α → Prop
  | .none, .obj _ _ => False
  | .obj _ _, .none => False
  | .seq xs, .seq ys => xs.length = ys.length
  | .obj _ xs, .obj _ ys => SamePartsL xs ys
  | _, _ => True
/-- In every field. -/
def SamePartsL : List (PyVal α) → List (PyVal α) → Prop
  | x :: xs, y :: ys => SameParts x y ∧ SamePartsL xs ys
  | _, _ => True
end

end PyVal
end Waymax
