import Verif.Spec.Lane
/-
Vocabulary for C193: a leader that drives ahead. Nothing here is used by the model.
-/

namespace Waymax

variable {n : Nat}

/-- For `N` steps object `j` drives ahead of object `i`, which started at `p`, and no other object is in the way. `cur m` are the
objects at step `m`, and `g m` is how far from `p` object `j` begins to block the way. From step to step this point moves on by at
least what the leader's velocity stands for. -/
structure LeadsAhead (p : Pt ℝ) (cur : Nat → Fin n → Pt ℝ) (i j : Fin n) (g : Nat → ℝ) (N : Nat) : Prop where
  blocks : ∀ m ≤ N, BlocksLane p (cur m) i j (g m)
  clear : ∀ m ≤ N, ∀ j', j' ≠ i → j' ≠ j → LaneClear p (cur m) i j'
  moves : ∀ m < N, g m + 0.1 * speedOf (cur m j) ≤ g (m + 1)

/-- The same for a leader of which it is known only that it does not come back. -/
structure StaysAhead (p : Pt ℝ) (cur : Nat → Fin n → Pt ℝ) (i j : Fin n) (g : Nat → ℝ) (N : Nat) : Prop where
  blocks : ∀ m ≤ N, BlocksLane p (cur m) i j (g m)
  clear : ∀ m ≤ N, ∀ j', j' ≠ i → j' ≠ j → LaneClear p (cur m) i j'
  forward : ∀ m < N, g m ≤ g (m + 1)

end Waymax
