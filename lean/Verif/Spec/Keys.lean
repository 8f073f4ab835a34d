import Verif.Model.Rollout
/-
Vocabulary for the statements about random keys. Nothing here is used by the model.
-/

namespace Waymax

section
variable {S A X K P C : Type}

/-- An actor that makes no use of random numbers. -/
def KeyFree (actor : Actor S A X K P C) : Prop :=
  (∀ (k k' : K) (s : S), actor.init k s = actor.init k' s) ∧
  ∀ (p : P) (s : S) (x : X) (k k' : K), actor.selectAction p s x k = actor.selectAction p s x k'

/-- An ideal key generator: the two halves of a split are new keys. Different keys have different first halves, no first half is also
a second half, and no key is split off from itself, not even after many splits: some age of keys grows with every split. -/
structure IdealSplit (split : K → K × K) : Prop where
  first : ∀ a b, (split a).1 = (split b).1 → a = b
  apart : ∀ a b, (split a).1 ≠ (split b).2
  age : ∃ age : K → Nat, ∀ k, age k < age (split k).1 ∧ age k < age (split k).2

end

end Waymax
