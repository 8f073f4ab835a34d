import Verif.Model.Dataset
/-
Vocabulary for the statements about data loading. Nothing here is used by the model.
-/

namespace Waymax

/-- `s` is the number `n` written with exactly `w` decimal digits. -/
def WritesNumber (s : List Char) (w n : Nat) : Prop :=
  s.length = w ∧ (∀ c ∈ s, c.isDigit = true) ∧ s.foldl (fun a c => 10 * a + (c.toNat - 48)) 0 = n

/-- `s` is the conventional name of file `i` of the `n` files of data set `base`. -/
def IsShardName (base : List Char) (n i : Nat) (s : List Char) : Prop :=
  ∃ w w' si sn, 5 ≤ w ∧ WritesNumber si w i ∧ 5 ≤ w' ∧ WritesNumber sn w' n ∧
    s = base ++ "-".toList ++ si ++ "-of-".toList ++ sn

/-- Every example of the data set: every record of every file, `rep` times. -/
def allExamples {F R E : Type} (read : F → List R) (prep : R → List E) (rep : Nat) (files : List F) : List E :=
  (List.replicate rep (files.flatMap fun f => (read f).flatMap prep)).flatten

/-- The examples in a list of batches. -/
def examplesIn {E : Type} (out : List (Elem E)) : List E := out.flatMap Elem.items

end Waymax
