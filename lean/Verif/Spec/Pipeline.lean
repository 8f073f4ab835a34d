import Verif.Model.Pipeline
/-
Vocabulary for the statements about the order of reading. Nothing here is used by the model.
-/

namespace Waymax

variable {E R F : Type}

/-- After the end there is nothing. -/
def Source.Closed (s : Source E) : Prop := ∀ i, s i = none → s (i + 1) = none

/-- An input without end. -/
def Source.Endless (s : Source E) : Prop := ∀ i, (s i).isSome

/-- Something with property `P` is read again and again. -/
def Source.Again (s : Source E) (P : E → Prop) : Prop := ∀ n, ∃ k, n ≤ k ∧ ∃ x, s k = some x ∧ P x

/-- The elements from `e * n` up to `(e + 1) * n`. -/
def Source.block (s : Source E) (n e : Nat) : List E := (List.range n).filterMap fun i => s (e * n + i)

/-- The records a process has to read. -/
def ownRecords (read : F → List R) (files : List F) (processCount processIndex : Nat) : List R :=
  (shard processCount processIndex files).flatMap read

/-- Settings TensorFlow accepts: the batch size and the buffer are positive. -/
structure ReadConfig.Legal (c : ReadConfig) : Prop where
  batch : 1 ≤ c.batchSize
  buffer : c.shuffleSeed ≠ none → 1 ≤ c.shuffleBufferSize
  shards : 1 ≤ c.numShards

/-- At least one input can be open. -/
structure Machine.Legal (m : Machine) : Prop where
  file : 1 ≤ m.fileCycle
  shard : 1 ≤ m.shardCycle

end Waymax
