import Verif.Model.Dataset
import Mathlib.Data.List.Rotate
/-
The order in which waymax/dataloader/dataloader_utils.py:61-175 reads records: the tf.data operations `interleave`, `repeat`, `shuffle`
and `batch` as they work on data sets that may be endless, and the use of Python's `random`. `Model/Dataset.lean` leaves the order
open; here it is a function of the random numbers and of the timing of the machine.

The number of inputs that are open at a time is left to TensorFlow (`AUTOTUNE`), which chooses it from the available processors: it
is a parameter here. `prefetch` and the data service do not change the order and are left out.
-/

namespace Waymax

variable {E R F : Type}

/-- A data set as it is read: element `i`, or `none` after the end. waymax/dataloader/dataloader_utils.py:128-166 -/
abbrev Source (E : Type) := Nat → Option E

namespace Source

/-- A data set with finitely many elements. waymax/dataloader/dataloader_utils.py:120 -/
def ofList (xs : List E) : Source E := fun i => xs[i]?

/-- What is left after one element has been read. waymax/dataloader/dataloader_utils.py:128-134 -/
def rest (s : Source E) : Source E := fun i => s (i + 1)

/-- `Dataset.map(f)`. Called at waymax/dataloader/dataloader_utils.py:145-147 -/
def map (f : E → R) (s : Source E) : Source R := fun i => (s i).map f

/-- The first `n` elements. waymax/dataloader/dataloader_utils.py:136 -/
def take (s : Source E) (n : Nat) : List E := (List.range n).filterMap s

end Source

/-! ### interleave -/

/-- How many inputs are open. waymax/dataloader/dataloader_utils.py:129-134 -/
def openSlots (slots : List (Option (Source E))) : Nat := (slots.filter Option.isSome).length

/-- The next element of `interleave` with `block_length` 1. The first slot is the current one. A slot that has an element gives it and
the cursor moves on; a slot whose input has ended is cleared and the cursor moves on; an empty slot opens the next waiting input; when
none is waiting, an empty slot is never used again. tf.data primitive called at waymax/dataloader/dataloader_utils.py:129-134, 164-166 -/
def pull (slots : List (Option (Source E))) (waiting : List (Source E)) :
    Option (E × List (Option (Source E)) × List (Source E)) :=
  match slots, waiting with
  | [], _ => none
  | some s :: tl, w =>
    match s 0 with
    | some x => some (x, tl ++ [some s.rest], w)
    | none => pull (tl ++ [none]) w
  | none :: tl, s :: w => pull (some s :: tl) w
  | none :: tl, [] => pull tl []
termination_by 3 * waiting.length + 2 * openSlots slots + slots.length
decreasing_by
  all_goals simp [openSlots, List.filter_cons, List.filter_append]
  all_goals omega

/-- The slots and the waiting inputs after `k` elements. `turn` says how far the cursor jumps before the next element: it does not
when `deterministic` is set; otherwise any open input may be next. waymax/dataloader/dataloader_utils.py:129-134, 164-166 -/
def interleaveAt (cycleLength : Nat) (inputs : List (Source E)) (turn : Nat → Nat) :
    Nat → List (Option (Source E)) × List (Source E)
  | 0 => (List.replicate cycleLength none, inputs)
  | k + 1 =>
    let st := interleaveAt cycleLength inputs turn k
    match pull (st.1.rotate (turn k)) st.2 with
    | some (_, slots, waiting) => (slots, waiting)
    | none => ([], [])

/-- `Dataset.interleave`. Called at waymax/dataloader/dataloader_utils.py:129-134, 164-166 -/
def interleave (cycleLength : Nat) (inputs : List (Source E)) (turn : Nat → Nat) : Source E := fun k =>
  let st := interleaveAt cycleLength inputs turn k
  (pull (st.1.rotate (turn k)) st.2).map Prod.fst

/-! ### repeat -/

/-- `Dataset.repeat(count)`; without a count the data set is read again and again. `epochs e` is what is read the `e`-th time; all
epochs have the same number of elements. tf.data primitive called at waymax/dataloader/dataloader_utils.py:136 -/
def repeatSource (count : Option Nat) (epochs : Nat → List E) : Source E :=
  match count with
  | some k => Source.ofList ((List.range k).flatMap epochs)
  | none => fun i => (epochs (i / (epochs 0).length))[i % (epochs 0).length]?

/-! ### shuffle -/

/-- Fill the buffer to `size` elements, as far as there are any; `b.2` elements have been taken from the input so far.
waymax/dataloader/dataloader_utils.py:142 -/
def refill (size : Nat) (s : Source E) (b : List E × Nat) : List E × Nat :=
  let new := (List.range (size - b.1.length)).filterMap fun i => s (b.2 + i)
  (b.1 ++ new, b.2 + new.length)

/-- The full buffer before element `k` is returned. `random k` is the `k`-th random number.
tf.data primitive called at waymax/dataloader/dataloader_utils.py:137-142 -/
def shuffleAt (size : Nat) (s : Source E) (random : Nat → Nat) : Nat → List E × Nat
  | 0 => refill size s ([], 0)
  | k + 1 =>
    let b := shuffleAt size s random k
    refill size s (b.1.eraseIdx (random k % b.1.length), b.2)

/-- `Dataset.shuffle(size)`: always a random element of the buffer. Called at waymax/dataloader/dataloader_utils.py:142 -/
def shuffle (size : Nat) (s : Source E) (random : Nat → Nat) : Source E := fun k =>
  let b := (shuffleAt size s random k).1
  b[random k % b.length]?

/-! ### batch -/

/-- `Dataset.batch(size, drop_remainder)`: element `j` holds the elements from `j * size` on. Several batch dimensions with
`drop_remainder` group as one of their product does. tf.data primitive called at waymax/dataloader/dataloader_utils.py:150-157 -/
def batchSource (size : Nat) (dropRemainder : Bool) (s : Source E) : Source (List E) := fun j =>
  let c := (List.range size).filterMap fun i => s (j * size + i)
  if c = [] ∨ (dropRemainder = true ∧ c.length < size) then none else some c

/-! ### The pipeline -/

/-- What the caller asks for. waymax/dataloader/dataloader_utils.py:63-72, waymax/config.py:82-98 -/
structure ReadConfig where
  shuffleSeed : Option Int := none
  shuffleBufferSize : Nat := 1000
  rep : Option Nat := none
  numShards : Nat := 4
  deterministic : Bool := true
  batchSize : Nat := 1
  dropRemainder : Bool := true
  deriving DecidableEq, Repr

/-- What the machine adds: the cycle lengths TensorFlow chooses for reading files and for reading shards, which open input has an
element first (per shard and epoch, and between shards), and the random numbers of each shard.
waymax/dataloader/dataloader_utils.py:129-134, 142, 164-166 -/
structure Machine where
  fileCycle : Nat
  shardCycle : Nat
  fileTurn : Nat → Nat → Nat → Nat
  shardTurn : Nat → Nat
  random : Nat → Nat → Nat

/-- The records of one shard in one epoch. waymax/dataloader/dataloader_utils.py:128-134 -/
def epochRecords (c : ReadConfig) (m : Machine) (read : F → List R) (files : List F) (shardIndex epoch : Nat) : List R :=
  (interleave m.fileCycle (files.map fun f => Source.ofList (read f))
    (if c.deterministic then fun _ => 0 else m.fileTurn shardIndex epoch)).take (files.flatMap read).length

/-- The records of one shard: all its epochs, shuffled if there is a seed.
waymax/dataloader/dataloader_utils.py:128-142 -/
def shardRecords (c : ReadConfig) (m : Machine) (read : F → List R) (files : List F) (shardIndex : Nat) : Source R :=
  let ds := repeatSource c.rep (epochRecords c m read files shardIndex)
  match c.shuffleSeed with
  | none => ds
  | some _ => shuffle c.shuffleBufferSize ds (m.random shardIndex)

/-- The batches of one process in their order: the files of the process are dealt to the shards, every shard makes batches of its own
and the shards are interleaved. `batchSize` is the product of `batch_dims`, 1 if there are none. Preprocessing, which works on every
record by itself, is left out. waymax/dataloader/dataloader_utils.py:118-166 -/
def processBatches (c : ReadConfig) (m : Machine) (read : F → List R) (files : List F) (processCount processIndex : Nat) :
    Source (List R) :=
  interleave m.shardCycle
    ((List.range c.numShards).map fun s =>
      batchSource c.batchSize c.dropRemainder
        (shardRecords c m read (filesOf files processCount processIndex c.numShards s) s))
    (if c.deterministic then fun _ => 0 else m.shardTurn)

/-! ### Seeds -/

/-- Python's module `random`: a global state, set by `random.seed` and used up by `random.shuffle`, which permutes a list.
Used at waymax/dataloader/dataloader_utils.py:117-119 -/
structure PyRandom (F : Type) where
  State : Type
  seed : Int → State
  shuffle : State → List F → List F × State
  perm : ∀ st xs, (shuffle st xs).1.Perm xs

/-- The files in the order of reading, and the state of `random` afterwards: `if shuffle_seed:` is false for `None` and for 0.
waymax/dataloader/dataloader_utils.py:114-119 -/
def orderFiles (py : PyRandom F) (shuffleSeed : Option Int) (files : List F) (st : py.State) : List F × py.State :=
  match shuffleSeed with
  | none => (files, st)
  | some s => if s = 0 then (files, st) else py.shuffle (py.seed s) files

end Waymax
