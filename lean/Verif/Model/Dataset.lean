import Verif.Model.Array
import Mathlib.Data.Nat.Log
/-
Model of waymax/dataloader/dataloader_utils.py: names of sharded files and the tf.data pipeline. Strings are lists of characters.
-/

namespace Waymax

/-! ### File names -/

/-- `str(n)` for a natural number. Used at waymax/dataloader/dataloader_utils.py:58-60 -/
def decimal (n : Nat) : List Char :=
  if n < 10 then [Nat.digitChar n] else decimal (n / 10) ++ [Nat.digitChar (n % 10)]
decreasing_by omega

/-- Value of a digit character. Used at waymax/dataloader/dataloader_utils.py:57 -/
def digitVal (c : Char) : Nat := c.toNat - '0'.toNat

/-- Value of a list of digits. Used at waymax/dataloader/dataloader_utils.py:57 -/
def decimalVal (s : List Char) : Nat := s.foldl (fun a c => 10 * a + digitVal c) 0

/-- `int(s)`: only non-empty strings of digits are accepted here; Python also accepts signs, blanks and underscores.
waymax/dataloader/dataloader_utils.py:57 -/
def parseInt (s : List Char) : Except Err Nat :=
  if s ≠ [] ∧ s.all Char.isDigit then .ok (decimalVal s) else .error .valueError

/-- `'%0<w>d' % n`. Used at waymax/dataloader/dataloader_utils.py:60 -/
def zeroPad (w n : Nat) : List Char := List.replicate (w - (decimal n).length) '0' ++ decimal n

/-- Where the formatter is: in plain text, after `%`, or inside `%0<w>` having read the width `w` so far.
Used at waymax/dataloader/dataloader_utils.py:60 -/
inductive FmtMode where
  | text | percent | width (w : Nat)

/-- `fmt % args` for natural number arguments. Modelled conversions: `%%` and `%0<w>d`; every other conversion is an error here (in
Python some consume an argument and print it in another way). A wrong number of arguments is an error.
Used at waymax/dataloader/dataloader_utils.py:60 -/
def pyFormatFrom : FmtMode → List Char → List Nat → Except Err (List Char)
  | .text, [], [] => .ok []
  | .text, [], _ :: _ => .error .typeError
  | .text, c :: rest, args =>
    if c = '%' then pyFormatFrom .percent rest args else (pyFormatFrom .text rest args).map (c :: ·)
  | .percent, c :: rest, args =>
    if c = '%' then (pyFormatFrom .text rest args).map ('%' :: ·)
    else if c = '0' then pyFormatFrom (.width 0) rest args
    else .error .valueError
  | .width w, c :: rest, args =>
    if c = 'd' then
      match args with
      | a :: args => (pyFormatFrom .text rest args).map (zeroPad w a ++ ·)
      | [] => .error .typeError
    else if c.isDigit then pyFormatFrom (.width (10 * w + digitVal c)) rest args
    else .error .valueError
  | _, [], _ => .error .valueError

/-- `fmt % args`. Used at waymax/dataloader/dataloader_utils.py:60 -/
def pyFormat (fmt : List Char) (args : List Nat) : Except Err (List Char) := pyFormatFrom .text fmt args

/-- `path.split('@')`. Used at waymax/dataloader/dataloader_utils.py:53-56 -/
def splitAt : List Char → List (List Char)
  | [] => [[]]
  | '@' :: rest => [] :: splitAt rest
  | c :: rest =>
    match splitAt rest with
    | [] => [[c]]
    | p :: ps => (c :: p) :: ps

/-- `generate_sharded_filenames`. `int(math.log10(n) + 1)` is the exact number of digits here; `math.log10(0)` raises.
waymax/dataloader/dataloader_utils.py:33-60 -/
def generateShardedFilenames (path : List Char) : Except Err (List (List Char)) :=
  match splitAt path with
  | [base, num] => do
    let n ← parseInt num
    if n = 0 then .error .valueError
    else
      let width := max 5 (Nat.log 10 n + 1)
      let fmt := base ++ ['-', '%', '0'] ++ decimal width ++ "d-of-%05d".toList
      (List.range n).mapM fun i => pyFormat fmt [i, n]
  | _ => .error .valueError

/-- `os.path.basename`. Used at waymax/dataloader/dataloader_utils.py:115 -/
def basename (path : List Char) : List Char := (path.reverse.takeWhile (· ≠ '/')).reverse

/-- The files a path stands for. waymax/dataloader/dataloader_utils.py:114-116 -/
def filesToLoad (path : List Char) : Except Err (List (List Char)) :=
  if '@' ∈ basename path then generateShardedFilenames path else .ok [path]

/-! ### The tf.data pipeline -/

section
variable {F E : Type}

/-- `Dataset.shard(n, i)`: the elements whose position is `i` modulo `n`. tf.data primitive called at
waymax/dataloader/dataloader_utils.py:122, 128 -/
def shard (n i : Nat) (xs : List F) : List F := (xs.zipIdx.filter fun p => p.2 % n == i).map Prod.fst

/-- The files read by one shard of one process. waymax/dataloader/dataloader_utils.py:122, 128 -/
def filesOf (files : List F) (processCount processIndex numShards shardIndex : Nat) : List F :=
  shard numShards shardIndex (shard processCount processIndex files)

/-- One element of a dataset: batch shape and the examples in it, in row-major order. waymax/dataloader/dataloader_utils.py:145-158 -/
structure Elem (E : Type) where
  shape : List Nat
  items : List E
  deriving DecidableEq, Repr

/-- Consecutive groups of `b` elements; the last one may be shorter. waymax/dataloader/dataloader_utils.py:152-157 -/
def chunks (b : Nat) (xs : List E) : List (List E) :=
  if h : xs = [] ∨ b = 0 then [] else xs.take b :: chunks b (xs.drop b)
termination_by xs.length
decreasing_by
  rw [not_or] at h
  have := List.length_pos_iff.2 h.1
  rw [List.length_drop]
  omega

/-- One batch: all elements must have the same shape. waymax/dataloader/dataloader_utils.py:152-157 -/
def mkBatch (c : List (Elem E)) : Except Err (Elem E) :=
  match c with
  | [] => .error .valueError
  | e :: es => if es.all fun x => x.shape == e.shape then .ok ⟨c.length :: e.shape, c.flatMap Elem.items⟩ else .error .valueError

/-- `Dataset.batch(b, drop_remainder)`. tf.data primitive called at waymax/dataloader/dataloader_utils.py:152-157 -/
def batch (b : Nat) (dropRemainder : Bool) (xs : List (Elem E)) : Except Err (List (Elem E)) :=
  if b = 0 then .error .valueError
  else ((chunks b xs).filter fun c => !dropRemainder || c.length == b).mapM mkBatch

/-- All batch dimensions, innermost first. waymax/dataloader/dataloader_utils.py:150-157 -/
def batchAll (dims : List Nat) (dropRemainder : Bool) (xs : List (Elem E)) : Except Err (List (Elem E)) :=
  dims.reverse.foldlM (fun ds b => batch b dropRemainder ds) xs

/-- What one shard may return: its records, repeated, in any order (interleaving and shuffling are modelled as an arbitrary
permutation), preprocessed (`prep` returns one example per scenario, or one per object when `batch_by_scenario` is off), batched.
waymax/dataloader/dataloader_utils.py:124-158 -/
def ShardReturns {R : Type} (read : F → List R) (prep : R → List E) (rep : Nat) (dims : List Nat) (dropRemainder : Bool)
    (files : List F) (out : List (Elem E)) : Prop :=
  ∃ recs : List R, recs.Perm (List.replicate rep (files.flatMap read)).flatten ∧
    batchAll dims dropRemainder ((recs.flatMap prep).map fun e => ⟨[], [e]⟩) = .ok out

/-- What one process may return: the outputs of its shards, interleaved. waymax/dataloader/dataloader_utils.py:120-166 -/
def ProcessReturns {R : Type} (read : F → List R) (prep : R → List E) (rep : Nat) (dims : List Nat) (dropRemainder : Bool)
    (files : List F) (processCount processIndex numShards : Nat) (out : List (Elem E)) : Prop :=
  ∃ outs : Fin numShards → List (Elem E),
    (∀ s : Fin numShards, ShardReturns read prep rep dims dropRemainder (filesOf files processCount processIndex numShards s) (outs s)) ∧
    out.Perm ((List.finRange numShards).flatMap outs)

end

end Waymax
