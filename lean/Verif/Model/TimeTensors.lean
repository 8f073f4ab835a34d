import Verif.Model.Nd
import Verif.Model.Geometry
/-
Model of `aggregate_time_tensors` (waymax/dataloader/womd_utils.py) and `preprocess_womd_example`
(waymax/dataloader/womd_dataloader.py): dictionaries of tensors whose keys are matched as strings. Strings are lists of characters,
all tensors are over the reals.
-/

namespace Waymax

/-- A dictionary of tensors. Assigning puts the new binding in front, and looking up finds the front-most binding of a key, so that
an older binding of the same key is never seen again. waymax/dataloader/womd_utils.py:58-134 -/
abbrev Feats := List (List Char × Nd ℝ)

/-- `d[key]`, `none` if the key is missing. Used at waymax/dataloader/womd_utils.py:85-131 -/
def Feats.get? (d : Feats) (key : List Char) : Option (Nd ℝ) := List.lookup key d

/-- `d[key]`, raising KeyError. Used at waymax/dataloader/womd_utils.py:85-131 -/
def Feats.fetch (d : Feats) (key : List Char) : Except Err (Nd ℝ) := match d.get? key with
  | some v => .ok v
  | none => .error .keyError

/-- `'state/current/'` and so on. waymax/dataloader/womd_utils.py:85-92 -/
def statePrefix (time : String) : List Char := "state/".toList ++ time.toList ++ "/".toList

/-- `'traffic_light_state/current/'` and so on. waymax/dataloader/womd_utils.py:106-120 -/
def lightPrefix (time : String) : List Char := "traffic_light_state/".toList ++ time.toList ++ "/".toList

/-- The rest of each key that starts with `pre`. waymax/dataloader/womd_utils.py:73-80 -/
def featuresWith (pre : List Char) (d : Feats) : List (List Char) :=
  d.filterMap fun e => if pre.isPrefixOf e.1 then some (e.1.drop pre.length) else none

/-- `tf.concat` of two tensors. Ranks and all other dimensions must agree. TensorFlow operation called at
waymax/dataloader/womd_utils.py:85-92, 106-120 -/
def Nd.concat {β : Type} (x y : Nd β) (axis : Int) : Except Err (Nd β) :=
  match Nd.normAxis x.shape.length axis with
  | .error _ => .error .valueError
  | .ok a =>
    if x.shape.length = y.shape.length ∧ x.shape.set a 0 = y.shape.set a 0 then
      let dx := x.shape.getD a 0
      .ok { shape := x.shape.set a (dx + y.shape.getD a 0)
            get := fun idx => if idx.getD a 0 < dx then x.get idx else y.get (idx.modify a fun k => k - dx) }
    else .error .valueError

/-- One aggregated feature: past, current and future along `axis`. waymax/dataloader/womd_utils.py:85-92, 106-120 -/
def aggregateFeature (pre : String → List Char) (axis : Int) (d : Feats) (feature : List Char) : Except Err (Nd ℝ) := do
  let past ← d.fetch (pre "past" ++ feature)
  let current ← d.fetch (pre "current" ++ feature)
  let future ← d.fetch (pre "future" ++ feature)
  (← past.concat current axis).concat future axis

/-- The step axis of a traffic light feature. waymax/dataloader/womd_utils.py:53-55, 100-104 -/
def lightAxis (feature : List Char) : Int := if feature = "timestamp_micros".toList then -1 else -2

/-- The dictionary keys that one feature uses up. waymax/dataloader/womd_utils.py:94-96, 121-123 -/
def usedKeys (pre : String → List Char) (feature : List Char) : List (List Char) :=
  [pre "past" ++ feature, pre "current" ++ feature, pre "future" ++ feature]

/-- `removed_keys`. waymax/dataloader/womd_utils.py:83, 94-96, 121-123 -/
def removedKeys (d : Feats) : List (List Char) :=
  (featuresWith (statePrefix "current") d).flatMap (usedKeys statePrefix) ++ (featuresWith (lightPrefix "current") d).flatMap (usedKeys lightPrefix)

/-- A time axis as TensorFlow reports it: `x.shape[1]`. Used at waymax/dataloader/womd_utils.py:73-80 -/
def secondDim (x : Nd ℝ) : Except Err Nat := match x.shape with
  | _ :: d :: _ => .ok d
  | _ => .error .indexError

/-- `state/which_time`: -1 for past steps, 0 for the current one, 1 for future ones. waymax/dataloader/womd_utils.py:124-131 -/
def whichTime (past future : Nat) : Nd ℝ :=
  { shape := [past + 1 + future]
    get := fun idx => let t := idx.getD 0 0
      if t < past then -1 else if t < past + 1 then 0 else 1 }

/-- The aggregated features of one kind. waymax/dataloader/womd_utils.py:84-123 -/
def aggregateKind (pre : String → List Char) (axis : List Char → Int) (d : Feats) : Except Err Feats :=
  (featuresWith (pre "current") d).mapM fun f => do return (pre "all" ++ f, ← aggregateFeature pre (axis f) d f)

/-- `aggregate_time_tensors`. waymax/dataloader/womd_utils.py:58-134 -/
def aggregateTimeTensors (d : Feats) : Except Err Feats := do
  let states ← aggregateKind statePrefix (fun _ => -1) d
  let lights ← aggregateKind lightPrefix lightAxis d
  let past ← secondDim (← d.fetch (statePrefix "past" ++ "valid".toList))
  let future ← secondDim (← d.fetch (statePrefix "future" ++ "valid".toList))
  let removed := removedKeys d
  let others := d.filter fun e => !removed.contains e.1
  return others ++ ("state/which_time".toList, whichTime past future) :: (lights ++ states)

/-- Python's `v[:stop]` on the first axis. waymax/dataloader/womd_dataloader.py:75 -/
def Nd.takeFirst {β : Type} (x : Nd β) (stop : Int) : Except Err (Nd β) := match x.shape with
  | d :: rest => .ok { shape := (if stop < 0 then (max 0 (d + stop)).toNat else min d stop.toNat) :: rest, get := x.get }
  | [] => .error .valueError

/-- The first half of `preprocess_womd_example`: aggregation and wrapping of headings.
waymax/dataloader/womd_dataloader.py:65-70 -/
noncomputable def processTime (example_ : Feats) (aggregateTimesteps : Bool) : Except Err Feats :=
  if aggregateTimesteps then do
    let agg ← aggregateTimeTensors example_
    let yaw ← agg.fetch "state/all/bbox_yaw".toList
    return ("state/all/bbox_yaw".toList, yaw.map wrapYaws) :: agg
  else .ok example_

/-- One entry of the dictionary cut to `m` objects. waymax/dataloader/womd_dataloader.py:75 -/
def limitEntry (m : Int) (e : List Char × Nd ℝ) : Except Err (List Char × Nd ℝ) :=
  if "state/".toList.isPrefixOf e.1 then do return (e.1, ← e.2.takeFirst m) else .ok e

/-- `preprocess_womd_example`. waymax/dataloader/womd_dataloader.py:58-79 -/
noncomputable def preprocessWomd (example_ : Feats) (aggregateTimesteps : Bool) (maxNumObjects : Option Int) : Except Err Feats := do
  let processed ← processTime example_ aggregateTimesteps
  match maxNumObjects with
  | some m => processed.mapM (limitEntry m)
  | none => return processed

end Waymax
