import Verif.Model.Loader
import Verif.Model.DatasetConfig
/-
Model of the way from serialized records to simulator states: `get_features_description` (waymax/dataloader/womd_utils.py),
`preprocess_serialized_womd_data` and `simulator_state_generator` (waymax/dataloader/womd_dataloader.py) and `get_data_generator`
(waymax/dataloader/dataloader_utils.py). A serialized record is a `tf.train.Example`: named flat lists of numbers. Decoding the
bytes of a record and the types of the numbers are not modelled.
-/

namespace Waymax

/-- A `tf.train.Example`: for every feature a flat list of numbers. Read at waymax/dataloader/womd_dataloader.py:48 -/
abbrev Record := List (List Char × List ℝ)

/-- The features of a map point. waymax/dataloader/womd_utils.py:171-187 -/
def roadgraphFeatures (points : Nat) : List (List Char × List Nat) :=
  [("roadgraph_samples/dir".toList, [points, 3]), ("roadgraph_samples/id".toList, [points, 1]),
   ("roadgraph_samples/type".toList, [points, 1]), ("roadgraph_samples/valid".toList, [points, 1]),
   ("roadgraph_samples/xyz".toList, [points, 3])]

/-- The features of an object that do not depend on time. waymax/dataloader/womd_utils.py:190-206 -/
def objectFeatures (objects : Nat) : List (List Char × List Nat) :=
  [("state/id".toList, [objects]), ("state/type".toList, [objects]), ("state/is_sdc".toList, [objects]),
   ("state/tracks_to_predict".toList, [objects]), ("state/objects_of_interest".toList, [objects])]

/-- The names of the features of an object at one step. waymax/dataloader/womd_utils.py:210-263 -/
def stateNames : List String :=
  ["bbox_yaw", "height", "length", "timestamp_micros", "valid", "vel_yaw", "speed", "velocity_x", "velocity_y", "width", "x", "y", "z"]

/-- `state_time_features`. waymax/dataloader/womd_utils.py:207-265 -/
def stateFeatures (objects steps : Nat) (time : String) : List (List Char × List Nat) :=
  stateNames.map fun f => (statePrefix time ++ f.toList, [objects, steps])

/-- The names of the features of a light at one step. waymax/dataloader/womd_utils.py:266-342 -/
def lightNames : List String := ["state", "valid", "id", "x", "y", "z"]

/-- The traffic light features for one of past, current and future. waymax/dataloader/womd_utils.py:266-342 -/
def lightFeatures (lights steps : Nat) (time : String) : List (List Char × List Nat) :=
  (lightNames.map fun f => (lightPrefix time ++ f.toList, [steps, lights])) ++ [(lightPrefix time ++ "timestamp_micros".toList, [steps])]

/-- The features of the SDC paths. waymax/dataloader/womd_utils.py:345-362 -/
def pathFeatures (paths points : Nat) : List (List Char × List Nat) :=
  [("path_samples/xyz".toList, [paths, points, 3]), ("path_samples/valid".toList, [paths, points]),
   ("path_samples/id".toList, [paths, points]), ("path_samples/arc_length".toList, [paths, points]),
   ("path_samples/on_route".toList, [paths, 1])]

/-- The path features if asked for; both sizes must be given. waymax/dataloader/womd_utils.py:165-169, 345-362 -/
def pathFeaturesIf (include_ : Bool) (numPaths numPointsPerPath : Option Nat) : Except Err (List (List Char × List Nat)) :=
  if include_ then
    match numPaths, numPointsPerPath with
    | some p, some k => .ok (pathFeatures p k)
    | _, _ => .error .valueError
  else .ok []

/-- `get_features_description`: names and shapes. waymax/dataloader/womd_utils.py:137-365 -/
def featuresDescription (objects points lights : Nat) (include_ : Bool) (numPaths numPointsPerPath : Option Nat) :
    Except Err (List (List Char × List Nat)) := do
  let paths ← pathFeaturesIf include_ numPaths numPointsPerPath
  return roadgraphFeatures points ++ paths ++
    (objectFeatures objects ++ stateFeatures objects 10 "past" ++ stateFeatures objects 1 "current" ++ stateFeatures objects 80 "future") ++
    (lightFeatures lights 1 "current" ++ lightFeatures lights 10 "past" ++ lightFeatures lights 80 "future")

/-- The position of an index in a flat list, last axis fastest. Used by tf.io.parse_example at waymax/dataloader/womd_dataloader.py:48 -/
def flatPos (shape idx : List Nat) : Nat := (shape.zip idx).foldl (fun a p => a * p.1 + p.2) 0

/-- One feature of a record: it must be there (`default_value=None`) with the right number of values.
TensorFlow operation called at waymax/dataloader/womd_dataloader.py:48 -/
noncomputable def parseFeature (r : Record) (f : List Char × List Nat) : Except Err (List Char × Nd ℝ) :=
  match List.lookup f.1 r with
  | none => .error .valueError
  | some vs => if vs.length = f.2.prod then .ok (f.1, { shape := f.2, get := fun idx => vs.getD (flatPos f.2 idx) 0 }) else .error .valueError

/-- `tf.io.parse_example`. waymax/dataloader/womd_dataloader.py:48 -/
noncomputable def parseExample (r : Record) (description : List (List Char × List Nat)) : Except Err Feats := description.mapM (parseFeature r)

/-- `preprocess_serialized_womd_data`: 128 objects and 16 lights are the defaults of `get_features_description`.
waymax/dataloader/womd_dataloader.py:38-55 -/
noncomputable def preprocessSerialized (c : DatasetConfig) (r : Record) : Except Err Feats := do
  let description ← featuresDescription 128 c.maxNumRgPoints 16 c.includeSdcPaths c.numPaths c.numPointsPerPath
  let deserialized ← parseExample r description
  preprocessWomd deserialized c.aggregateTimesteps c.maxNumObjects

/-! ### Batches -/

/-- One feature of a batch: the arrays of the examples next to each other, in front of their own axes the axes of the batch. `first` is
the first example. tf.data primitive called at waymax/dataloader/dataloader_utils.py:152-157 -/
def stackKey (shape : List Nat) (items : List Feats) (first : Feats) (key : List Char) : Except Err (List Char × Nd ℝ) := do
  let v ← first.fetch key
  let vs ← items.mapM fun d => d.fetch key
  assertThat (∀ w ∈ vs, w.shape = v.shape) .valueError
  return (key, { shape := shape ++ v.shape
                 get := fun idx => (vs.getD (flatPos shape (idx.take shape.length)) v).get (idx.drop shape.length) })

/-- The dictionary of a batch. waymax/dataloader/dataloader_utils.py:150-157 -/
def stackFeats (e : Elem Feats) : Except Err Feats :=
  match e.items with
  | [] => .error .valueError
  | d :: _ => (d.map Prod.fst).mapM (stackKey e.shape e.items d)

/-- Arrays next to each other along a new first axis. jax.pmap at waymax/dataloader/dataloader_utils.py:225-230 -/
def Nd.stack {β : Type} (xs : List (Nd β)) (x : Nd β) : Nd β :=
  { shape := xs.length :: x.shape, get := fun idx => match idx with
      | k :: rest => (xs.getD k x).get rest
      | [] => x.get [] }

/-- The outputs of `pmap` next to each other; `s` is one of them. waymax/dataloader/dataloader_utils.py:225-230 -/
def StateNd.stack (ss : List (StateNd ℝ)) (s : StateNd ℝ) : StateNd ℝ :=
  let traj := fun (g : StateNd ℝ → TrajNd ℝ) =>
    ({ x := Nd.stack (ss.map fun s => (g s).x) (g s).x, y := Nd.stack (ss.map fun s => (g s).y) (g s).y
       z := Nd.stack (ss.map fun s => (g s).z) (g s).z, velX := Nd.stack (ss.map fun s => (g s).velX) (g s).velX
       velY := Nd.stack (ss.map fun s => (g s).velY) (g s).velY, yaw := Nd.stack (ss.map fun s => (g s).yaw) (g s).yaw
       valid := Nd.stack (ss.map fun s => (g s).valid) (g s).valid
       timestampMicros := Nd.stack (ss.map fun s => (g s).timestampMicros) (g s).timestampMicros
       length := Nd.stack (ss.map fun s => (g s).length) (g s).length, width := Nd.stack (ss.map fun s => (g s).width) (g s).width
       height := Nd.stack (ss.map fun s => (g s).height) (g s).height } : TrajNd ℝ)
  let m := fun s : StateNd ℝ => s.objectMetadata
  { simTrajectory := traj StateNd.simTrajectory, logTrajectory := traj StateNd.logTrajectory
    logTrafficLight := Nd.stack (ss.map StateNd.logTrafficLight) s.logTrafficLight
    objectMetadata :=
      { ids := Nd.stack (ss.map fun s => (m s).ids) (m s).ids, objectTypes := Nd.stack (ss.map fun s => (m s).objectTypes) (m s).objectTypes
        isSdc := Nd.stack (ss.map fun s => (m s).isSdc) (m s).isSdc, isModeled := Nd.stack (ss.map fun s => (m s).isModeled) (m s).isModeled
        isValid := Nd.stack (ss.map fun s => (m s).isValid) (m s).isValid
        objectsOfInterest := Nd.stack (ss.map fun s => (m s).objectsOfInterest) (m s).objectsOfInterest
        isControlled := Nd.stack (ss.map fun s => (m s).isControlled) (m s).isControlled }
    timestep := Nd.stack (ss.map StateNd.timestep) s.timestep
    sdcPaths := s.sdcPaths.map fun q =>
      (Nd.stack (ss.map fun s => (s.sdcPaths.getD q).1) q.1, Nd.stack (ss.map fun s => (s.sdcPaths.getD q).2) q.2)
    roadgraphPoints := s.roadgraphPoints.map fun q => Nd.stack (ss.map fun s => s.roadgraphPoints.getD q) q }

/-- What one device gets: entry `k` of every array. waymax/dataloader/dataloader_utils.py:225-230 -/
def Feats.entry (d : Feats) (k : Nat) : Feats := d.map fun e => (e.1, { shape := e.2.shape.tail, get := fun idx => e.2.get (k :: idx) })

/-- `jax.pmap(f)(d)`: every array has the same first dimension, at least 1 and not above the number of devices; `f` runs on every entry
and the outputs are put next to each other. JAX operation called at waymax/dataloader/dataloader_utils.py:225-230 -/
def pmapState (devices : Nat) (f : Feats → Except Err (StateNd ℝ)) (d : Feats) : Except Err (StateNd ℝ) :=
  match d with
  | [] => .error .valueError
  | e :: _ => match e.2.shape with
    | [] => .error .valueError
    | b :: _ => do
      assertThat (∀ x ∈ d, x.2.shape.head? = some b) .valueError
      assertThat (1 ≤ b ∧ b ≤ devices) .valueError
      let ss ← (List.range b).mapM fun k => f (d.entry k)
      match ss with
      | [] => .error .valueError
      | s :: _ => return StateNd.stack ss s

/-- `Dataset.unbatch()`: the examples are split along the first axis, which must have the same size in every array. tf.data primitive
called at waymax/dataloader/dataloader_utils.py:148-149 -/
def unbatch (d : Feats) : Except Err (List Feats) :=
  match d with
  | [] => .error .valueError
  | e :: _ => match e.2.shape with
    | [] => .error .valueError
    | b :: _ => do
      assertThat (∀ x ∈ d, x.2.shape.head? = some b) .valueError
      return (List.range b).map d.entry

/-- The examples made from one record. waymax/dataloader/dataloader_utils.py:145-149 -/
noncomputable def prepare (c : DatasetConfig) (r : Record) : Except Err (List Feats) := do
  let d ← preprocessSerialized c r
  if c.batchByScenario then return [d] else unbatch d

/-- The state yielded for one batch. waymax/dataloader/dataloader_utils.py:224-230, waymax/dataloader/womd_dataloader.py:100-109 -/
noncomputable def yieldState (c : DatasetConfig) (devices : Nat) (e : Elem Feats) : Except Err (StateNd ℝ) := do
  let d ← stackFeats e
  let convert := fun d => stateFromDict d c.includeSdcPaths
  if c.distributed then pmapState devices convert d else convert d

/-- The batch axes asked for. waymax/dataloader/dataloader_utils.py:202-204 -/
def DatasetConfig.dims (c : DatasetConfig) (devices : Nat) : List Nat := if c.distributed then devices :: c.batchDims else c.batchDims

/-- What `simulator_state_generator` may yield on one process, the batches in any order the pipeline may produce them in: `prep` is the
preprocessing, which succeeds on every record (a record on which it raises stops the generator). `repeat` is finite here.
waymax/dataloader/womd_dataloader.py:82-113, waymax/dataloader/dataloader_utils.py:178-230 -/
def GeneratorYields {F : Type} (c : DatasetConfig) (devices : Nat) (read : F → List Record) (files : List F)
    (processCount processIndex : Nat) (out : List (Except Err (StateNd ℝ))) : Prop :=
  ∃ prep : Record → List Feats, (∀ f ∈ files, ∀ r ∈ read f, prepare c r = .ok (prep r)) ∧
    ∃ es, ProcessReturns read prep c.rep (c.dims devices) c.dropRemainder files processCount processIndex c.numShards es ∧
      out = es.map (yieldState c devices)

end Waymax
