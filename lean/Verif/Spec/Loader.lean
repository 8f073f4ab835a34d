import Verif.Model.Loader
import Verif.Spec.Batch
import Verif.Spec.Womd
/-
Vocabulary for loading dictionaries: which features with which shapes make up a batch of WOMD examples, and the example stored at one
batch index. Nothing here is used by the model.
-/

namespace Waymax

/-- The dictionary has a feature with this name and shape. -/
def HasFeat (d : Feats) (name : String) (shape : List Nat) : Prop := ∃ v, d.get? name.toList = some v ∧ v.shape = shape

/-- The number at one position of a feature (0 if the feature is missing). -/
def numAt (d : Feats) (name : String) (idx : List Nat) : ℝ := ((d.get? name.toList).map fun v => v.get idx).getD 0

/-- The features of a batch of examples, in the shapes documented for WOMD after the batch axes `pre`: `n` objects, `T` steps under the
time key `time`, `L` lights, `R` map points. -/
structure WomdBatch (d : Feats) (time : String) (pre : List Nat) (n T L R : Nat) : Prop where
  state : ∀ f ∈ ["x", "y", "z", "velocity_x", "velocity_y", "bbox_yaw", "valid", "length", "width", "height", "timestamp_micros"],
    HasFeat d ("state/" ++ time ++ "/" ++ f) (pre ++ [n, T])
  lights : ∀ f ∈ ["x", "y", "z", "state", "id", "valid"], HasFeat d ("traffic_light_state/" ++ time ++ "/" ++ f) (pre ++ [T, L])
  metadata : ∀ f ∈ ["id", "type", "is_sdc", "tracks_to_predict", "objects_of_interest"], HasFeat d ("state/" ++ f) (pre ++ [n])
  points : ∀ f ∈ ["xyz", "dir"], HasFeat d ("roadgraph_samples/" ++ f) (pre ++ [R, 3])
  pointInfo : ∀ f ∈ ["type", "id", "valid"], HasFeat d ("roadgraph_samples/" ++ f) (pre ++ [R, 1])

/-- The features of `P` paths of `K` points. -/
structure PathBatch (d : Feats) (pre : List Nat) (P K : Nat) : Prop where
  xyz : HasFeat d "path_samples/xyz" (pre ++ [P, K, 3])
  info : ∀ f ∈ ["id", "valid", "arc_length"], HasFeat d ("path_samples/" ++ f) (pre ++ [P, K])
  onRoute : HasFeat d "path_samples/on_route" (pre ++ [P, 1])

/-- The record of object `i` at step `t` in the example at batch index `p`. -/
noncomputable def objectRecord (d : Feats) (time : String) (p : List Nat) (i t : Nat) : WomdPt :=
  let v := fun f : String => numAt d ("state/" ++ time ++ "/" ++ f) (p ++ [i, t])
  { x := v "x", y := v "y", z := v "z", velocityX := v "velocity_x", velocityY := v "velocity_y", bboxYaw := v "bbox_yaw"
    length := v "length", width := v "width", height := v "height", speed := v "speed", velYaw := v "vel_yaw"
    timestampMicros := intOfReal (v "timestamp_micros"), valid := if v "valid" = 0 then 0 else 1 }

/-- The record of light `l` at step `t`. -/
noncomputable def lightRecord (d : Feats) (time : String) (p : List Nat) (t l : Nat) : WomdTl :=
  let v := fun f : String => numAt d ("traffic_light_state/" ++ time ++ "/" ++ f) (p ++ [t, l])
  { x := v "x", y := v "y", z := v "z", state := intOfReal (v "state"), id := intOfReal (v "id"), valid := if v "valid" = 0 then 0 else 1 }

/-- The facts about object `i` that do not change with time. The three marks are whole numbers of which only 1 and -1 matter; any
other number is written as 0 here. -/
noncomputable def metaRecord (d : Feats) (p : List Nat) (i : Nat) : WomdMeta :=
  let v := fun f : String => numAt d ("state/" ++ f) (p ++ [i])
  let mark := fun x : ℝ => if x = 1 then 1 else if x = -1 then -1 else (0 : Int)
  { id := intOfReal (v "id"), type := intOfReal (v "type"), isSdc := mark (v "is_sdc"), tracksToPredict := mark (v "tracks_to_predict")
    objectsOfInterest := mark (v "objects_of_interest") }

/-- Map point `k`. -/
noncomputable def pointRecord (d : Feats) (p : List Nat) (k : Nat) : WomdRg :=
  let v := fun (f : String) (j : Nat) => numAt d ("roadgraph_samples/" ++ f) (p ++ [k, j])
  { x := v "xyz" 0, y := v "xyz" 1, z := v "xyz" 2, dirX := v "dir" 0, dirY := v "dir" 1, dirZ := v "dir" 2
    type := intOfReal (v "type" 0), id := intOfReal (v "id" 0), valid := if v "valid" 0 = 0 then 0 else 1 }

/-- Path `j` of the example at batch index `p`: point `k` is at the stored position, with the stored lane, distance along the path and
flag; the path is on the route unless its flag is 0. -/
noncomputable def pathRecord (d : Feats) (p : List Nat) (K j : Nat) : SdcPath ℝ where
  points := (List.range K).map fun k =>
    let v := fun f : String => numAt d ("path_samples/" ++ f) (p ++ [j, k])
    let c := fun m : Nat => numAt d "path_samples/xyz" (p ++ [j, k, m])
    { x := c 0, y := c 1, z := c 2, id := intOfReal (v "id"), valid := boolOfReal (v "valid"), arcLength := v "arc_length" }
  onRoute := boolOfReal (numAt d "path_samples/on_route" (p ++ [j, 0]))

/-- The simulator state `s` holds the example stored at batch index `p` of the dictionary, with `L` lights and `R` map points, and is
at its start. -/
structure LoadedExample {n T : Nat} (d : Feats) (time : String) (p : List Nat) (L R : Nat) (s : SimState ℝ n T) : Prop where
  /-- Positions, velocities, headings, time stamps and validity flags are the stored numbers. -/
  log : ∀ i t, let q := s.logTrajectory i t
    let v := fun f : String => numAt d ("state/" ++ time ++ "/" ++ f) (p ++ [i.val, t.val])
    (q.x, q.y, q.z) = (v "x", v "y", v "z") ∧ (q.velX, q.velY) = (v "velocity_x", v "velocity_y") ∧ q.yaw = v "bbox_yaw" ∧
    q.timestampMicros = intOfReal (v "timestamp_micros") ∧ (q.valid = true ↔ v "valid" ≠ 0)
  /-- Every size is the average over the steps at which the object is valid, -1 if there are none. -/
  size : ∀ i t, let q := s.logTrajectory i t
    let records := (List.range T).map fun k => objectRecord d time p i k
    q.length = averageSize WomdPt.length records ∧ q.width = averageSize WomdPt.width records ∧ q.height = averageSize WomdPt.height records
  /-- Step 0 has been simulated and no other. -/
  start : s.timestep = 0 ∧ ∀ i t, (t.val = 0 → s.simTrajectory i t = s.logTrajectory i t) ∧ (t.val ≠ 0 → (s.simTrajectory i t).valid = false)
  lights : ∃ h : s.logTrafficLight.length = L, ∀ (l : Fin L) (t : Fin T), let q := s.logTrafficLight[l] t
    let v := fun f : String => numAt d ("traffic_light_state/" ++ time ++ "/" ++ f) (p ++ [t.val, l.val])
    (q.x, q.y, q.z) = (v "x", v "y", v "z") ∧ q.state = intOfReal (v "state") ∧ q.laneId = intOfReal (v "id") ∧
    (q.valid = true ↔ v "valid" ≠ 0)
  metadata : ∀ i, let m := s.objectMetadata i
    let v := fun f : String => numAt d ("state/" ++ f) (p ++ [i.val])
    m.id = intOfReal (v "id") ∧ m.objectType = intOfReal (v "type") ∧ (m.isSdc = true ↔ v "is_sdc" = 1) ∧
    (m.isModeled = true ↔ v "tracks_to_predict" = 1) ∧ (m.isValid = true ↔ v "tracks_to_predict" ≠ -1) ∧
    (m.objectsOfInterest = true ↔ v "objects_of_interest" = 1) ∧ m.isControlled = false
  map : ∃ rg, s.roadgraphPoints = some rg ∧ ∃ h : rg.length = R, ∀ k : Fin R, let q := rg[k]
    let v := fun (f : String) (j : Nat) => numAt d ("roadgraph_samples/" ++ f) (p ++ [k.val, j])
    (q.x, q.y, q.z) = (v "xyz" 0, v "xyz" 1, v "xyz" 2) ∧ (q.dirX, q.dirY, q.dirZ) = (v "dir" 0, v "dir" 1, v "dir" 2) ∧
    q.type = intOfReal (v "type" 0) ∧ q.id = intOfReal (v "id" 0) ∧ (q.valid = true ↔ v "valid" 0 ≠ 0)

end Waymax
