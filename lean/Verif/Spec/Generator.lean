import Verif.Model.Generator
import Verif.Spec.Loader
import Verif.Spec.Dataset
import Verif.Spec.TimeTensors
/-
Vocabulary for the generator of simulator states: what a serialized record holds and what it means that a simulator state holds a
record. Nothing here is used by the model.
-/

namespace Waymax

/-- Value number `k` of a feature of a record. -/
def Record.value (r : Record) (name : String) (k : Nat) : ℝ := ((List.lookup name.toList r).getD []).getD k 0

/-- The record has a feature with this many values. -/
def Record.Has (r : Record) (name : String) (count : Nat) : Prop := ∃ vs, List.lookup name.toList r = some vs ∧ vs.length = count

/-- A record in the published format: 128 objects, 16 lights, 10 past steps, 1 current and 80 future ones; `R` map points and, if asked for,
the given number of paths of a number of points. -/
structure Record.Complete (r : Record) (R : Nat) (paths : Option (Nat × Nat)) : Prop where
  state : ∀ f ∈ ["bbox_yaw", "height", "length", "timestamp_micros", "valid", "vel_yaw", "speed", "velocity_x", "velocity_y", "width",
      "x", "y", "z"],
    r.Has ("state/past/" ++ f) (128 * 10) ∧ r.Has ("state/current/" ++ f) 128 ∧ r.Has ("state/future/" ++ f) (128 * 80)
  metadata : ∀ f ∈ ["id", "type", "is_sdc", "tracks_to_predict", "objects_of_interest"], r.Has ("state/" ++ f) 128
  lights : ∀ f ∈ ["state", "valid", "id", "x", "y", "z"],
    r.Has ("traffic_light_state/past/" ++ f) (10 * 16) ∧ r.Has ("traffic_light_state/current/" ++ f) 16 ∧
    r.Has ("traffic_light_state/future/" ++ f) (80 * 16)
  lightTimes : r.Has "traffic_light_state/past/timestamp_micros" 10 ∧ r.Has "traffic_light_state/current/timestamp_micros" 1 ∧
    r.Has "traffic_light_state/future/timestamp_micros" 80
  points : (∀ f ∈ ["xyz", "dir"], r.Has ("roadgraph_samples/" ++ f) (R * 3)) ∧
    ∀ f ∈ ["type", "id", "valid"], r.Has ("roadgraph_samples/" ++ f) R
  paths : ∀ P K, paths = some (P, K) → r.Has "path_samples/xyz" (P * K * 3) ∧ r.Has "path_samples/on_route" P ∧
    ∀ f ∈ ["valid", "id", "arc_length"], r.Has ("path_samples/" ++ f) (P * K)

/-- Entry `k` of the object features for `time`. -/
noncomputable def Record.objectEntry (r : Record) (time : String) (k : Nat) : WomdPt :=
  let v := fun f : String => r.value ("state/" ++ time ++ "/" ++ f) k
  { x := v "x", y := v "y", z := v "z", velocityX := v "velocity_x", velocityY := v "velocity_y", bboxYaw := v "bbox_yaw"
    length := v "length", width := v "width", height := v "height", speed := v "speed", velYaw := v "vel_yaw"
    timestampMicros := intOfReal (v "timestamp_micros"), valid := if v "valid" = 0 then 0 else 1 }

/-- Object `i` through the 91 steps. Values are stored object by object, within an object step by step. -/
noncomputable def Record.object (r : Record) (i : Nat) : List WomdPt :=
  ((List.range 10).map fun t => r.objectEntry "past" (i * 10 + t)) ++ [r.objectEntry "current" i] ++
  ((List.range 80).map fun t => r.objectEntry "future" (i * 80 + t))

/-- Entry `k` of the traffic light features for `time`. -/
noncomputable def Record.lightEntry (r : Record) (time : String) (k : Nat) : WomdTl :=
  let v := fun f : String => r.value ("traffic_light_state/" ++ time ++ "/" ++ f) k
  { x := v "x", y := v "y", z := v "z", state := intOfReal (v "state"), id := intOfReal (v "id"), valid := if v "valid" = 0 then 0 else 1 }

/-- Light `l` through the 91 steps. Values are stored step by step, within a step light by light. -/
noncomputable def Record.light (r : Record) (l : Nat) : List WomdTl :=
  ((List.range 10).map fun t => r.lightEntry "past" (t * 16 + l)) ++ [r.lightEntry "current" l] ++
  ((List.range 80).map fun t => r.lightEntry "future" (t * 16 + l))

/-- Path `j` of a record with `K` points per path. -/
noncomputable def Record.path (r : Record) (K j : Nat) : SdcPath ℝ where
  points := (List.range K).map fun k =>
    let v := fun f : String => r.value ("path_samples/" ++ f) (j * K + k)
    let c := fun m : Nat => r.value "path_samples/xyz" ((j * K + k) * 3 + m)
    { x := c 0, y := c 1, z := c 2, id := intOfReal (v "id"), valid := boolOfReal (v "valid"), arcLength := v "arc_length" }
  onRoute := boolOfReal (r.value "path_samples/on_route" j)

/-- The simulator state holds the first `n` objects of a record and everything else in it, and is at its start. -/
structure HoldsRecord (R : Nat) (paths : Option (Nat × Nat)) {n : Nat} (r : Record) (s : SimState ℝ n 91) : Prop where
  /-- Step by step the stored positions, velocities, directions, time stamps and flags. -/
  log : ∀ i t, ∃ w, (r.object i.val)[t.val]? = some w ∧ ReadsAs w (s.logTrajectory i t)
  /-- Every size is the average over the steps at which the object is valid, -1 if there are none. -/
  size : ∀ i t, (s.logTrajectory i t).length = averageSize WomdPt.length (r.object i.val) ∧
    (s.logTrajectory i t).width = averageSize WomdPt.width (r.object i.val) ∧
    (s.logTrajectory i t).height = averageSize WomdPt.height (r.object i.val)
  /-- Step 0 has been simulated and no other. -/
  start : s.timestep = 0 ∧ ∀ i t, (t.val = 0 → s.simTrajectory i t = s.logTrajectory i t) ∧ (t.val ≠ 0 → (s.simTrajectory i t).valid = false)
  lights : ∃ h : s.logTrafficLight.length = 16, ∀ (l : Fin 16) (t : Fin 91),
    ∃ w, (r.light l.val)[t.val]? = some w ∧ TlReadsAs w (s.logTrafficLight[l] t)
  metadata : ∀ i, let m := s.objectMetadata i
    let v := fun f : String => r.value ("state/" ++ f) i.val
    m.id = intOfReal (v "id") ∧ m.objectType = intOfReal (v "type") ∧ (m.isSdc = true ↔ v "is_sdc" = 1) ∧
    (m.isModeled = true ↔ v "tracks_to_predict" = 1) ∧ (m.isValid = true ↔ v "tracks_to_predict" ≠ -1) ∧
    (m.objectsOfInterest = true ↔ v "objects_of_interest" = 1) ∧ m.isControlled = false
  map : ∃ rg, s.roadgraphPoints = some rg ∧ ∃ h : rg.length = R, ∀ k : Fin R, let q := rg[k]
    let v := fun f : String => r.value ("roadgraph_samples/" ++ f)
    (q.x, q.y, q.z) = (v "xyz" (k.val * 3), v "xyz" (k.val * 3 + 1), v "xyz" (k.val * 3 + 2)) ∧
    (q.dirX, q.dirY, q.dirZ) = (v "dir" (k.val * 3), v "dir" (k.val * 3 + 1), v "dir" (k.val * 3 + 2)) ∧
    q.type = intOfReal (v "type" k) ∧ q.id = intOfReal (v "id" k) ∧ (q.valid = true ↔ v "valid" k ≠ 0)
  /-- The paths if asked for. -/
  paths : s.sdcPaths = paths.map fun q => (List.range q.1).map (r.path q.2)

/-- Python's length of `x[:stop]` for `size` elements. -/
def kept (stop : Option Int) (size : Nat) : Nat := match stop with
  | none => size
  | some m => if m < 0 then (max 0 (size + m)).toNat else min size m.toNat

/-- The sizes of the paths if they are included. -/
def DatasetConfig.pathSizes (c : DatasetConfig) : Option (Nat × Nat) :=
  if c.includeSdcPaths then some (c.numPaths.getD 0, c.numPointsPerPath.getD 0) else none

/-- The batch indices of a shape, last axis fastest. -/
def indices : List Nat → List (List Nat)
  | [] => [[]]
  | d :: rest => (List.range d).flatMap fun k => (indices rest).map (k :: ·)

/-- The files of process `p` of `P`: every `P`-th one, from position `p` on. -/
def share {F : Type} (files : List F) (P p : Nat) : List F :=
  (List.range files.length).filterMap fun k => if k % P = p then files[k]? else none

/-- The scenarios in a batched state. -/
def StateNd.scenarios (S : StateNd ℝ) (n T : Nat) : List (SimState ℝ n T) := (indices S.timestep.shape).map (S.scenario n T)

end Waymax
