import Verif.Model.Womd
import Verif.Spec.Geometry
/-
Vocabulary for the statements about WOMD examples. Nothing here is used by the model.
-/

namespace Waymax

open Real

/-- The records of object `i` in the order of time: past, current, future. -/
def WomdExample.records {n L H F : Nat} (e : WomdExample n L H F) (i : Fin n) : List WomdPt :=
  List.ofFn (e.past i) ++ [e.current i 0] ++ List.ofFn (e.future i)

/-- The records of traffic light `l` in the order of time. -/
def WomdExample.lightRecords {n L H F : Nat} (e : WomdExample n L H F) (l : Fin L) : List WomdTl :=
  List.ofFn (fun t => e.tlPast t l) ++ [e.tlCurrent 0 l] ++ List.ofFn (fun t => e.tlFuture t l)

/-- The trajectory point `p` is what record `w` describes: same position, velocity and time, the same direction written as an angle
in `[-π, π)`, valid unless the flag is 0. Sizes are a separate matter. -/
structure ReadsAs (w : WomdPt) (p : Pt ℝ) : Prop where
  position : p.x = w.x ∧ p.y = w.y ∧ p.z = w.z
  velocity : p.velX = w.velocityX ∧ p.velY = w.velocityY
  direction : AnglesAgree p.yaw w.bboxYaw ∧ -π ≤ p.yaw ∧ p.yaw < π
  time : p.timestampMicros = w.timestampMicros
  valid : p.valid = true ↔ w.valid ≠ 0

/-- The same for a traffic light. -/
structure TlReadsAs (w : WomdTl) (p : TlState ℝ) : Prop where
  position : p.x = w.x ∧ p.y = w.y ∧ p.z = w.z
  light : p.state = w.state ∧ p.laneId = w.id
  valid : p.valid = true ↔ w.valid ≠ 0

/-- The average of a size over the valid records, -1 if there is none. -/
noncomputable def averageSize (size : WomdPt → ℝ) (ws : List WomdPt) : ℝ :=
  let valid := ws.filter fun w => decide (w.valid ≠ 0)
  if valid = [] then -1 else (valid.map size).sum / valid.length

/-- Two trajectory points agree in everything but the size of the object; headings up to full turns. -/
structure SameButSize (p q : Pt ℝ) : Prop where
  position : q.x = p.x ∧ q.y = p.y ∧ q.z = p.z
  velocity : q.velX = p.velX ∧ q.velY = p.velY
  direction : AnglesAgree q.yaw p.yaw
  time : q.timestampMicros = p.timestampMicros
  valid : q.valid = p.valid

/-- The steps among the last `H + 1` simulated ones at which object `i` is valid. -/
def validWindow {n T : Nat} (s : SimState ℝ n T) (H : Nat) (i : Fin n) : Finset (Fin T) :=
  Finset.univ.filter fun τ => s.timestep - H ≤ (τ : Int) ∧ (τ : Int) ≤ s.timestep ∧ (s.simTrajectory i τ).valid = true

/-- The description matches the state's numbers of objects, lights and road-graph points and asks for no SDC paths. -/
def WomdSpec.Fits {n T : Nat} (spec : WomdSpec) (s : SimState ℝ n T) : Prop :=
  n = spec.objects ∧ s.logTrafficLight.length = spec.lights ∧ spec.paths = false ∧
  ∃ rg, s.roadgraphPoints = some rg ∧ rg.length = spec.points

/-- State `s'` is what one gets by writing `s` as a WOMD example and reading the example. -/
def WrittenAndRead {n T : Nat} [NeZero T] (spec : WomdSpec) (s : SimState ℝ n T)
    (s' : SimState ℝ n (spec.history + 1 + spec.future)) : Prop :=
  ∃ validate e, toWomd spec validate s = .ok e ∧ loadWomd e = .ok s'

end Waymax
