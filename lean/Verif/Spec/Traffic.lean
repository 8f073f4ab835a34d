import Verif.Spec.Padding
import Verif.Spec.Agents
/-
Vocabulary for C187: a scenario to which other road users have been added.
-/

namespace Waymax

section
variable {α : Type} {n m T : Nat}

/-- `s'` is the scenario `s` with more traffic: object `i` of `s` is object `f i` of `s'`, and the other objects of `s'` have been
added. They can be anything except the SDC: present or absent, moving or parked, in the way or not. The map, the routes, the
traffic lights and the clock are the same. -/
structure AddedTo (f : Fin n → Fin m) (s : SimState α n T) (s' : SimState α m T) : Prop where
  separate : Function.Injective f
  sim : ∀ i t, s'.simTrajectory (f i) t = s.simTrajectory i t
  log : ∀ i t, s'.logTrajectory (f i) t = s.logTrajectory i t
  objects : ∀ i, s'.objectMetadata (f i) = s.objectMetadata i
  clock : s'.timestep = s.timestep
  lights : s'.logTrafficLight = s.logTrafficLight
  paths : s'.sdcPaths = s.sdcPaths
  roadgraph : s'.roadgraphPoints = s.roadgraphPoints
  notSdc : ∀ j, (∀ i, f i ≠ j) → (s'.objectMetadata j).isSdc = false

end

section
variable {n m T : Nat} [NeZero T]

/-- The claim: more traffic never makes the IDM agent faster. -/
def TrafficSlows (P : IdmParams) (n m T : Nat) [NeZero T] : Prop :=
  ∀ (f : Fin n → Fin m) (s : SimState ℝ n T) (s' : SimState ℝ m T) (t : Fin T), AddedTo f s s' → (t : Int) = s.timestep →
    ∀ i, (s.simTrajectory i t).valid = true → ∀ r r', idmUpdateSpeed P s i = .ok r → idmUpdateSpeed P s' (f i) = .ok r' →
      r'.1 ≤ r.1

/-- Some added object that is present now covers a piece of ground that object `i` covers as well. -/
def HitsAdded (f : Fin n → Fin m) (s' : SimState ℝ m T) (t : Fin T) (i : Fin n) : Prop :=
  ∃ j, (∀ k, f k ≠ j) ∧ (s'.simTrajectory j t).valid = true ∧
    (rectInterior (s'.simTrajectory j t).x (s'.simTrajectory j t).y (s'.simTrajectory j t).length (s'.simTrajectory j t).width
        (s'.simTrajectory j t).yaw ∩
      rectInterior (s'.simTrajectory (f i) t).x (s'.simTrajectory (f i) t).y (s'.simTrajectory (f i) t).length
        (s'.simTrajectory (f i) t).width (s'.simTrajectory (f i) t).yaw).Nonempty

end

end Waymax
