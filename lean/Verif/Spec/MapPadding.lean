import Verif.Spec.Padding
import Verif.Spec.Planning
/-
Vocabulary for C149 and C150: the same scenario whose road map and SDC paths are stored in larger arrays, filled up with points
that are marked invalid. Nothing here is used by the model.
-/

namespace Waymax

/-- Road points with points appended that are marked invalid; their numbers can be anything. -/
def RoadPadded (rg rg' : List (RgPoint ℝ)) : Prop := ∃ pad, rg' = rg ++ pad ∧ ∀ p ∈ pad, p.valid = false

/-- A path with points appended that are marked invalid. -/
def PathPadded (p p' : SdcPath ℝ) : Prop :=
  p'.onRoute = p.onRoute ∧ p.points ≠ [] ∧ ∃ pad, p'.points = p.points ++ pad ∧ ∀ q ∈ pad, q.valid = false

/-- Every path with points appended, and further paths appended that have no valid point, on the route or not. -/
def PathsPadded (ps ps' : List (SdcPath ℝ)) : Prop :=
  ps ≠ [] ∧ ∃ mid pad, ps' = mid ++ pad ∧ List.Forall₂ PathPadded ps mid ∧ ∀ p ∈ pad, ∀ q ∈ p.points, q.valid = false

section
variable {n T : Nat}

/-- `s'` is the state `s` with a padded road map and padded paths. Nothing can be appended to an array without any entry, which
several metrics reject. -/
inductive MapPadded : SimState ℝ n T → SimState ℝ n T → Prop
  | mk {s : SimState ℝ n T} {rg' : Option (List (RgPoint ℝ))} {ps' : Option (List (SdcPath ℝ))} :
    (rg' = s.roadgraphPoints ∨ ∃ a b, s.roadgraphPoints = some a ∧ rg' = some b ∧ a ≠ [] ∧ RoadPadded a b) →
    (ps' = s.sdcPaths ∨ ∃ a b, s.sdcPaths = some a ∧ ps' = some b ∧ PathsPadded a b) →
    MapPadded s { s with roadgraphPoints := rg', sdcPaths := ps' }

/-- Two rollout entries that differ at most in the padding their states carry along. -/
structure SameButMap {D M R : Type} (e e' : RolloutEntry (SimState ℝ n T) (Fin n → Act D) (SimState ℝ n T) M R) : Prop where
  action : e'.action = e.action
  state : MapPadded e.state e'.state
  observation : MapPadded e.observation e'.observation
  metrics : e'.metrics = e.metrics
  reward : e'.reward = e.reward

/-- States of the planning environment that differ in the padding of the map only. -/
def PlanMapPadded {X : Type} (s s' : PlanState X n T) : Prop := MapPadded s.sim s'.sim ∧ s'.actorStates = s.actorStates

/-- A sim agent that does not care about padding of the map. -/
structure AgentMapFree {X K P : Type} (A : SimAgent X K P n T) : Prop where
  init : ∀ s s' k, PlanMapPadded s s' → A.init k s' = A.init k s
  select : ∀ s s' p x k, PlanMapPadded s s' → A.selectAction p s' x k = A.selectAction p s x k

end

end Waymax
