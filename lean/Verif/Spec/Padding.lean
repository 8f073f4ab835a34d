import Verif.Model.Waypoint
/-
Vocabulary for C140 and C141: the same scenario stored with its objects in another order, or with padding objects added.
-/

namespace Waymax

/-- Two computations end the same way: with the same exception, or with results related by `R`. -/
inductive Both {A B : Type} (R : A → B → Prop) : Except Err A → Except Err B → Prop
  | ok {a : A} {b : B} : R a b → Both R (.ok a) (.ok b)
  | error {e : Err} : Both R (.error e) (.error e)

section
variable {α D : Type} {n m T : Nat}

/-- `s'` is the scenario `s` stored in other arrays: object `i` of `s` is object `f i` of `s'`, and every other object of `s'` is
padding, that is never present, neither in the log nor in the simulation, and neither the SDC nor to be modelled. The numbers of
a padding object can be anything. With `n = m` there is no padding and the objects are only reordered. -/
structure StoredAs (f : Fin n → Fin m) (s : SimState α n T) (s' : SimState α m T) : Prop where
  separate : Function.Injective f
  sim : ∀ i t, s'.simTrajectory (f i) t = s.simTrajectory i t
  log : ∀ i t, s'.logTrajectory (f i) t = s.logTrajectory i t
  objects : ∀ i, s'.objectMetadata (f i) = s.objectMetadata i
  clock : s'.timestep = s.timestep
  lights : s'.logTrafficLight = s.logTrafficLight
  paths : s'.sdcPaths = s.sdcPaths
  roadgraph : s'.roadgraphPoints = s.roadgraphPoints
  padSim : ∀ j, (∀ i, f i ≠ j) → ∀ t, (s'.simTrajectory j t).valid = false
  padLog : ∀ j, (∀ i, f i ≠ j) → ∀ t, (s'.logTrajectory j t).valid = false
  padObjects : ∀ j, (∀ i, f i ≠ j) →
    (s'.objectMetadata j).isSdc = false ∧ (s'.objectMetadata j).isModeled = false ∧ (s'.objectMetadata j).isValid = false

/-- The real objects get the same entries (actions, rewards, speeds, ...). -/
def SameEntries {β : Type} (f : Fin n → Fin m) (a : Fin n → β) (a' : Fin m → β) : Prop := ∀ i, a' (f i) = a i

/-- A dynamics model, given for any number of objects, that treats every object by itself. -/
structure OneByOne (d : ∀ n, DynamicsModel α D n) : Prop where
  update : ∀ {n m : Nat} (f : Fin n → Fin m) (a : Fin n → Act D) (a' : Fin m → Act D) (c : Fin n → Pt α) (c' : Fin m → Pt α),
    SameEntries f a a' → SameEntries f c c' → SameEntries f ((d n).computeUpdate a c) ((d m).computeUpdate a' c')
  inverse : ∀ {n m T : Nat} [NeZero T] (f : Fin n → Fin m) (x : Traj α n T) (x' : Traj α m T) (md : Fin n → ObjMeta)
    (md' : Fin m → ObjMeta) (t : Int), SameEntries f x x' → SameEntries f md md' →
    SameEntries f ((d n).inverse x md t) ((d m).inverse x' md' t)

/-- What a metric says about the real objects, or about the whole scenario, is the same. -/
inductive SameMetric (f : Fin n → Fin m) : MetricArr n → MetricArr m → Prop
  | perObject {r : Fin n → MetricResult} {r' : Fin m → MetricResult} : SameEntries f r r' →
      SameMetric f (.perObject r) (.perObject r')
  | scalar {r : MetricResult} : SameMetric f (.scalar r) (.scalar r)

/-- Two dictionaries of metrics with the same names in the same order and the same results for the real objects. -/
def SameMetrics (f : Fin n → Fin m) (d : Dict (MetricArr n)) (d' : Dict (MetricArr m)) : Prop :=
  List.Forall₂ (fun e e' => e.1 = e'.1 ∧ SameMetric f e.2 e'.2) d d'

/-- Rewards: those of the real objects are the same, padding gets none. -/
def SameRewards (f : Fin n → Fin m) (r : Fin n → ℝ) (r' : Fin m → ℝ) : Prop :=
  SameEntries f r r' ∧ ∀ j, (∀ i, f i ≠ j) → r' j = 0

/-- Two rollout entries that agree on the real objects. -/
structure SameEntry {M R M' R' : Type} (relM : M → M' → Prop) (relR : R → R' → Prop) (f : Fin n → Fin m)
    (e : RolloutEntry (SimState α n T) (Fin n → Act D) (SimState α n T) M R)
    (e' : RolloutEntry (SimState α m T) (Fin m → Act D) (SimState α m T) M' R') : Prop where
  action : SameEntries f e.action e'.action
  state : StoredAs f e.state e'.state
  observation : StoredAs f e.observation e'.observation
  metrics : relM e.metrics e'.metrics
  reward : relR e.reward e'.reward

/-- The configuration for a different number of objects. -/
def EnvConfig.sized (cfg : EnvConfig) (m : Nat) : EnvConfig := { cfg with maxNumObjects := m }

end

/-! ### The planning environment -/

section
variable {D X K P : Type} {n m T : Nat}

/-- States of the planning environment: the same scenario stored differently, and the same internal states of the sim agents. -/
def SamePlan (f : Fin n → Fin m) (s : PlanState X n T) (s' : PlanState X m T) : Prop :=
  StoredAs f s.sim s'.sim ∧ s'.actorStates = s.actorStates

/-- Two sim agents that decide the same for the real objects. -/
structure SameAgent (f : Fin n → Fin m) (A : SimAgent X K P n T) (A' : SimAgent X K P m T) : Prop where
  init : ∀ s s' k, SamePlan f s s' → A'.init k s' = A.init k s
  state : ∀ s s' p x k, SamePlan f s s' → (A'.selectAction p s' x k).actorState = (A.selectAction p s x k).actorState
  action : ∀ s s' p x k, SamePlan f s s' → SameEntries f (A.selectAction p s x k).action (A'.selectAction p s' x k).action
  claims : ∀ s s' p x k, SamePlan f s s' →
    SameEntries f (A.selectAction p s x k).isControlled (A'.selectAction p s' x k).isControlled

/-- Two planning environments with the same settings and agents that decide the same. -/
structure SamePlanEnv (f : Fin n → Fin m) (E : PlanEnv D X K P n T) (E' : PlanEnv D X K P m T) : Prop where
  dynamics : ∀ (a : Act D) (c : Fin n → Pt ℝ) (c' : Fin m → Pt ℝ), SameEntries f c c' →
    SameEntries f (E.dynamics.computeUpdate (fun _ => a) c) (E'.dynamics.computeUpdate (fun _ => a) c')
  cfg : E'.cfg = E.cfg.sized m
  size : E.cfg.maxNumObjects = n
  rewards : E'.rewards = E.rewards
  params : E'.params = E.params
  actors : List.Forall₂ (SameAgent f) E.actors E'.actors

end

end Waymax
