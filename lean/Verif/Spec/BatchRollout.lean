import Verif.Spec.BatchMetrics
import Verif.Model.BatchRollout
/- Vocabulary for rollouts of batches. -/

namespace Waymax

/-- The two outcomes agree: both succeed with related results, or both raise the same. -/
def ExRel {α β : Type} (R : α → β → Prop) : Except Err α → Except Err β → Prop
  | .ok a, .ok b => R a b
  | .error e, .error e' => e = e'
  | _, _ => False

/-- At batch index `p` the metric of a batch shows the metric `a` of one scenario: one number per object, or one number. -/
def MetricNd.Reads (m : MetricNd) (pre : List Nat) (n : Nat) (p : List Nat) : MetricArr n → Prop
  | .perObject r => m.value.shape = pre ++ [n] ∧ m.valid.shape = pre ++ [n] ∧
      ∀ i, r i = { value := m.value.get (p ++ [i.val]), valid := m.valid.get (p ++ [i.val]) }
  | .scalar r => m.value.shape = pre ∧ m.valid.shape = pre ∧ r = { value := m.value.get p, valid := m.valid.get p }

/-- The same names in the same order, and each metric of the batch shows the metric of the scenario. -/
def MetricsRead (pre : List Nat) (n : Nat) (p : List Nat) (ms : Dict MetricNd) (as : Dict (MetricArr n)) : Prop :=
  List.Forall₂ (fun m a => m.1 = a.1 ∧ m.2.Reads pre n p a.2) ms as

/-- One scenario's entry of a rollout. -/
abbrev ScenarioEntry (D : Type) (n T : Nat) :=
  RolloutEntry (SimState ℝ n T) (Fin n → Act D) (SimState ℝ n T) (Dict (MetricArr n)) (Fin n → ℝ)

/-- Entry `t`, scenario `p` of a stacked rollout of `len` entries is the entry `e` of a rollout of one scenario. -/
structure RolloutNd.Shows {D : Type} (o : RolloutNd) (pre : List Nat) (n T : Nat) (row : (Nat → ℝ) → D) (len t : Nat) (p : List Nat)
    (e : ScenarioEntry D n T) : Prop where
  state : o.state.scenario n T (t :: p) = e.state
  observation : o.observation.scenario n T (t :: p) = e.observation
  action : o.action.scenario row n (t :: p) = e.action
  metrics : MetricsRead (len :: pre) n (t :: p) o.metrics e.metrics
  reward : ∀ i : Fin n, o.reward.data.get (t :: (p ++ [i.val])) = e.reward i

/-- The outcome of a rollout of a batch, with `len` entries, agrees with the rollouts of the single scenarios. -/
def RolloutAgrees {D : Type} (pre : List Nat) (n T dim : Nat) (row : (Nat → ℝ) → D) (len : Nat) (batch : Except Err RolloutNd)
    (single : List Nat → Except Err (List (ScenarioEntry D n T))) : Prop :=
  match batch with
  | .ok o => o.state.Shaped (len :: pre) n T ∧ o.action.Shaped (len :: pre) n dim ∧ o.reward.data.shape = len :: (pre ++ [n]) ∧
      ∀ p, InRange pre p → ∃ es, single p = .ok es ∧ es.length = len ∧ ∀ t (h : t < es.length), o.Shows pre n T row len t p es[t]
  | .error e => ∀ p, InRange pre p → single p = .error e

/-- On trajectories of the documented shapes, `inverse` gives for each scenario the actions of the one-scenario inverse. -/
def InverseNd.Refines {α D : Type} (inverse : InverseNd α) (n dim : Nat) (row : (Nat → α) → D) (d : DynamicsModel α D n) : Prop :=
  ∀ (pre : List Nat) (T : Nat) [NeZero T] (t : TrajNd α) (m : MetaNd) (timestep : Int), 2 ≤ T → t.HasShape (pre ++ [n, T]) →
    ∃ a, inverse t m timestep = .ok a ∧ a.Shaped pre n dim ∧ ∀ p, InRange pre p →
      a.scenario row n p = d.inverse (fun i (k : Fin T) => t.at_ (p ++ [i.val, k.val])) (fun i => m.at_ (p ++ [i.val])) timestep

/-- The `sdc_*` metrics give one number for each scenario, the others one number for each object. -/
def scenarioMetricNames : List String := ["sdc_wrongway", "sdc_progression", "sdc_off_route"]

/-- What the built-in metric of that name needs: `offroad` a map, the `sdc_*` metrics paths, `kinematic_infeasibility` two time steps. -/
def StateNd.Supports {α : Type} (s : StateNd α) (pre : List Nat) (T : Nat) (name : String) : Prop :=
  (name = "offroad" → ∃ M, 0 < M ∧ s.HasRoadgraph pre M) ∧
  (name ∈ scenarioMetricNames → ∃ P M, 0 < P ∧ 0 < M ∧ s.HasPaths pre P M) ∧
  (name = "kinematic_infeasibility" → 2 ≤ T)

/-- The actor for batches chooses, for each scenario of a batch at a common time step, what the actor `single p` chooses for that
scenario. `Q` relates the internal states. -/
structure RaisingActor.Refines {X X' K P C C' D : Type} (act : RaisingActor (StateNd ℝ) (ActNd ℝ) X K P C)
    (single : List Nat → Actor (SimState ℝ n T) (Fin n → Act D) X' K P C') (params : P) (pre : List Nat) (dim : Nat)
    (row : (Nat → ℝ) → D) (Q : List Nat → X → X' → Prop) : Prop where
  init : ∀ k (S : StateNd ℝ), S.Shaped pre n T → S.timestep.shape = [] → ∀ p, InRange pre p →
    Q p (act.init k S) ((single p).init k (S.scenario n T p))
  select : ∀ k (S : StateNd ℝ) x, S.Shaped pre n T → S.timestep.shape = [] → ∃ o, act.selectAction params S x k = .ok o ∧
    o.action.Shaped pre n dim ∧ ∀ p, InRange pre p → ∀ x', Q p x x' →
      o.action.scenario row n p = ((single p).selectAction params (S.scenario n T p) x' k).action ∧
      Q p o.actorState ((single p).selectAction params (S.scenario n T p) x' k).actorState

/-- `jnp.zeros_like` of the actions for one scenario. -/
def zeroActions {D : Type} (row : (Nat → ℝ) → D) (n : Nat) : (Fin n → Act D) → Fin n → Act D :=
  fun _ _ => { data := row fun _ => 0, valid := false }

end Waymax
