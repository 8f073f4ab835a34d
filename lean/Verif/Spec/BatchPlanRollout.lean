import Verif.Spec.BatchPlanning
/- Vocabulary for rollouts of batches in the planning environment. -/

namespace Waymax

/-- One scenario's entry of a rollout in the planning environment. -/
abbrev PlanEntry (D X : Type) (n T : Nat) := RolloutEntry (PlanState X n T) (Act D) (PlanState X n T) (Dict (MetricArr n)) ℝ

/-- Entry `t`, scenario `p` of a stacked rollout of `len` entries is the entry `e` of a rollout of one scenario: one action and one
reward for each scenario. -/
structure RolloutNd.ShowsPlan {D X : Type} (o : RolloutNd) (pre : List Nat) (n T : Nat) (row : (Nat → ℝ) → D) (len t : Nat) (p : List Nat)
    (e : PlanEntry D X n T) : Prop where
  state : o.state.scenario n T (t :: p) = e.state.sim
  observation : o.observation.scenario n T (t :: p) = e.observation.sim
  action : o.action.planner row (t :: p) = e.action
  metrics : MetricsRead (len :: pre) n (t :: p) o.metrics e.metrics
  reward : o.reward.data.get (t :: p) = e.reward

/-- The outcome of a rollout of a batch, with `len` entries, agrees with the rollouts of the single scenarios. -/
def PlanRolloutAgrees {D X : Type} (pre : List Nat) (n T dim : Nat) (row : (Nat → ℝ) → D) (len : Nat) (batch : Except Err RolloutNd)
    (single : List Nat → Except Err (List (PlanEntry D X n T))) : Prop :=
  match batch with
  | .ok o => o.state.Shaped (len :: pre) n T ∧ o.action.OnePerScenario (len :: pre) dim ∧ o.reward.data.shape = len :: pre ∧
      ∀ p, InRange pre p → ∃ es, single p = .ok es ∧ es.length = len ∧ ∀ t (h : t < es.length), o.ShowsPlan pre n T row len t p es[t]
  | .error e => ∀ p, InRange pre p → single p = .error e

/-- The planner for batches chooses, for each scenario of a batch at a common time step, the action that the planner `single p` chooses
for that scenario. `Q` relates the internal states of the sim agents, `R` those of the planner. -/
structure PlannerRefines {D X X' Y Y' J P C C' : Type} {n T : Nat} (act : RaisingActor (PlanStateNd X) (ActNd ℝ) Y J P C)
    (single : List Nat → Actor (PlanState X' n T) (Act D) Y' J P C') (params : P) (pre : List Nat) (dim : Nat) (row : (Nat → ℝ) → D)
    (Q : List Nat → X → X' → Prop) (R : List Nat → Y → Y' → Prop) : Prop where
  init : ∀ k (s : PlanStateNd X) p (s' : PlanState X' n T), InRange pre p → s.Shows pre n T Q p s' →
    R p (act.init k s) ((single p).init k s')
  select : ∀ k (s : PlanStateNd X) y, s.sim.Shaped pre n T → s.sim.timestep.shape = [] → ∃ o, act.selectAction params s y k = .ok o ∧
    o.action.OnePerScenario pre dim ∧ ∀ p (s' : PlanState X' n T) y', InRange pre p → s.Shows pre n T Q p s' → R p y y' →
      o.action.planner row p = ((single p).selectAction params s' y' k).action ∧
      R p o.actorState ((single p).selectAction params s' y' k).actorState

/-- `jnp.zeros_like` of the action for one scenario. -/
def zeroAction {D : Type} (row : (Nat → ℝ) → D) : Act D → Act D := fun _ => { data := row fun _ => 0, valid := false }

/-- In the scenario with object metadata `md`, the sim agent never controls object `k`. -/
def SimAgent.LeavesAlone {X K P : Type} {n T : Nat} (agent : SimAgent X K P n T) (params : P) (md : Fin n → ObjMeta) (k : Fin n) : Prop :=
  ∀ (s : PlanState X n T) x key, s.sim.objectMetadata = md → (agent.selectAction params s x key).isControlled k = false

end Waymax
