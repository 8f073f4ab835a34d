import Verif.Spec.BatchRollout
import Verif.Model.BatchPlanning
/- Vocabulary for the planning environment on batches. -/

namespace Waymax

/-- One action of `dim` numbers for each scenario: data of shape `(..., dim)`, validity of shape `(..., 1)`. -/
structure ActNd.OnePerScenario (a : ActNd ℝ) (pre : List Nat) (dim : Nat) : Prop where
  data : a.data.shape = pre ++ [dim]
  valid : a.valid.shape = pre ++ [1]

/-- The action for the scenario at batch index `p`; `row` names the numbers of a row. -/
def ActNd.planner {D : Type} (a : ActNd ℝ) (row : (Nat → ℝ) → D) (p : List Nat) : Act D :=
  { data := row fun k => a.data.get (p ++ [k]), valid := a.valid.get (p ++ [0]) }

section
variable {D X X' K P : Type} {n T : Nat}

/-- At batch index `p` the state of a batch shows the state `s'` of one scenario. `Q p` relates the internal states of the sim agents. All
scenarios are at a common time step. -/
structure PlanStateNd.Shows (s : PlanStateNd X) (pre : List Nat) (n T : Nat) (Q : List Nat → X → X' → Prop) (p : List Nat)
    (s' : PlanState X' n T) : Prop where
  shaped : s.sim.Shaped pre n T
  time : s.sim.timestep.shape = []
  sim : s'.sim = s.sim.scenario n T p
  actors : List.Forall₂ (Q p) s.actorStates s'.actorStates

/-- On batches the sim agent does, for each scenario, what the sim agent `single p` does for that scenario. -/
structure SimAgentNd.Refines (agent : SimAgentNd X K P) (single : List Nat → SimAgent X' K P n T) (params : P) (pre : List Nat)
    (Q : List Nat → X → X' → Prop) : Prop where
  init : ∀ key (s : PlanStateNd X) p (s' : PlanState X' n T), InRange pre p → s.Shows pre n T Q p s' →
    Q p (agent.init key s) ((single p).init key s')
  select : ∀ key (s : PlanStateNd X) x, s.sim.Shaped pre n T → s.sim.timestep.shape = [] →
    ∃ o, agent.selectAction params s x key = .ok o ∧ o.action.Shaped pre n 5 ∧ o.isControlled.shape = pre ++ [n] ∧
      ∀ p (s' : PlanState X' n T) x', InRange pre p → s.Shows pre n T Q p s' → Q p x x' →
        o.action.scenario stateRowOf n p = ((single p).selectAction params s' x' key).action ∧
        (∀ i : Fin n, o.isControlled.get (p ++ [i.val]) = ((single p).selectAction params s' x' key).isControlled i) ∧
        Q p o.actorState ((single p).selectAction params s' x' key).actorState

/-- A sim agent for batches, the sim agents for the single scenarios and their parameters. -/
structure AgentPair (X X' K P : Type) (n T : Nat) where
  batch : SimAgentNd X K P
  single : List Nat → SimAgent X' K P n T
  params : P

/-- The planning environment for batches with these sim agents. -/
def envOfPairs (dn : DynNd ℝ) (cfg : EnvConfig) (rewards : Dict ℝ) (agents : List (AgentPair X X' K P n T)) : PlanEnvNd X K P :=
  { dynamics := dn, cfg, rewards, actors := agents.map AgentPair.batch, params := agents.map AgentPair.params }

/-- The planning environment for the scenario at batch index `p`. -/
def envOfPairsAt (d : DynamicsModel ℝ D n) (cfg : EnvConfig) (rewards : Dict ℝ) (agents : List (AgentPair X X' K P n T)) (p : List Nat) :
    PlanEnv D X' K P n T :=
  { dynamics := d, cfg, rewards, actors := agents.map fun g => g.single p, params := agents.map AgentPair.params }

/-- Repeated `env.step` on batches. -/
noncomputable def planManyNd (E : PlanEnvNd X K P) (split : K → Nat → List K) (s : PlanStateNd X) :
    List (ActNd ℝ × Option K) → Except Err (PlanStateNd X)
  | [] => .ok s
  | a :: as => do
    let s' ← planStepNd E split s a.1 a.2
    planManyNd E split s' as

end

end Waymax
