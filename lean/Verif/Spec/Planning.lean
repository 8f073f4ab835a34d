import Verif.Model.Planning
import Verif.Spec.Geometry
/-
Vocabulary for the statements about the planning environment. Nothing here is used by the model.
-/

namespace Waymax

section
variable {D X K P : Type} {n T : Nat}

/-- What sim agent number `k` answers in state `s`: it gets its own parameters, its own internal state and its own random key
(`None` when the step is given no key). `none` if there is no such agent. -/
def agentOutput (E : PlanEnv D X K P n T) (split : K → Nat → List K) (s : PlanState X n T) (rng : Option K) (k : Nat) :
    Option (ActorOutput (Fin n → Act (StateRow ℝ)) X (Fin n → Bool)) :=
  match E.actors[k]?, s.actorStates[k]?, E.params[k]? with
  | some a, some x, some p =>
    match rng with
    | none => some (a.selectAction p s x none)
    | some r => ((split r E.actors.length)[k]?).map fun key => a.selectAction p s x (some key)
  | _, _, _ => none

/-- In the first logged frame the box of object `i` overlaps that of another object (present or not). -/
def StartsOverlapping [NeZero T] (log : Traj ℝ n T) (i : Fin n) : Prop :=
  let interior := fun j => let p := log j 0; rectInterior p.x p.y p.length p.width p.yaw
  ∃ j, j ≠ i ∧ (interior i ∩ interior j).Nonempty

/-- Sim agent `k` claims object `i` with output `o`, and may control it. -/
def Claims [NeZero T] (E : PlanEnv D X K P n T) (split : K → Nat → List K) (s : PlanState X n T) (rng : Option K)
    (i : Fin n) (k : Nat) (o : ActorOutput (Fin n → Act (StateRow ℝ)) X (Fin n → Bool)) : Prop :=
  agentOutput E split s rng k = some o ∧ o.isControlled i = true ∧ ¬ StartsOverlapping s.sim.logTrajectory i

/-- Repeated `env.step` of the planning environment. -/
noncomputable def planMany [NeZero T] (E : PlanEnv D X K P n T) (split : K → Nat → List K) (s : PlanState X n T) :
    List (Act D × Option K) → Except Err (PlanState X n T)
  | [] => .ok s
  | a :: as => do
    let s' ← planStep E split s a.1 a.2
    planMany E split s' as

/-- Object `k` is the one and only SDC. -/
def OnlySdc (md : Fin n → ObjMeta) (k : Fin n) : Prop := ∀ i, (md i).isSdc = true ↔ i = k

end

end Waymax
