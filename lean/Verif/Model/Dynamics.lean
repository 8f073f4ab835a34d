import Verif.Model.Types
/-
Model of waymax/dynamics/abstract_dynamics.py and state_dynamics.py. Shape assertions (abstract_dynamics.py:69-73, 185-187)
are typing facts here.
-/

namespace Waymax

/-- The abstract `DynamicsModel` interface: `compute_update` sees the actions and the current step of all objects, and
`inverse` the full trajectory, metadata and time step. Any model, including user-defined ones, is a value of this type.
waymax/dynamics/abstract_dynamics.py:28-133 -/
structure DynamicsModel (α D : Type) (n : Nat) where
  computeUpdate : (Fin n → Act D) → (Fin n → Pt α) → (Fin n → Upd α)
  inverse : {T : Nat} → [NeZero T] → Traj α n T → (Fin n → ObjMeta) → Int → (Fin n → Act D)

section
variable {α D : Type} [ScalarOps α] {n T : Nat} [NeZero T]

/-- The fallback point: constant velocity, heading along the velocity.
waymax/dynamics/abstract_dynamics.py:187-191 -/
def fallbackPt (c : Pt α) : Pt α :=
  { c with
    x := ScalarOps.add c.x (ScalarOps.mul c.velX ScalarOps.dt)
    y := ScalarOps.add c.y (ScalarOps.mul c.velY ScalarOps.dt)
    yaw := ScalarOps.arctan2 c.velY c.velX }

/-- One controllable field of the replacement dictionary.
waymax/dynamics/abstract_dynamics.py:209-226 -/
def newField (useFallback isControlled updValid : Bool) (upd fallback default : α) : α :=
  if useFallback then
    let newValue := if updValid then upd else fallback
    if isControlled then newValue else default
  else
    if isControlled then upd else default

/-- `next_valid`. waymax/dynamics/abstract_dynamics.py:228-241 -/
def nextValid (allowInjection isControlled curValid refValid : Bool) : Bool :=
  let existAndControlled := isControlled && curValid
  let nv := if existAndControlled then curValid else curValid && refValid
  if allowInjection then (if existAndControlled then nv else refValid) else nv

/-- `updated_traj` for one object: the current point with the replaced fields.
waymax/dynamics/abstract_dynamics.py:208-246 -/
def updatedPt (useFallback allowInjection isControlled : Bool) (u : Upd α) (cur ref : Pt α) : Pt α :=
  let fb := fallbackPt cur
  { cur with
    x := newField useFallback isControlled u.valid u.x fb.x ref.x
    y := newField useFallback isControlled u.valid u.y fb.y ref.y
    yaw := newField useFallback isControlled u.valid u.yaw fb.yaw ref.yaw
    velX := newField useFallback isControlled u.valid u.velX fb.velX ref.velX
    velY := newField useFallback isControlled u.valid u.velY fb.velY ref.velY
    valid := nextValid allowInjection isControlled cur.valid ref.valid
    timestampMicros := ref.timestampMicros }

/-- `apply_trajectory_update_to_state`. waymax/dynamics/abstract_dynamics.py:136-256. The final
`update_by_slice_in_dim(updates_start_idx=0, slice_size=1)` on a one-step update is the write of that step. -/
def applyTrajectoryUpdate (upd : Fin n → Upd α) (sim ref : Traj α n T) (isControlled : Fin n → Bool)
    (timestep : Int) (allowInjection : Bool := false) (useFallback : Bool := false) : Traj α n T :=
  fun i =>
    let cur := dynIndex (sim i) timestep
    let dflt := dynIndex (ref i) (timestep + 1)
    let new := updatedPt useFallback allowInjection (isControlled i) (upd i) cur dflt
    dynUpdateSlice (sim i) (dynSlice (T := 1) (fun _ => new) 0 1 (Nat.le_refl 1)) (timestep + 1)

/-- `DynamicsModel.forward`. waymax/dynamics/abstract_dynamics.py:36-85 -/
def DynamicsModel.forward (d : DynamicsModel α D n) (action : Fin n → Act D) (traj ref : Traj α n T)
    (isControlled : Fin n → Bool) (timestep : Int) (allowInjection : Bool := false) : Traj α n T :=
  let current := fun i => dynIndex (traj i) timestep
  applyTrajectoryUpdate (d.computeUpdate action current) traj ref isControlled timestep allowInjection

end

/-- `StateDynamics.compute_update` for one object. waymax/dynamics/state_dynamics.py:39-65 -/
def stateUpdate {α : Type} (a : Act (StateRow α)) : Upd α :=
  { x := a.data.x, y := a.data.y, yaw := a.data.yaw, velX := a.data.velX, velY := a.data.velY, valid := a.valid }

/-- `StateDynamics.inverse` for one object: the fields and the validity of step `timestep + 1`.
waymax/dynamics/state_dynamics.py:67-95 -/
def stateInverse {α : Type} {T : Nat} [NeZero T] (traj : Fin T → Pt α) (timestep : Int) : Act (StateRow α) :=
  let p := dynIndex traj (timestep + 1)
  { data := { x := p.x, y := p.y, yaw := p.yaw, velX := p.velX, velY := p.velY }, valid := p.valid }

/-- `StateDynamics`. waymax/dynamics/state_dynamics.py:24-95 -/
def stateDynamics {α : Type} {n : Nat} : DynamicsModel α (StateRow α) n where
  computeUpdate := fun a _ i => stateUpdate (a i)
  inverse := fun traj _ t i => stateInverse (traj i) t

end Waymax
