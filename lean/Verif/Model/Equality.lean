import Verif.Model.Nd
/-
`==` on the data classes. A value is an array, `None`, a sequence, or an object of one of the classes with its fields in order.
`chex.dataclass` and `dataclasses` are outside the repository: the decorator adds an `__eq__` that compares the tuples of fields to
every class whose own body defines none, whatever its base class defines. `jax.tree_util.tree_map` raises a ValueError when the second
tree has another structure; `jnp.array_equal` compares shapes and values and ignores data types. Entries are compared by `==` on `α`,
which need not be reflexive (NaN). The two compared objects are taken not to share arrays: Python takes one and the same array to be
equal to itself inside a tuple.
-/

namespace Waymax

/-- The data classes.
waymax/datatypes/object_state.py:30, 126, waymax/datatypes/roadgraph.py:59, waymax/datatypes/simulator_state.py:41 -/
inductive Cls where
  | roadgraphPoints | objectMetadata | trajectory | simulatorState | planningState | paths | trafficLights | pose | observation
  | action | trajectoryUpdate | maskedArray | metricResult
  deriving DecidableEq, Repr

/-- Python values made of arrays. Arguments of waymax/datatypes/operations.py:188-210 -/
inductive PyVal (α : Type) where
  | arr (a : Nd α)
  | none
  | seq (items : List (PyVal α))
  | obj (c : Cls) (fields : List (PyVal α))

/-- What a field holds. waymax/datatypes/simulator_state.py:66-73 -/
inductive Kind where
  | array
  | cls (c : Cls)
  | opt (c : Cls)
  | states

/-- The fields of each class, in order. waymax/datatypes/roadgraph.py:60-96, object_state.py:46-79, object_state.py:127-165,
simulator_state.py:42-76, route.py:25-58, traffic_lights.py:40-67, observation.py:34-74, observation.py:185-230, action.py:26-38,
action.py:55-75, array.py:26-36, waymax/env/planning_agent_environment.py:148-159, waymax/metrics/abstract_metric.py:25-32 -/
def fieldKinds : Cls → List Kind
  | .roadgraphPoints => List.replicate 9 .array
  | .objectMetadata => List.replicate 7 .array
  | .trajectory => List.replicate 11 .array
  | .simulatorState => [.cls .trajectory, .cls .trajectory, .cls .trafficLights, .cls .objectMetadata, .array, .opt .paths,
      .opt .roadgraphPoints]
  | .planningState => [.cls .trajectory, .cls .trajectory, .cls .trafficLights, .cls .objectMetadata, .array, .opt .paths,
      .opt .roadgraphPoints, .states]
  | .paths => List.replicate 7 .array
  | .trafficLights => List.replicate 6 .array
  | .pose => List.replicate 5 .array
  | .observation => [.cls .trajectory, .array, .cls .pose, .cls .objectMetadata, .cls .roadgraphPoints, .cls .trafficLights, .opt .paths]
  | .action => [.array, .array]
  | .trajectoryUpdate => List.replicate 6 .array
  | .maskedArray => [.array, .array]
  | .metricResult => [.array, .array]

/-- The class it is derived from, if any of these. waymax/metrics/abstract_metric.py:26, waymax/env/planning_agent_environment.py:149 -/
def Cls.base : Cls → Option Cls
  | .metricResult => some .maskedArray
  | .planningState => some .simulatorState
  | _ => Option.none

/-- `issubclass`. Used at waymax/datatypes/operations.py:203-208 -/
def Cls.isSub (c d : Cls) : Bool := c == d || c.base == some d

/-- The classes whose body defines `__eq__`. waymax/datatypes/roadgraph.py:129-130, waymax/datatypes/object_state.py:90-91,
waymax/datatypes/object_state.py:211-212, waymax/datatypes/simulator_state.py:108-109, waymax/datatypes/route.py:84-85,
waymax/datatypes/traffic_lights.py:86-87, waymax/datatypes/observation.py:95-96, waymax/datatypes/action.py:45-46,
waymax/datatypes/action.py:82-83, waymax/datatypes/array.py:43-47 -/
def Cls.ownEq : Cls → Bool
  | .planningState | .metricResult | .observation => false
  | _ => true

namespace PyVal
variable {α : Type} [BEq α]

/-- All indices of an array. Used by jnp.array_equal at waymax/datatypes/operations.py:209 -/
def indices : List Nat → List (List Nat)
  | [] => [[]]
  | d :: s => (List.range d).flatMap fun i => (indices s).map (i :: ·)

/-- `jnp.array_equal`. Called at waymax/datatypes/operations.py:190, 209, waymax/datatypes/array.py:46 -/
def arrayEqual (a : Nd α) : PyVal α → Bool
  | .arr b => decide (a.shape = b.shape) && (indices a.shape).all fun idx => a.get idx == b.get idx
  | _ => false

mutual
/-- The list of leaves of `jax.tree_util.tree_map(jnp.array_equal, first, second)`. Called at waymax/datatypes/operations.py:209 -/
def treeFlags : PyVal α → PyVal α → Except Err (List Bool)
  | .arr a, b => .ok [arrayEqual a b]
  | .none, .none => .ok []
  | .seq xs, .seq ys => treeFlagsL xs ys
  | .obj c xs, .obj d ys => if c = d then treeFlagsL xs ys else .error .valueError
  | _, _ => .error .valueError
/-- The leaves of all fields. waymax/datatypes/operations.py:209 -/
def treeFlagsL : List (PyVal α) → List (PyVal α) → Except Err (List Bool)
  | [], [] => .ok []
  | x :: xs, y :: ys => do
    let f ← treeFlags x y
    let fs ← treeFlagsL xs ys
    return f ++ fs
  | _, _ => .error .valueError
end

/-- `isinstance(second, type(first))`, for an object `first`. Called at waymax/datatypes/operations.py:203-208 -/
def isInstance (c : Cls) : PyVal α → Bool
  | .obj d _ => d.isSub c
  | _ => false

/-- `compare_all_leaf_nodes(first, second)` for an object `first` of class `c` and the default comparison; the body of
`MaskedArray.__eq__` is the same. waymax/datatypes/operations.py:183-208, waymax/datatypes/array.py:43-47 -/
def compareAllLeafNodes (c : Cls) (fields : List (PyVal α)) (second : PyVal α) : Except Err Bool :=
  if !isInstance c second then .ok false
  else do
    let flags ← treeFlags (.obj c fields) second
    return flags.all id

/-- `bool(a == b)` of two arrays. Used by the generated comparison of waymax/env/planning_agent_environment.py:148-159 -/
def arrayTruth (a b : Nd α) : Except Err Bool :=
  match Nd.broadcastShape a.shape b.shape with
  | Option.none => .error .typeError
  | some s =>
    if s.prod = 1 then .ok (a.get (Nd.broadcastIdx a.shape (s.map fun _ => 0)) == b.get (Nd.broadcastIdx b.shape (s.map fun _ => 0)))
    else .error .valueError

mutual
/-- The truth value of `first == second`. An `__eq__` written in the class answers for every class of the other side. A generated
`__eq__` answers only for its own class and otherwise leaves the answer to the other side. waymax/datatypes/operations.py:188-210 -/
def pyEq : PyVal α → PyVal α → Except Err Bool
  | .arr a, .arr b => arrayTruth a b
  | .none, .none => .ok true
  | .seq xs, .seq ys => if xs.length = ys.length then pyEqL xs ys else .ok false
  | .obj c xs, .obj d ys =>
    if c.ownEq then compareAllLeafNodes c xs (.obj d ys)
    else if c = d then pyEqL xs ys
    else if d.ownEq then compareAllLeafNodes d ys (.obj c xs)
    else .ok false
  | _, _ => .ok false
/-- Comparison of tuples: the first difference decides. waymax/metrics/abstract_metric.py:25-32 -/
def pyEqL : List (PyVal α) → List (PyVal α) → Except Err Bool
  | x :: xs, y :: ys => do
    let e ← pyEq x y
    if e then pyEqL xs ys else return false
  | _, _ => .ok true
end

end PyVal
end Waymax
