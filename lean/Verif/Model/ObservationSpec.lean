import Verif.Model.Batch

/-! `DMEnvWrapper.observation_spec` and the observations it describes. -/

namespace Waymax
variable {α : Type}

/-- The shapes of the arrays of a trajectory, each with the name of the array. waymax/datatypes/object_state.py:127-165 -/
def TrajNd.leafShapes (prefix_ : String) (t : TrajNd α) : List (String × List Nat) :=
  [(prefix_ ++ ".x", t.x.shape), (prefix_ ++ ".y", t.y.shape), (prefix_ ++ ".z", t.z.shape), (prefix_ ++ ".vel_x", t.velX.shape),
    (prefix_ ++ ".vel_y", t.velY.shape), (prefix_ ++ ".yaw", t.yaw.shape), (prefix_ ++ ".valid", t.valid.shape),
    (prefix_ ++ ".timestamp_micros", t.timestampMicros.shape), (prefix_ ++ ".length", t.length.shape),
    (prefix_ ++ ".width", t.width.shape), (prefix_ ++ ".height", t.height.shape)]

/-- The shapes of the arrays of the metadata, each with the name of the array. waymax/datatypes/object_state.py:46-78 -/
def MetaNd.leafShapes (m : MetaNd) : List (String × List Nat) :=
  [("object_metadata.ids", m.ids.shape), ("object_metadata.object_types", m.objectTypes.shape),
    ("object_metadata.is_sdc", m.isSdc.shape), ("object_metadata.is_modeled", m.isModeled.shape),
    ("object_metadata.is_valid", m.isValid.shape), ("object_metadata.objects_of_interest", m.objectsOfInterest.shape),
    ("object_metadata.is_controlled", m.isControlled.shape)]

/-- The shapes of the arrays of a simulator state, as `jax.tree_util.tree_map` visits them: a member that is `None` has no arrays.
Simplified: the order of the arrays is that of the declarations; the arrays of the traffic lights, of the paths and of the roadgraph
points, which have equal shapes, are one array of records each; element types are left out.
waymax/datatypes/simulator_state.py:39-72 -/
def StateNd.leafShapes (s : StateNd α) : List (String × List Nat) :=
  s.simTrajectory.leafShapes "sim_trajectory" ++ s.logTrajectory.leafShapes "log_trajectory" ++
    [("log_traffic_light", s.logTrafficLight.shape)] ++ s.objectMetadata.leafShapes ++ [("timestep", s.timestep.shape)] ++
    (match s.sdcPaths with
      | none => []
      | some paths => [("sdc_paths", paths.1.shape), ("sdc_paths.on_route", paths.2.shape)]) ++
    (match s.roadgraphPoints with
      | none => []
      | some points => [("roadgraph_points", points.shape)])

/-- `observe` of both environments: the observation is the state. waymax/env/base_environment.py:94-112,
waymax/env/planning_agent_environment.py:255-273 -/
def observeNd (s : StateNd α) : StateNd α := s

variable [ScalarOps α]

/-- `DMEnvWrapper.observation_spec`: the arrays of the observation after resetting the sample scenario, each without as many leading
axes as that observation has batch axes. waymax/env/wrappers/dm_env_wrapper.py:167-178 -/
def observationSpec (cfg : EnvConfig) (sample : StateNd α) : Except Err (List (String × List Nat)) := do
  let sampleObs := observeNd (← resetNd cfg sample)
  let batchNdim := sampleObs.shape.length
  return sampleObs.leafShapes.map fun leaf => (leaf.1, leaf.2.drop batchNdim)

end Waymax
