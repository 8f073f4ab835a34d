import Verif.Model.Validate
/-
What the data classes promise about their arrays, field by field as documented on each class.
-/

namespace Waymax

/-- The fields of each class in order and what they hold: numbers, whole numbers or flags. -/
def declared : FlatCls → List (String × DType)
  | .roadgraphPoints => [("x", .float32), ("y", .float32), ("z", .float32), ("dir_x", .float32), ("dir_y", .float32), ("dir_z", .float32),
      ("types", .int32), ("ids", .int32), ("valid", .bool)]
  | .objectMetadata => [("ids", .int32), ("object_types", .int32), ("is_sdc", .bool), ("is_modeled", .bool), ("is_valid", .bool),
      ("objects_of_interest", .bool), ("is_controlled", .bool)]
  | .trajectory => [("x", .float32), ("y", .float32), ("z", .float32), ("vel_x", .float32), ("vel_y", .float32), ("yaw", .float32),
      ("valid", .bool), ("timestamp_micros", .int32), ("length", .float32), ("width", .float32), ("height", .float32)]
  | .trafficLights => [("x", .float32), ("y", .float32), ("z", .float32), ("state", .int32), ("lane_ids", .int32), ("valid", .bool)]
  | .trajectoryUpdate => [("x", .float32), ("y", .float32), ("yaw", .float32), ("vel_x", .float32), ("vel_y", .float32), ("valid", .bool)]

end Waymax
