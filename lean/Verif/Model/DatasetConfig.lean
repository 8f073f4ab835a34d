import Mathlib.Init
/-
The configuration of the data set (waymax/config.py).
-/

namespace Waymax

/-- The fields of `DatasetConfig` that matter after reading. waymax/config.py:38-100 -/
structure DatasetConfig where
  includeSdcPaths : Bool := false
  aggregateTimesteps : Bool := true
  maxNumRgPoints : Nat := 30000
  maxNumObjects : Option Int := none
  numPaths : Option Nat := none
  numPointsPerPath : Option Nat := none
  rep : Nat := 1
  batchDims : List Nat := []
  numShards : Nat := 4
  dropRemainder : Bool := true
  distributed : Bool := false
  batchByScenario : Bool := true
  deriving DecidableEq, Repr

end Waymax
