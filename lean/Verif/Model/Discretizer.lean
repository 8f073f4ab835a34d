import Verif.Model.Continuous
/-
Model of waymax/dynamics/discretizer.py over real numbers and unbounded integers (int32 overflow is not modelled).
-/

namespace Waymax

/-- One vector element of a `Discretizer`: minimum, maximum and number of bins. waymax/dynamics/discretizer.py:38-60 -/
structure BinDim where
  lo : ℝ
  hi : ℝ
  bins : ℕ

/-- `jnp.rint`: round to the nearest integer, halves to the even one. Called at waymax/dynamics/discretizer.py:73 -/
noncomputable def rint (x : ℝ) : ℤ :=
  if x - ⌊x⌋ < 1 / 2 then ⌊x⌋
  else if x - ⌊x⌋ > 1 / 2 then ⌊x⌋ + 1
  else if ⌊x⌋ % 2 = 0 then ⌊x⌋ else ⌊x⌋ + 1

/-- The shape check of `Discretizer.__init__` on the shapes of `min_value`, `max_value` and `bins`.
waymax/dynamics/discretizer.py:52-53 -/
def discretizerShapeCheck (minShape maxShape binsShape : List Nat) : Except Err Unit :=
  if minShape ≠ maxShape ∧ minShape ≠ binsShape then .error .valueError else .ok ()

/-- `self._scale`. waymax/dynamics/discretizer.py:58 -/
noncomputable def BinDim.scale (d : BinDim) : ℝ := d.bins / (d.hi - d.lo)

/-- Number of values of a list of dimensions, `jnp.prod(bins + 1)`. waymax/dynamics/discretizer.py:59, 128 -/
def numBins : List BinDim → ℤ
  | [] => 1
  | d :: ds => (d.bins + 1) * numBins ds

/-- The index of one vector element: normalise, clip, round. waymax/dynamics/discretizer.py:73-76 -/
noncomputable def BinDim.index (d : BinDim) (v : ℝ) : ℤ := rint (max (min ((v - d.lo) * d.scale) d.bins) 0)

/-- `jnp.ravel_multi_index(.., bins + 1, mode='clip')`: row-major index, every entry clipped into its range.
waymax/dynamics/discretizer.py:77-81 -/
def ravelMultiIndex : List BinDim → List ℤ → ℤ
  | d :: ds, i :: is => max 0 (min i d.bins) * numBins ds + ravelMultiIndex ds is
  | _, _ => 0

/-- `Discretizer.discretize` of one vector. waymax/dynamics/discretizer.py:61-82 -/
noncomputable def discretize (ds : List BinDim) (v : List ℝ) : Except Err ℤ :=
  if v.length ≠ ds.length then .error .valueError
  else .ok (ravelMultiIndex ds (List.zipWith BinDim.index ds v))

/-- The arithmetic of `jnp.unravel_index` on a clipped index `k`: entry `i` is `k % (d_i ⋯ d_m) // (d_{i+1} ⋯ d_m)`.
Called at waymax/dynamics/discretizer.py:96 -/
def unravelAux : List BinDim → ℤ → List ℤ
  | [], _ => []
  | d :: ds, k => (k % numBins (d :: ds)) / numBins ds :: unravelAux ds k

/-- `jnp.unravel_index(k, bins + 1)`: the index is first clipped into `[-total, total - 1]`.
Called at waymax/dynamics/discretizer.py:96 -/
def unravelIndex (ds : List BinDim) (k : ℤ) : List ℤ :=
  unravelAux ds (max (-numBins ds) (min k (numBins ds - 1)))

/-- `Discretizer.make_continuous` of one index. waymax/dynamics/discretizer.py:84-103 -/
noncomputable def makeContinuous (ds : List BinDim) (k : ℤ) : List ℝ :=
  List.zipWith (fun d (i : ℤ) => (i : ℝ) / d.scale + d.lo) ds (unravelIndex ds k)

/-! ### The action space wrapper -/

/-- The data row of a continuous action as the vector of its elements; `ofRow` reads such a vector back.
waymax/dynamics/discretizer.py:59-104 -/
structure RowCodec (D : Type) where
  toRow : D → List ℝ
  ofRow : List ℝ → D

/-- `DiscreteActionSpaceWrapper.compute_update` and `inverse` with `bin_inverse=True`, for a wrapped model whose action rows are
read by `codec` and whose `action_spec` has the bounds in `ds`. A row of the wrong length cannot occur for a fixed dynamics
model, so its ValueError is replaced by index 0 here. waymax/dynamics/discretizer.py:106-203 -/
noncomputable def discreteWrapper {D : Type} {n : Nat} (d : DynamicsModel ℝ D n) (codec : RowCodec D) (ds : List BinDim) :
    DynamicsModel ℝ ℤ n where
  computeUpdate := fun a cur =>
    d.computeUpdate (fun i => { data := codec.ofRow (makeContinuous ds (a i).data), valid := (a i).valid }) cur
  inverse := fun traj md t i =>
    let a := d.inverse traj md t i
    { data := match discretize ds (codec.toRow a.data) with
        | .ok k => k
        | .error _ => 0
      valid := a.valid }

/-- Bounds of `DiscreteActionSpaceWrapper.action_spec`. waymax/dynamics/discretizer.py:147-151 -/
def inDiscreteSpec (ds : List BinDim) (k : ℤ) : Prop := 0 ≤ k ∧ k ≤ numBins ds - 1

/-- `bbox_corners` of two points as flat vectors, their Euclidean distance.
waymax/dynamics/discretizer.py:293-298, waymax/datatypes/object_state.py:221-230 -/
noncomputable def cornerDistance (p q : Pt ℝ) : ℝ :=
  √(∑ k : Fin 4, (((cornersFromBbox p.box k).1 - (cornersFromBbox q.box k).1) ^ 2 +
    ((cornersFromBbox p.box k).2 - (cornersFromBbox q.box k).2) ^ 2))

/-- `inverse_action_by_search` on one scenario: every discrete action is given to all objects at once, the SDC is the only
controlled object, and each object takes the first action whose box is nearest to its next logged box. `placeholder` is the
discretised zero action. waymax/dynamics/discretizer.py:223-304 -/
noncomputable def inverseActionBySearch {D : Type} {n T : Nat} [NeZero T] (d : DynamicsModel ℝ D n) (codec : RowCodec D)
    (ds : List BinDim) (placeholder : ℤ) (traj : Traj ℝ n T) (md : Fin n → ObjMeta) (t : Int) : Fin n → Act ℤ :=
  fun i =>
    let valid : Fin n → Bool := fun j => (window2 (traj j) t).1.valid && (window2 (traj j) t).2.valid
    let next : ℤ → Pt ℝ := fun k =>
      dynIndex (d.forward (fun j => { data := codec.ofRow (makeContinuous ds k), valid := valid j }) traj traj
        (fun j => (md j).isSdc) t false i) (t + 1)
    let log := dynIndex (traj i) (t + 1)
    let distances := (List.range (numBins ds).toNat).map fun k : ℕ => cornerDistance (next k) log
    let best : ℤ := argmin distances
    { data := if valid i then best else placeholder, valid := valid i }

/-! ### Rows of the built-in models -/

/-- Rows of the delta models. waymax/dynamics/delta.py:59-67 -/
def deltaCodec : RowCodec Delta3 where
  toRow := fun a => [a.dx, a.dy, a.dyaw]
  ofRow := fun r => { dx := r.getD 0 0, dy := r.getD 1 0, dyaw := r.getD 2 0 }

/-- Rows of the bicycle model. waymax/dynamics/bicycle_model.py:143-160 -/
def bicycleCodec : RowCodec AccelSteer where
  toRow := fun a => [a.accel, a.steering]
  ofRow := fun r => { accel := r.getD 0 0, steering := r.getD 1 0 }

/-- The discretiser of a delta model. waymax/dynamics/discretizer.py:130-134 with delta.py:59-67 -/
def deltaDims (P : DeltaParams) (bx by' byaw : ℕ) : List BinDim :=
  [⟨-P.maxDx, P.maxDx, bx⟩, ⟨-P.maxDy, P.maxDy, by'⟩, ⟨-P.maxDyaw, P.maxDyaw, byaw⟩]

/-- The discretiser of a bicycle model. waymax/dynamics/discretizer.py:130-134 with bicycle_model.py:143-160 -/
noncomputable def bicycleDims (P : BicycleParams) (ba bs : ℕ) : List BinDim :=
  [⟨-P.accelBound, P.accelBound, ba⟩, ⟨-P.steeringBound, P.steeringBound, bs⟩]

end Waymax
