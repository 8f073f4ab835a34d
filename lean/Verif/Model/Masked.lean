import Verif.Model.Batch
import Verif.Model.Specs
/-
Model of waymax/datatypes/array.py.
-/

namespace Waymax

/-- `MaskedArray`. The type of the flags is kept, since it is checked; flags of another type count as true where they are not zero.
waymax/datatypes/array.py:26-36 -/
structure MaskedNd (β : Type) where
  value : Nd β
  valid : Nd Bool
  validType : DType

/-- `MaskedArray.shape`. waymax/datatypes/array.py:38-41 -/
def MaskedNd.shape {β : Type} (m : MaskedNd β) : List Nat := m.valid.shape

/-- `MaskedArray.validate`: `chex.assert_equal_shape_prefix` over the axes of the flags, then their type.
waymax/datatypes/array.py:49-52 -/
def MaskedNd.validate {β : Type} (m : MaskedNd β) : Except Err Unit := do
  assertThat (m.value.shape.take m.valid.shape.length = m.valid.shape.take m.valid.shape.length) .assertion
  assertThat (m.validType = .bool) .assertion

/-- `MaskedArray.create_and_validate`. waymax/datatypes/array.py:56-63 -/
def MaskedNd.createAndValidate {β : Type} (value : Nd β) (valid : Nd Bool) (validType : DType) : Except Err (MaskedNd β) := do
  let out : MaskedNd β := { value, valid, validType }
  out.validate
  return out

/-- `MaskedArray.masked_value`: `jnp.where` lines up the flags with the last axes of the values. waymax/datatypes/array.py:65-76 -/
def MaskedNd.maskedValue {β : Type} (m : MaskedNd β) (fillValue : β) : Except Err (Nd β) :=
  let fillArray : Nd β := { shape := m.value.shape, get := fun _ => fillValue }
  Nd.where3 m.valid m.value fillArray

end Waymax
