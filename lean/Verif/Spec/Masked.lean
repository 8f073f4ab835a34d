import Verif.Model.Masked
import Verif.Props.Axes

/-! What a masked array is for. -/

namespace Waymax

/-- `r` is `value` with the entries of every element that is not valid replaced by `fill`: the leading axes of `value` are those of
`valid`. -/
def MasksEntries {β : Type} (value : Nd β) (valid : Nd Bool) (fill : β) (r : Nd β) : Prop :=
  r.shape = value.shape ∧ ∀ idx, InRange value.shape idx →
    r.get idx = if valid.get (idx.take valid.shape.length) then value.get idx else fill

/-- What one expects: `masked_value` does this for every array that `create_and_validate` accepts. -/
def MaskedArraysWork : Prop :=
  ∀ (β : Type) (value : Nd β) (valid : Nd Bool) (type : DType) (m : MaskedNd β) (fill : β),
    MaskedNd.createAndValidate value valid type = .ok m → ∃ r, m.maskedValue fill = .ok r ∧ MasksEntries value valid fill r

end Waymax
