import Verif.Model.Types
import Verif.Model.BaseEnv
/- Helper lemmas about the array primitives. -/

namespace Waymax

theorem startIdx_of_inRange {dim size : Nat} {i : Int} (h0 : 0 ≤ i) (h1 : i + size ≤ dim) :
    startIdx dim size i = i.toNat := by
  unfold startIdx; simp only; split <;> omega

theorem dynIndex_of_eq {β : Type} {T : Nat} [NeZero T] (x : Fin T → β) {i : Int} {t : Fin T} (h : (t : Int) = i) :
    dynIndex x i = x t := by
  unfold dynIndex dynSlice
  congr 1
  apply Fin.ext
  have ht := t.isLt
  have := startIdx_of_inRange (dim := T) (size := 1) (i := i) (by omega) (by omega)
  simp only [this]
  simp; omega

theorem dynIndex_comp {β γ : Type} {T : Nat} [NeZero T] (f : β → γ) (x : Fin T → β) (i : Int) :
    dynIndex (fun t => f (x t)) i = f (dynIndex x i) := rfl

theorem dynUpdateSlice_one {β : Type} {T : Nat} (x : Fin T → β) (u : Fin 1 → β) {i : Int} {t' : Fin T}
    (h : (t' : Int) = i) (t : Fin T) :
    dynUpdateSlice x u i t = if t = t' then u 0 else x t := by
  unfold dynUpdateSlice
  have ht := t'.isLt
  have := startIdx_of_inRange (dim := T) (size := 1) (i := i) (by omega) (by omega)
  simp only [this]
  by_cases htt : t = t'
  · subst htt
    rw [dif_pos (by omega), if_pos rfl]
    congr 1; apply Fin.ext; simp; omega
  · have : t.val ≠ t'.val := fun hh => htt (Fin.ext hh)
    rw [dif_neg (by omega), if_neg htt]

end Waymax
