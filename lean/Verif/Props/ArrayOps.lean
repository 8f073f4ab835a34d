import Verif.Lemmas.Array
/-
C61: slice update and mask update change exactly what they address.
-/

namespace Waymax

section
variable {β : Type} {T U k : Nat}

/-- For windows inside both arrays: entry `i + d` of the result is entry `j + d` of the update for `d < k`, every other entry is
unchanged. -/
theorem C61_update_window (inputs : Fin T → β) (updates : Fin U → β) (i j k : Nat) (hi : i + k ≤ T) (hj : j + k ≤ U) :
    ∃ r, updateBySliceInDim inputs updates i (some (j : Int)) (some k) = .ok r ∧
      (∀ (d : Nat) (t : Fin T) (u : Fin U), d < k → t.val = i + d → u.val = j + d → r t = updates u) ∧
      (∀ t : Fin T, t.val < i ∨ i + k ≤ t.val → r t = inputs t) := by
  have hs1 := startIdx_of_inRange (dim := T) (size := k) (i := (i : Int)) (by omega) (by omega)
  have hs2 := startIdx_of_inRange (dim := U) (size := k) (i := (j : Int)) (by omega) (by omega)
  rw [Int.toNat_natCast] at hs1 hs2
  unfold updateBySliceInDim
  simp only [show k ≤ U by omega, show k ≤ T by omega, dite_true, if_true, Option.getD_some]
  refine ⟨_, rfl, ?_, ?_⟩
  · intro d t u hd ht hu
    unfold dynUpdateSlice
    simp only [hs1]
    rw [dif_pos (by omega)]
    unfold dynSlice
    congr 1
    apply Fin.ext
    simp only [hs2]
    omega
  · intro t ht
    unfold dynUpdateSlice
    simp only [hs1]
    rw [dif_neg (by omega)]

/-- Without an explicit position in the update the same position as in the inputs is used. -/
theorem C61_default_position (inputs : Fin T → β) (updates : Fin U → β) (i : Int) (size : Option Nat) :
    updateBySliceInDim inputs updates i none size = updateBySliceInDim inputs updates i (some i) size := by
  unfold updateBySliceInDim
  cases size <;> rfl

/-- Without a size the whole update is written. -/
theorem C61_update_whole (inputs : Fin T → β) (updates : Fin U → β) (i : Nat) (hi : i + U ≤ T) (j : Option Int) :
    ∃ r, updateBySliceInDim inputs updates i j none = .ok r ∧
      (∀ (t : Fin T) (u : Fin U), t.val = i + u.val → r t = updates u) ∧
      (∀ t : Fin T, t.val < i ∨ i + U ≤ t.val → r t = inputs t) := by
  have hs1 := startIdx_of_inRange (dim := T) (size := U) (i := (i : Int)) (by omega) (by omega)
  rw [Int.toNat_natCast] at hs1
  unfold updateBySliceInDim
  simp only [show U ≤ T by omega, if_true]
  refine ⟨_, rfl, ?_, ?_⟩
  · intro t u ht
    unfold dynUpdateSlice
    simp only [hs1]
    rw [dif_pos (by omega)]
    congr 1
    apply Fin.ext
    simp only
    omega
  · intro t ht
    unfold dynUpdateSlice
    simp only [hs1]
    rw [dif_neg (by omega)]

/-- Windows longer than one of the arrays are rejected, and nothing else is. -/
theorem C61_rejects_iff (inputs : Fin T → β) (updates : Fin U → β) (i : Int) (j : Option Int) (k : Nat) :
    (∃ e, updateBySliceInDim inputs updates i j (some k) = .error e) ↔ T < k ∨ U < k := by
  unfold updateBySliceInDim
  simp only
  split
  · split
    · simp; omega
    · simp; omega
  · simp; omega

/-- Reading a window inside the array. -/
theorem C61_read (x : Fin T → β) (i : Nat) (hk : k ≤ T) (hi : i + k ≤ T) (d : Fin k) (t : Fin T) (ht : t.val = i + d.val) :
    dynSlice x i k hk d = x t := by
  have hs := startIdx_of_inRange (dim := T) (size := k) (i := (i : Int)) (by omega) (by omega)
  rw [Int.toNat_natCast] at hs
  unfold dynSlice
  congr 1
  apply Fin.ext
  simp only [hs]
  omega

/-- Writing back what was read, at any start index (also out of range, where both are clamped alike), is the identity. -/
theorem C61_write_back (x : Fin T → β) (i : Int) (hk : k ≤ T) : dynUpdateSlice x (dynSlice x i k hk) i = x := by
  funext t
  unfold dynUpdateSlice dynSlice
  split
  · congr 1
    apply Fin.ext
    simp only
    omega
  · rfl

/-- Reading what was written gives it back. -/
theorem C61_read_back (x : Fin T → β) (u : Fin k → β) (i : Int) (hk : k ≤ T) : dynSlice (dynUpdateSlice x u i) i k hk = u := by
  funext d
  have hd := d.isLt
  unfold dynSlice dynUpdateSlice
  rw [dif_pos (by constructor <;> simp)]
  congr 1
  apply Fin.ext
  simp

/-- Writes to disjoint windows commute. -/
theorem C61_disjoint_commute {k' : Nat} (x : Fin T → β) (u : Fin k → β) (v : Fin k' → β) (i j : Nat) (hi : i + k ≤ T)
    (hj : j + k' ≤ T) (hd : i + k ≤ j ∨ j + k' ≤ i) :
    dynUpdateSlice (dynUpdateSlice x u i) v j = dynUpdateSlice (dynUpdateSlice x v j) u i := by
  have hs1 := startIdx_of_inRange (dim := T) (size := k) (i := (i : Int)) (by omega) (by omega)
  have hs2 := startIdx_of_inRange (dim := T) (size := k') (i := (j : Int)) (by omega) (by omega)
  rw [Int.toNat_natCast] at hs1 hs2
  funext t
  unfold dynUpdateSlice
  simp only [hs1, hs2]
  by_cases h1 : i ≤ t.val ∧ t.val < i + k
  · have h2 : ¬ (j ≤ t.val ∧ t.val < j + k') := by omega
    simp only [h1, h2, dite_true, dite_false, and_self]
  · simp only [h1, dite_false]

/-- `update_by_mask` changes exactly the masked entries. -/
theorem C61_mask {ι : Type} (inputs updates : ι → β) (mask : ι → Bool) (i : ι) :
    (mask i = true → updateByMask inputs updates mask i = updates i) ∧
    (mask i = false → updateByMask inputs updates mask i = inputs i) := by
  unfold updateByMask
  constructor <;> intro h <;> simp [h]

/-- Out of range, JAX moves the window inside: the write lands at the nearest position where it fits. -/
theorem C61_clamped (inputs : Fin T → β) (updates : Fin U → β) (i : Nat) (hU : U ≤ T) (hi : T ≤ i + U) (j : Option Int) :
    updateBySliceInDim inputs updates i j none = updateBySliceInDim inputs updates ((T - U : Nat) : Int) j none := by
  have h : startIdx T U (i : Int) = startIdx T U ((T - U : Nat) : Int) := by
    unfold startIdx
    simp only [show ¬ ((i : Int) < 0) by omega, show ¬ (((T - U : Nat) : Int) < 0) by omega, if_false]
    omega
  unfold updateBySliceInDim
  simp only [hU, if_true]
  congr 1
  funext t
  unfold dynUpdateSlice
  simp only [h]

end

/-- Positions 1 and 2 of a five-element array are replaced by positions 0 and 1 of the update. -/
example : ∃ r, updateBySliceInDim (fun t : Fin 5 => t.val) (fun u : Fin 3 => 10 + u.val) 1 (some 0) (some 2) = .ok r ∧
    r 0 = 0 ∧ r 1 = 10 ∧ r 2 = 11 ∧ r 3 = 3 := ⟨_, rfl, rfl, rfl, rfl, rfl⟩

end Waymax
