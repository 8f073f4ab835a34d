import Verif.Model.Select
import Verif.Spec.Geometry
/-
Facts about the reductions of `Verif.Model.Select`.
-/

namespace Waymax

theorem listMin_le {β : Type} [LinearOrder β] {xs : List (WithTop β)} {x : WithTop β} (h : x ∈ xs) : listMin xs ≤ x := by
  induction xs with
  | nil => simp at h
  | cons a xs ih =>
    rcases List.mem_cons.1 h with rfl | h
    · exact min_le_left _ _
    · exact le_trans (min_le_right _ _) (ih h)

theorem listMin_mem {β : Type} [LinearOrder β] (xs : List (WithTop β)) : listMin xs = ⊤ ∨ listMin xs ∈ xs := by
  induction xs with
  | nil => left; rfl
  | cons a xs ih =>
    have hdef : listMin (a :: xs) = min a (listMin xs) := rfl
    rcases min_choice a (listMin xs) with h | h
    · right; rw [hdef, h]; exact List.mem_cons_self
    · rcases ih with h' | h'
      · left; rw [hdef, h, h']
      · right; rw [hdef, h]; exact List.mem_cons_of_mem _ h'

/-- Either nothing is finite, or the minimum is a finite element below all others. -/
theorem listMin_cases {β : Type} [LinearOrder β] (xs : List (WithTop β)) :
    (listMin xs = ⊤ ∧ ∀ x ∈ xs, x = ⊤) ∨ ∃ d : β, listMin xs = d ∧ (d : WithTop β) ∈ xs ∧ ∀ x ∈ xs, (d : WithTop β) ≤ x := by
  rcases h : listMin xs with _ | d
  · left
    refine ⟨rfl, fun x hx => ?_⟩
    have := listMin_le hx
    rw [h] at this
    exact top_le_iff.1 this
  · right
    refine ⟨d, rfl, ?_, fun x hx => ?_⟩
    · rcases listMin_mem xs with h' | h'
      · rw [h] at h'; exact absurd h' (WithTop.coe_ne_top)
      · rw [h] at h'; exact h'
    · have := listMin_le hx
      rw [h] at this
      exact this

theorem argminAux_spec {β : Type} [LinearOrder β] (xs : List β) :
    match argminAux xs with
    | none => xs = []
    | some (j, v) => xs[j]? = some v ∧ (∀ x ∈ xs, v ≤ x) ∧ ∀ i, i < j → ∀ x, xs[i]? = some x → v < x := by
  induction xs with
  | nil => rfl
  | cons a xs ih =>
    unfold argminAux
    cases h : argminAux xs with
    | none =>
      rw [h] at ih
      subst ih
      simp
    | some jv =>
      obtain ⟨j, v⟩ := jv
      rw [h] at ih
      obtain ⟨h1, h2, h3⟩ := ih
      simp only
      by_cases hva : v < a
      · rw [if_pos hva]
        refine ⟨by simpa using h1, ?_, ?_⟩
        · intro x hx
          rcases List.mem_cons.1 hx with rfl | hx
          · exact hva.le
          · exact h2 x hx
        · intro i hi x hx
          cases i with
          | zero => simp at hx; subst hx; exact hva
          | succ i => exact h3 i (by omega) x (by simpa using hx)
      · rw [if_neg hva]
        refine ⟨by simp, ?_, by omega⟩
        intro x hx
        rcases List.mem_cons.1 hx with rfl | hx
        · exact le_rfl
        · exact le_trans (not_lt.1 hva) (h2 x hx)

/-- `argmin` is the first index of a smallest element. -/
theorem argmin_spec {β : Type} [LinearOrder β] {xs : List β} (hne : xs ≠ []) :
    ∃ v, xs[argmin xs]? = some v ∧ (∀ x ∈ xs, v ≤ x) ∧ ∀ i, i < argmin xs → ∀ x, xs[i]? = some x → v < x := by
  have h := argminAux_spec xs
  unfold argmin
  cases h' : argminAux xs with
  | none => rw [h'] at h; exact absurd h hne
  | some jv => obtain ⟨j, v⟩ := jv; rw [h'] at h; exact ⟨v, h⟩

theorem argmin_lt {β : Type} [LinearOrder β] {xs : List β} (hne : xs ≠ []) : argmin xs < xs.length := by
  obtain ⟨v, hv, -, -⟩ := argmin_spec hne
  exact (List.getElem?_eq_some_iff.1 hv).1

theorem selectByOnehot_eq {R : Type} [NonAssocSemiring R] {n : Nat} (x : Fin n → R) (sel : Fin n → Bool) (k : Fin n)
    (h : ∀ i, sel i = true ↔ i = k) : selectByOnehot x sel = x k := by
  unfold selectByOnehot
  rw [Finset.sum_eq_single k]
  · rw [if_pos ((h k).2 rfl), mul_one]
  · intro i _ hi
    rw [if_neg (fun h' => hi ((h i).1 h')), mul_zero]
  · simp

theorem selectByOnehotBool_eq_exists {n : Nat} (x sel : Fin n → Bool) :
    selectByOnehotBool x sel = true ↔ ∃ i, x i = true ∧ sel i = true := by
  unfold selectByOnehotBool
  rw [decide_eq_true_iff, Ne, Finset.sum_eq_zero_iff]
  constructor
  · intro h
    by_contra hc
    push Not at hc
    apply h
    intro i _
    have := hc i
    by_cases hx : x i = true <;> simp_all
  · rintro ⟨i, h1, h2⟩ h
    have := h i (Finset.mem_univ _)
    simp [h1, h2] at this

theorem selectByOnehotBool_eq {n : Nat} (x sel : Fin n → Bool) (k : Fin n) (h : ∀ i, sel i = true ↔ i = k) :
    selectByOnehotBool x sel = x k := by
  have := selectByOnehotBool_eq_exists x sel
  rw [Bool.eq_iff_iff, this]
  constructor
  · rintro ⟨i, h1, h2⟩
    rw [← (h i).1 h2]; exact h1
  · intro h1
    exact ⟨k, h1, (h k).2 rfl⟩

theorem hypot_eq_dist2 (p q : ℝ × ℝ) : hypot (p.1 - q.1) (p.2 - q.2) = dist2 p q := rfl

theorem hypot_nonneg (a b : ℝ) : 0 ≤ hypot a b := Real.sqrt_nonneg _

theorem hypot_eq_zero {a b : ℝ} : hypot a b = 0 ↔ a = 0 ∧ b = 0 := by
  unfold hypot
  rw [Real.sqrt_eq_zero (by positivity)]
  constructor
  · intro h
    have ha : a ^ 2 = 0 := by nlinarith [sq_nonneg a, sq_nonneg b]
    have hb : b ^ 2 = 0 := by nlinarith [sq_nonneg a, sq_nonneg b]
    exact ⟨by simpa using ha, by simpa using hb⟩
  · rintro ⟨rfl, rfl⟩; simp

theorem hypot_pos {a b : ℝ} (h : ¬(a = 0 ∧ b = 0)) : 0 < hypot a b :=
  lt_of_le_of_ne (hypot_nonneg a b) (fun h' => h (hypot_eq_zero.1 h'.symm))

end Waymax
