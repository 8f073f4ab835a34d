import Verif.Model.Nd
import Mathlib.Data.List.Forall2
import Mathlib.Algebra.BigOperators.Group.Finset.Basic
import Mathlib.Algebra.Order.BigOperators.Group.Finset
import Mathlib.Algebra.BigOperators.Ring.Finset
import Mathlib.Tactic.Linarith
import Mathlib.Tactic.Ring
/-
Properties of the functions on arrays with several axes. C62: batched reward. C81: Observation.for_obj. C83: masked_mean.
C84: select_by_onehot. C85: batched planning metrics.
-/

namespace Waymax

/-! ### Vocabulary -/

/-- `idx` addresses an entry of an array of shape `shape`. -/
def InRange (shape idx : List Nat) : Prop := List.Forall₂ (fun d i => i < d) shape idx

/-- The same array: same shape, same entries. -/
def SameNd {β : Type} (x y : Nd β) : Prop := x.shape = y.shape ∧ ∀ idx, InRange x.shape idx → x.get idx = y.get idx

theorem InRange.length {s idx : List Nat} (h : InRange s idx) : s.length = idx.length := List.Forall₂.length_eq h

/-! ### Broadcasting -/

theorem broadcastRev_self (s : List Nat) : Nd.broadcastRev s s = some s := by
  induction s with
  | nil => rfl
  | cons a s ih => simp [Nd.broadcastRev, ih]

theorem broadcastShape_self (s : List Nat) : Nd.broadcastShape s s = some s := by
  simp [Nd.broadcastShape, broadcastRev_self]

theorem zipWith_inRange {s idx : List Nat} (h : InRange s idx) :
    List.zipWith (fun d i => if d = 1 then 0 else i) s idx = idx := by
  induction h with
  | nil => rfl
  | cons h _ ih =>
    rw [List.zipWith_cons_cons, ih]
    congr 1
    split <;> omega

theorem broadcastIdx_self {s idx : List Nat} (h : InRange s idx) : Nd.broadcastIdx s idx = idx := by
  unfold Nd.broadcastIdx
  rw [h.length, Nat.sub_self, List.drop_zero, zipWith_inRange h]

theorem zip_same {β γ δ : Type} (f : β → γ → δ) {x : Nd β} {y : Nd γ} (h : x.shape = y.shape) :
    ∃ r, Nd.zip f x y = .ok r ∧ r.shape = x.shape ∧ ∀ idx, InRange x.shape idx → r.get idx = f (x.get idx) (y.get idx) := by
  unfold Nd.zip
  rw [← h, broadcastShape_self]
  refine ⟨_, rfl, rfl, fun idx hidx => ?_⟩
  simp only [broadcastIdx_self hidx]

theorem normAxis_last {r : Nat} (h : 0 < r) : Nd.normAxis r (-1) = .ok (r - 1) := by
  unfold Nd.normAxis
  simp only [show (-1 : Int) < 0 by omega, if_true]
  rw [if_pos (by omega)]
  congr 1
  omega

theorem normAxis_nonneg {r a : Nat} (h : a < r) : Nd.normAxis r (a : Int) = .ok a := by
  unfold Nd.normAxis
  simp only [show ¬ ((a : Int) < 0) by omega, if_false]
  rw [if_pos (by omega)]
  simp

/-! ### C81: Observation.for_obj -/

/-- `for_obj(i)` on an observation of shape `pre ++ [m]`: every leaf keeps exactly the `i`-th entry of the observer axis. -/
def ForObjSelects (β : Type) (pre : List Nat) (m : Nat) (rest : List Nat) : Prop :=
  ∀ (leaf : Nd β), leaf.shape = pre ++ m :: rest → ∀ i < m,
    ∃ r, forObjLeaf (pre ++ [m]) i leaf = .ok r ∧ r.shape = pre ++ 1 :: rest ∧
      ∀ p q, InRange pre p → InRange rest q → r.get (p ++ 0 :: q) = leaf.get (p ++ i :: q)

theorem modify_append_cons {p q : List Nat} {k : Nat} {f : Nat → Nat} (h : p.length = k) (a : Nat) :
    (p ++ a :: q).modify k f = p ++ f a :: q := by
  subst h
  induction p with
  | nil => rfl
  | cons b p ih => simp [ih]

theorem set_append_cons {p q : List Nat} {k a b : Nat} (h : p.length = k) : (p ++ a :: q).set k b = p ++ b :: q := by
  subst h
  rw [List.set_append_right _ _ (le_refl _)]
  simp

theorem getD_append_cons {p q : List Nat} {k a : Nat} (h : p.length = k) : (p ++ a :: q).getD k 0 = a := by
  subst h
  simp [List.getD_eq_getElem?_getD]

/-- Slicing one entry of an axis that exists: what the result is. -/
theorem slice_one {β : Type} {x : Nd β} {pre rest : List Nat} {d : Nat} (hs : x.shape = pre ++ d :: rest) {axis : Int}
    (ha : Nd.normAxis x.shape.length axis = .ok pre.length) (hd : 0 < d) (i : Int) :
    ∃ r, x.sliceInDim i 1 axis = .ok r ∧ r.shape = pre ++ 1 :: rest ∧
      ∀ p q, InRange pre p → r.get (p ++ 0 :: q) = x.get (p ++ startIdx d 1 i :: q) := by
  unfold Nd.sliceInDim
  rw [ha]
  simp only [bind, Except.bind]
  rw [hs, getD_append_cons rfl, if_pos (by omega)]
  refine ⟨_, rfl, set_append_cons rfl, fun p q hp => ?_⟩
  simp only
  rw [modify_append_cons hp.length.symm, Nat.zero_add]

/-- Without batch axes, `for_obj` cuts the LAST axis of every leaf: all observers are kept, and of the last axis (time steps,
points, coordinates, ...) only one entry. -/
theorem C81_exact_unbatched {β : Type} (m : Nat) (rest : List Nat) (d : Nat) (hd : 0 < d) (leaf : Nd β)
    (hs : leaf.shape = (m :: rest) ++ [d]) (i : Nat) :
    ∃ r, forObjLeaf [m] i leaf = .ok r ∧ r.shape = (m :: rest) ++ [1] ∧
      ∀ p, InRange (m :: rest) p → r.get (p ++ [0]) = leaf.get (p ++ [min i (d - 1)]) := by
  have ha : Nd.normAxis leaf.shape.length ((([m] : List Nat).length : Int) - 2) = .ok (m :: rest).length := by
    rw [show ((([m] : List Nat).length : Int) - 2) = -1 by simp, normAxis_last (by rw [hs]; simp), hs]
    simp
  obtain ⟨r, h1, h2, h3⟩ := slice_one (rest := []) hs ha hd (i : Int)
  refine ⟨r, h1, h2, fun p hp => ?_⟩
  rw [h3 p [] hp]
  congr 3
  unfold startIdx
  simp only [show ¬ ((i : Int) < 0) by omega, if_false]
  omega

/-- With batch axes, `for_obj(i)` cuts the last batch axis: it picks scenario `i` and keeps all observers. -/
theorem C81_exact_batched {β : Type} (pre : List Nat) (B m : Nat) (rest : List Nat) (hB : 0 < B) (leaf : Nd β)
    (hs : leaf.shape = pre ++ B :: m :: rest) (i : Nat) :
    ∃ r, forObjLeaf (pre ++ [B, m]) i leaf = .ok r ∧ r.shape = pre ++ 1 :: m :: rest ∧
      ∀ p q, InRange pre p → r.get (p ++ 0 :: q) = leaf.get (p ++ min i (B - 1) :: q) := by
  have ha : Nd.normAxis leaf.shape.length (((pre ++ [B, m]).length : Int) - 2) = .ok pre.length := by
    rw [show (((pre ++ [B, m]).length : Int) - 2) = (pre.length : Int) by simp]
    exact normAxis_nonneg (by rw [hs]; simp)
  obtain ⟨r, h1, h2, h3⟩ := slice_one hs ha hB (i : Int)
  refine ⟨r, h1, h2, fun p q hp => ?_⟩
  rw [h3 p q hp]
  congr 3
  unfold startIdx
  simp only [show ¬ ((i : Int) < 0) by omega, if_false]
  omega

/-- The property fails: for two observers of two objects, `for_obj(1)` returns both observers' rows of object 1. -/
theorem C81_violated : ¬ ∀ pre m rest, ForObjSelects Nat pre m rest := by
  intro hall
  obtain ⟨r, h1, h2, -⟩ := hall [] 2 [2] ⟨[2, 2], fun _ => 0⟩ rfl 1 (by omega)
  obtain ⟨r', h1', h2', -⟩ := C81_exact_unbatched 2 [] 2 (by omega) (⟨[2, 2], fun _ => 0⟩ : Nd Nat) rfl 1
  have := Except.ok.inj (h1.symm.trans h1')
  subst this
  rw [h2] at h2'
  simp at h2'

/-- It also fails with a batch axis, for every leaf. -/
theorem C81_violated_batched (B m : Nat) (rest : List Nat) (hB : 1 < B) (hm : 1 < m) :
    ¬ ForObjSelects Nat [B] m rest := by
  intro hall
  obtain ⟨r, h1, h2, -⟩ := hall ⟨B :: m :: rest, fun _ => 0⟩ rfl 0 (by omega)
  obtain ⟨r', h1', h2', -⟩ := C81_exact_batched [] B m rest (by omega) (⟨B :: m :: rest, fun _ => 0⟩ : Nd Nat) rfl 0
  have := Except.ok.inj (h1.symm.trans h1')
  subst this
  rw [h2] at h2'
  simp at h2'
  omega

/-- Only leaves without any axis besides the observer axis, in an unbatched observation, are selected as documented. Missing: all
others, e.g. trajectories, metadata and road graph. -/
theorem C81_scalar_leaf_partial (β : Type) (m : Nat) : ForObjSelects β [] m [] := by
  intro leaf hs i hi
  have ha : Nd.normAxis leaf.shape.length (((([] ++ [m]) : List Nat).length : Int) - 2) = .ok ([] : List Nat).length := by
    rw [hs]; rfl
  obtain ⟨r, h1, h2, h3⟩ := slice_one hs ha (by omega) (i : Int)
  refine ⟨r, h1, h2, fun p q hp _ => ?_⟩
  rw [h3 p q hp]
  congr 3
  unfold startIdx
  simp only [show ¬ ((i : Int) < 0) by omega, if_false]
  omega

/-! ### C83: masked_mean -/

/-- The mean of the entries `f k`, `k < d`, with `v k`; `bad` when there are none. -/
noncomputable def meanOfValid (d : Nat) (f : Nat → ℝ) (v : Nat → Bool) (bad : ℝ) : ℝ :=
  let S := (Finset.range d).filter fun k => v k = true
  if S = ∅ then bad else (∑ k ∈ S, f k) / S.card

/-- The documented behaviour for axis `a` of an array: every entry of the result is the mean of the valid entries along that axis
through its position. -/
def MaskedMeanAlong (pre : List Nat) (d : Nat) (rest : List Nat) (axis : Int) : Prop :=
  ∀ (x : Nd ℝ) (valid : Nd Bool) (bad : ℝ), x.shape = pre ++ d :: rest → valid.shape = x.shape →
    ∃ r, maskedMeanNd x valid axis bad = .ok r ∧ r.shape = x.shape ∧
      ∀ p k q, InRange pre p → k < d → InRange rest q →
        r.get (p ++ k :: q) = meanOfValid d (fun j => x.get (p ++ j :: q)) (fun j => valid.get (p ++ j :: q)) bad

theorem list_sum_range {f : Nat → ℝ} (d : Nat) : ((List.range d).map f).sum = ∑ k ∈ Finset.range d, f k := by
  induction d with
  | zero => simp
  | succ d ih => rw [List.range_succ, List.map_append, List.sum_append, ih, Finset.sum_range_succ]; simp

theorem insertIdx_end {p : List Nat} {k : Nat} (j : Nat) (h : p.length = k) : p.insertIdx k j = p ++ [j] := by
  subst h
  induction p with
  | nil => rfl
  | cons a p ih => simp [ih]

theorem eraseIdx_end {p : List Nat} {k d : Nat} (h : p.length = k) : (p ++ [d]).eraseIdx k = p := by
  subst h
  induction p with
  | nil => rfl
  | cons a p ih => simp [ih]

theorem sumAxis_last {x : Nd ℝ} {pre : List Nat} {d : Nat} (hs : x.shape = pre ++ [d]) :
    ∃ r, x.sumAxis (-1) = .ok r ∧ r.shape = pre ∧
      ∀ p, InRange pre p → r.get p = ∑ k ∈ Finset.range d, x.get (p ++ [k]) := by
  unfold Nd.sumAxis
  rw [normAxis_last (by rw [hs]; simp)]
  have hl : x.shape.length - 1 = pre.length := by rw [hs]; simp
  simp only [bind, Except.bind, hl]
  rw [hs]
  refine ⟨_, rfl, eraseIdx_end rfl, fun p hp => ?_⟩
  simp only
  rw [getD_append_cons rfl, list_sum_range]
  refine Finset.sum_congr rfl fun k _ => ?_
  rw [insertIdx_end k hp.length.symm]

theorem broadcastShape_last_one (pre : List Nat) (d : Nat) :
    Nd.broadcastShape (pre ++ [1]) (pre ++ [d]) = some (pre ++ [d]) := by
  simp only [Nd.broadcastShape, List.reverse_append, List.reverse_cons, List.reverse_nil, List.nil_append, List.cons_append,
    Nd.broadcastRev, broadcastRev_self]
  by_cases h : 1 = d
  · subst h; simp
  · simp [h]

theorem broadcastIdx_last_one {pre p : List Nat} (hp : InRange pre p) (k : Nat) :
    Nd.broadcastIdx (pre ++ [1]) (p ++ [k]) = p ++ [0] := by
  unfold Nd.broadcastIdx
  have := hp.length
  have h0 : (p ++ [k]).length - (pre ++ [1]).length = 0 := by simp; omega
  rw [h0, List.drop_zero, List.zipWith_append this, zipWith_inRange hp]
  rfl

/-- Along the last axis (`axis=-1`), as the data loader calls it, `masked_mean` is right. Missing: other axes, the default `axis=0`
among them. -/
theorem C83_last_axis_partial (pre : List Nat) (d : Nat) : MaskedMeanAlong pre d [] (-1) := by
  intro x valid bad hx hv
  have hvs : valid.shape = pre ++ [d] := hv.trans hx
  obtain ⟨cnt, hc1, hc2, hc3⟩ := sumAxis_last (x := valid.map fun v => if v then (1 : ℝ) else 0) hvs
  obtain ⟨msk, hm1, hm2, hm3⟩ := zip_same (fun a (v : Bool) => if v then a else (0 : ℝ)) hv.symm
  obtain ⟨sm, hs1, hs2, hs3⟩ := sumAxis_last (x := msk) (hm2.trans hx)
  obtain ⟨mn, hn1, hn2, hn3⟩ := zip_same (fun s c : ℝ => if c = 0 then bad else s / c) (hs2.trans hc2.symm)
  have hcalc : maskedMeanNd x valid (-1) bad = mn.expandLast.broadcastTo x.shape := by
    unfold maskedMeanNd
    simp only [hc1, hm1, hs1, hn1, bind, Except.bind]
  have hsh : mn.expandLast.shape = pre ++ [1] := by show mn.shape ++ [1] = _; rw [hn2, hs2]
  rw [hcalc]
  unfold Nd.broadcastTo
  rw [hsh, hx, broadcastShape_last_one, if_pos rfl]
  refine ⟨_, rfl, rfl, fun p k q hp hk hq => ?_⟩
  cases hq
  simp only [broadcastIdx_last_one hp]
  have hmn : mn.expandLast.get (p ++ [0]) = mn.get p := by show mn.get (p ++ [0]).dropLast = _; simp
  rw [hmn, hn3 p (by rw [hs2]; exact hp), hc3 p hp, hs3 p hp]
  have hin : ∀ j < d, InRange x.shape (p ++ [j]) := by
    intro j hj
    rw [hx]
    exact List.rel_append hp (List.Forall₂.cons hj List.Forall₂.nil)
  have hcard : (∑ j ∈ Finset.range d, (valid.map fun v => if v then (1 : ℝ) else 0).get (p ++ [j])) =
      (((Finset.range d).filter fun j => valid.get (p ++ [j]) = true).card : ℝ) := by
    exact Finset.sum_boole _ _
  have hsum : (∑ j ∈ Finset.range d, msk.get (p ++ [j])) =
      ∑ j ∈ (Finset.range d).filter fun j => valid.get (p ++ [j]) = true, x.get (p ++ [j]) := by
    rw [Finset.sum_filter]
    refine Finset.sum_congr rfl fun j hj => ?_
    rw [hm3 _ (hin j (Finset.mem_range.1 hj))]
  rw [hcard, hsum]
  unfold meanOfValid
  simp only [Nat.cast_eq_zero, Finset.card_eq_zero]

/-- A 2 × 2 mask with every entry valid. -/
def allValid22 : Nd Bool := ⟨[2, 2], fun _ => true⟩

/-- The 2 × 2 matrix with rows (0, 1) and (0, 1). -/
noncomputable def colsZeroOne : Nd ℝ := ⟨[2, 2], fun idx => (idx.getD 1 0 : ℕ)⟩

/-- With the default `axis=0` the column means end up in the rows: for the matrix with rows (0, 1) and (0, 1) the result has rows
(0, 0) and (1, 1). -/
theorem C83_default_axis_exact : ∃ r, maskedMeanNd colsZeroOne allValid22 0 = .ok r ∧ r.shape = [2, 2] ∧
    r.get [0, 0] = 0 ∧ r.get [0, 1] = 0 ∧ r.get [1, 0] = 1 ∧ r.get [1, 1] = 1 := by
  refine ⟨_, rfl, rfl, ?_⟩
  simp [Nd.expandLast, Nd.broadcastIdx, Nd.map, colsZeroOne, allValid22, List.range_succ]
  norm_num

theorem C83_violated : ¬ ∀ pre d rest, MaskedMeanAlong pre d rest (pre.length : Int) := by
  intro hall
  obtain ⟨r, h1, -, h3⟩ := hall [] 2 [2] colsZeroOne allValid22 (-1) rfl rfl
  obtain ⟨r', h1', -, -, h01, -, -⟩ := C83_default_axis_exact
  have := Except.ok.inj (h1.symm.trans h1')
  subst this
  have h := h3 [] 0 [1] List.Forall₂.nil (by omega) (List.Forall₂.cons (by omega) List.Forall₂.nil)
  simp only [List.nil_append] at h
  rw [h01] at h
  simp [meanOfValid, colsZeroOne, allValid22, Finset.sum_range_succ] at h

/-- On a matrix that is not square the default axis raises. -/
theorem C83_default_axis_raises (x : Nd ℝ) (valid : Nd Bool) (a b : Nat) (hx : x.shape = [a, b]) (hv : valid.shape = [a, b])
    (hab : a ≠ b) (hb : b ≠ 1) (bad : ℝ) : maskedMeanNd x valid 0 bad = .error .valueError := by
  have hsum : ∀ y : Nd ℝ, y.shape = [a, b] → ∃ r, y.sumAxis 0 = .ok r ∧ r.shape = [b] := by
    intro y hy
    unfold Nd.sumAxis Nd.normAxis
    rw [hy]
    exact ⟨_, rfl, rfl⟩
  obtain ⟨cnt, hc1, hc2⟩ := hsum (valid.map fun v => if v then (1 : ℝ) else 0) hv
  obtain ⟨msk, hm1, hm2, -⟩ := zip_same (fun a (v : Bool) => if v then a else (0 : ℝ)) (hx.trans hv.symm)
  obtain ⟨sm, hs1, hs2⟩ := hsum msk (hm2.trans hx)
  obtain ⟨mn, hn1, hn2, -⟩ := zip_same (fun s c : ℝ => if c = 0 then bad else s / c) (hs2.trans hc2.symm)
  have hsh : mn.expandLast.shape = [b, 1] := by show mn.shape ++ [1] = _; rw [hn2, hs2]; rfl
  unfold maskedMeanNd
  simp only [hc1, hm1, hs1, hn1, bind, Except.bind]
  unfold Nd.broadcastTo
  rw [hsh, hx, if_neg]
  simp only [Nd.broadcastShape, Nd.broadcastRev, List.reverse_cons, List.reverse_nil, List.nil_append, List.cons_append]
  have hba : ¬ b = a := fun h => hab h.symm
  by_cases ha : a = 1
  · subst ha
    by_cases h1 : 1 = b
    · exact absurd h1.symm hb
    · simp [hb, h1]
  · by_cases h1 : 1 = b
    · exact absurd h1.symm hb
    · simp [hb, hba, ha]

/-! ### C84: select_by_onehot -/

/-- Row `p` of the selection is one-hot at `k`. -/
def OneHotAt (sel : Nd Bool) (p : List Nat) (n k : Nat) : Prop := k < n ∧ ∀ j < n, sel.get (p ++ [j]) = true ↔ j = k

theorem sum_onehot {f : Nat → ℝ} {v : Nat → Bool} {n k : Nat} (hk : k < n) (h : ∀ j < n, v j = true ↔ j = k) :
    ((List.range n).map fun j => f j * if v j then (1 : ℝ) else 0).sum = f k := by
  rw [list_sum_range, Finset.sum_eq_single k]
  · rw [if_pos ((h k hk).2 rfl), mul_one]
  · intro j hj hjk
    rw [if_neg fun hv => hjk ((h j (Finset.mem_range.1 hj)).1 hv), mul_zero]
  · exact fun hn => absurd (Finset.mem_range.2 hk) hn

/-- With any batch axes `pre` and any trailing axes `rest`: where the selection row is one-hot, exactly the selected entry is
returned, with the axis removed or kept with length 1. -/
theorem C84_select (pre : List Nat) (n : Nat) (rest : List Nat) (x : Nd ℝ) (sel : Nd Bool)
    (hx : x.shape = pre ++ n :: rest) (hs : sel.shape = pre ++ [n]) :
    (∃ r, selectByOnehotNd x sel false = .ok r ∧ r.shape = pre ++ rest ∧
      ∀ p q k, InRange pre p → OneHotAt sel p n k → r.get (p ++ q) = x.get (p ++ k :: q)) ∧
    (∃ r, selectByOnehotNd x sel true = .ok r ∧ r.shape = pre ++ 1 :: rest ∧
      ∀ p q k, InRange pre p → OneHotAt sel p n k → r.get (p ++ 0 :: q) = x.get (p ++ k :: q)) := by
  have hr : sel.shape.length = pre.length + 1 := by rw [hs]; simp
  have htake : x.shape.take (pre.length + 1) = sel.shape := by
    rw [hx, hs, List.take_append]
    simp
  have hn : sel.shape.getD pre.length 0 = n := by rw [hs]; exact getD_append_cons rfl
  have herase : (pre ++ n :: rest).eraseIdx pre.length = pre ++ rest := by
    rw [List.eraseIdx_append_of_length_le (le_refl _)]
    simp
  unfold selectByOnehotNd
  simp only [hr, htake, if_true, Nat.add_sub_cancel, hn, show ¬ (pre.length + 1 = 0) by omega, if_false]
  refine ⟨⟨_, rfl, ?_, ?_⟩, ⟨_, rfl, ?_, ?_⟩⟩
  · simp only [Bool.false_eq_true, if_false]
    rw [hx, herase]
  · intro p q k hp hk
    simp only [Bool.false_eq_true, if_false]
    rw [hp.length, List.take_left, List.drop_left]
    exact sum_onehot (f := fun j => x.get (p ++ j :: q)) hk.1 hk.2
  · simp only [if_true]
    rw [hx, set_append_cons rfl]
  · intro p q k hp hk
    simp only [if_true]
    rw [hp.length, List.take_left, show List.drop (p.length + 1) (p ++ 0 :: q) = q by
      rw [List.drop_append]; simp]
    exact sum_onehot (f := fun j => x.get (p ++ j :: q)) hk.1 hk.2

/-- Where no entry of the row is selected, the result is zero. -/
theorem C84_select_none (pre : List Nat) (n : Nat) (rest : List Nat) (x : Nd ℝ) (sel : Nd Bool)
    (hx : x.shape = pre ++ n :: rest) (hs : sel.shape = pre ++ [n]) :
    ∃ r, selectByOnehotNd x sel false = .ok r ∧
      ∀ p q, InRange pre p → (∀ j < n, sel.get (p ++ [j]) = false) → r.get (p ++ q) = 0 := by
  have hr : sel.shape.length = pre.length + 1 := by rw [hs]; simp
  have htake : x.shape.take (pre.length + 1) = sel.shape := by
    rw [hx, hs, List.take_append]
    simp
  have hn : sel.shape.getD pre.length 0 = n := by rw [hs]; exact getD_append_cons rfl
  unfold selectByOnehotNd
  simp only [hr, htake, if_true, Nat.add_sub_cancel, hn, show ¬ (pre.length + 1 = 0) by omega, if_false]
  refine ⟨_, rfl, fun p q hp h => ?_⟩
  simp only [Bool.false_eq_true, if_false]
  rw [hp.length, List.take_left, List.drop_left, list_sum_range]
  refine Finset.sum_eq_zero fun j hj => ?_
  rw [h j (Finset.mem_range.1 hj)]
  simp

/-- A shape mismatch between the data and the selection is rejected. -/
theorem C84_mismatch (x : Nd ℝ) (sel : Nd Bool) (keep : Bool) (h : ¬ sel.shape <+: x.shape) :
    selectByOnehotNd x sel keep = .error .assertion := by
  unfold selectByOnehotNd
  rw [if_neg]
  intro he
  exact h (he ▸ List.take_prefix _ _)

/-! ### C62: batched reward -/

/-- A metric as it appears in the batched computation: an array whose leading axis is the batch. Its value for scenario `b` is
`sub b`. The reward of the batch should be, scenario by scenario, the reward of the scenario. -/
def RewardBatches (B : Nat) (metrics : List (Nd ℝ × ℝ)) (mask : Nd Bool) : Prop :=
  ∀ b < B, ∀ r', rewardNd (metrics.map fun mw => (mw.1.sub b, mw.2)) (mask.sub b) = .ok r' →
    ∃ r, rewardNd metrics mask = .ok r ∧ SameNd (r.sub b) r'

/-- The weighted sum of the metric entries at `idx`. -/
def weightedSum (metrics : List (Nd ℝ × ℝ)) (idx : List Nat) (m : ℝ) : ℝ :=
  (metrics.map fun mw => mw.1.get idx * m * mw.2).sum

theorem rewardNd_same_aux (shape : List Nat) (mask : Nd Bool) (hm : mask.shape = shape) (metrics : List (Nd ℝ × ℝ))
    (h : ∀ mw ∈ metrics, mw.1.shape = shape) (acc : Nd ℝ) (hacc : acc.shape = shape) :
    ∃ r, (metrics.foldlM (init := acc) fun reward mw => do
        let metric ← Nd.zip (fun v (m : Bool) => v * if m then (1 : ℝ) else 0) mw.1 mask
        Nd.zip (fun a b => a + b) reward (metric.map fun v => v * mw.2)) = Except.ok (ε := Err) r ∧ r.shape = shape ∧
      ∀ idx, InRange shape idx → r.get idx = acc.get idx + weightedSum metrics idx (if mask.get idx then 1 else 0) := by
  induction metrics generalizing acc with
  | nil => exact ⟨acc, rfl, hacc, fun idx _ => by simp [weightedSum]⟩
  | cons mw ms ih =>
    have h0 := h mw List.mem_cons_self
    obtain ⟨v, hv1, hv2, hv3⟩ := zip_same (fun v (m : Bool) => v * if m then (1 : ℝ) else 0) (h0.trans hm.symm)
    obtain ⟨a, ha1, ha2, ha3⟩ := zip_same (fun a b : ℝ => a + b) (x := acc) (y := v.map fun t => t * mw.2)
      (by rw [hacc]; exact (hv2.trans h0).symm)
    obtain ⟨r, hr1, hr2, hr3⟩ := ih (fun m hm => h m (List.mem_cons_of_mem _ hm)) a (ha2.trans hacc)
    refine ⟨r, ?_, hr2, fun idx hidx => ?_⟩
    · rw [List.foldlM_cons]
      simp only [hv1, bind, Except.bind, ha1]
      exact hr1
    · rw [hr3 idx hidx, ha3 idx (by rw [hacc]; exact hidx)]
      show acc.get idx + v.get idx * mw.2 + _ = _
      rw [hv3 idx (by rw [h0]; exact hidx)]
      simp only [weightedSum, List.map_cons, List.sum_cons]
      ring

/-- When every metric has one value per object, the reward has the shape of the mask and is the masked weighted sum, entry by
entry, for any number of batch axes. -/
theorem C62_per_object (shape : List Nat) (mask : Nd Bool) (hm : mask.shape = shape) (metrics : List (Nd ℝ × ℝ))
    (h : ∀ mw ∈ metrics, mw.1.shape = shape) :
    ∃ r, rewardNd metrics mask = .ok r ∧ r.shape = shape ∧
      ∀ idx, InRange shape idx → r.get idx = if mask.get idx then weightedSum metrics idx 1 else 0 := by
  obtain ⟨r, h1, h2, h3⟩ := rewardNd_same_aux shape mask hm metrics h { shape := mask.shape, get := fun _ => 0 } hm
  refine ⟨r, h1, h2, fun idx hidx => ?_⟩
  rw [h3 idx hidx]
  cases mask.get idx <;> simp [weightedSum]

/-- Metrics with one value per object (log divergence, overlap, offroad, kinematic infeasibility): the batched reward is the reward
of each scenario. Missing: metrics with one value per scenario (all sdc_* metrics). -/
theorem C62_per_object_partial (B : Nat) (rest : List Nat) (mask : Nd Bool) (hm : mask.shape = B :: rest)
    (metrics : List (Nd ℝ × ℝ)) (h : ∀ mw ∈ metrics, mw.1.shape = B :: rest) : RewardBatches B metrics mask := by
  intro b hb r' hr'
  obtain ⟨r, h1, h2, h3⟩ := C62_per_object (B :: rest) mask hm metrics h
  obtain ⟨q, g1, g2, g3⟩ := C62_per_object rest (mask.sub b) (by show mask.shape.tail = _; rw [hm]; rfl)
    (metrics.map fun mw => (mw.1.sub b, mw.2)) (by
      intro mw hmw
      obtain ⟨mw', hmw', rfl⟩ := List.mem_map.1 hmw
      show mw'.1.shape.tail = _
      rw [h mw' hmw']; rfl)
  have := Except.ok.inj (g1.symm.trans hr')
  subst this
  refine ⟨r, h1, ?_, ?_⟩
  · show r.shape.tail = _
    rw [h2, g2]; rfl
  · intro idx hidx
    have hidx' : InRange rest idx := by
      have : (r.sub b).shape = rest := by show r.shape.tail = _; rw [h2]; rfl
      rw [this] at hidx; exact hidx
    show r.get (b :: idx) = _
    rw [h3 (b :: idx) (List.Forall₂.cons hb hidx'), g3 idx hidx']
    show (if mask.get (b :: idx) then _ else _) = if mask.get (b :: idx) then _ else _
    simp only [weightedSum, List.map_map]
    rfl

/-- An SDC metric in a batch of two scenarios: value 10 in scenario 0 and 20 in scenario 1. -/
noncomputable def sdcMetric2 : Nd ℝ := ⟨[2], fun idx => if idx = [0] then 10 else 20⟩

/-- A metric with one value per scenario: the reward of object 1 in scenario 0 comes from scenario 1. -/
theorem C62_violated : ¬ ∀ (B n : Nat) (metrics : List (Nd ℝ × ℝ)) (mask : Nd Bool), mask.shape = [B, n] →
    (∀ mw ∈ metrics, mw.1.shape = [B, n] ∨ mw.1.shape = [B]) → RewardBatches B metrics mask := by
  intro hall
  have h := hall 2 2 [(sdcMetric2, 1)] ⟨[2, 2], fun _ => true⟩ rfl (by intro mw hmw; simp at hmw; right; rw [hmw]; rfl)
    0 (by omega) _ rfl
  obtain ⟨r, hr, -, hget⟩ := h
  have := Except.ok.inj hr
  subst this
  have h1 := hget [1] (by
    show InRange [2] [1]
    exact List.Forall₂.cons (by omega) List.Forall₂.nil)
  simp [Nd.sub, Nd.map, Nd.broadcastIdx, sdcMetric2] at h1

/-- In general a metric with one value per scenario is combined along the object axis: it raises unless the batch size equals the
number of objects (or one of them is 1). -/
theorem C62_scenario_metric_exact (B n : Nat) (v : Nd ℝ) (w : ℝ) (mask : Nd Bool) (hv : v.shape = [B])
    (hm : mask.shape = [B, n]) :
    (B ≠ n → B ≠ 1 → n ≠ 1 → rewardNd [(v, w)] mask = .error .typeError) ∧
    (B = n → ∃ r, rewardNd [(v, w)] mask = .ok r ∧ r.shape = [B, n] ∧ ∀ b < B, ∀ j < n,
      r.get [b, j] = if mask.get [b, j] then v.get [j] * w else 0) := by
  constructor
  · intro h1 h2 h3
    have : Nd.zip (fun v (m : Bool) => v * if m then (1 : ℝ) else 0) v mask = .error .typeError := by
      unfold Nd.zip
      rw [hv, hm]
      simp [Nd.broadcastShape, Nd.broadcastRev, h1, h2, h3]
    simp only [rewardNd, List.foldlM_cons, List.foldlM_nil, this, bind, Except.bind]
  · rintro rfl
    have hz : Nd.zip (fun v (m : Bool) => v * if m then (1 : ℝ) else 0) v mask = .ok
        { shape := [B, B], get := fun idx => v.get (Nd.broadcastIdx [B] idx) * if mask.get (Nd.broadcastIdx [B, B] idx) then 1 else 0 } := by
      unfold Nd.zip
      rw [hv, hm]
      simp [Nd.broadcastShape, Nd.broadcastRev]
    obtain ⟨r, hr1, hr2, hr3⟩ := zip_same (fun a b : ℝ => a + b) (x := { shape := mask.shape, get := fun _ => 0 })
      (y := Nd.map (fun t => t * w) { shape := [B, B], get := fun idx => v.get (Nd.broadcastIdx [B] idx) * if mask.get (Nd.broadcastIdx [B, B] idx) then 1 else 0 }) hm
    refine ⟨r, ?_, hr2.trans hm, fun b hb j hj => ?_⟩
    · simp only [rewardNd, List.foldlM_cons, List.foldlM_nil, hz, bind, Except.bind, hr1, pure, Except.pure]
    · have hin : InRange [B, B] [b, j] := List.Forall₂.cons hb (List.Forall₂.cons hj List.Forall₂.nil)
      rw [hr3 _ (by show InRange mask.shape _; rw [hm]; exact hin)]
      simp only [Nd.map, broadcastIdx_self hin]
      have : Nd.broadcastIdx [B] [b, j] = [j] := by
        simp only [Nd.broadcastIdx, List.length_cons, List.length_nil, List.drop_one, List.zipWith_cons_cons, List.zipWith_nil_left,
          List.tail_cons]
        simp
        omega
      rw [this]
      cases mask.get [b, j] <;> simp

/-! ### C85: batched planning metrics -/

/-- The kinematic infeasibility metric of a batch should be that of each scenario. -/
def KimBatches (B n : Nat) : Prop :=
  ∀ (value : Nd ℝ) (after isSdc : Nd Bool), value.shape = [B, n] → after.shape = [B] → isSdc.shape = [B, n] →
    ∀ b < B, ∀ r', planningKimNd (value.sub b) (after.sub b) (isSdc.sub b) = .ok r' →
      ∃ r, planningKimNd value after isSdc = .ok r ∧ SameNd (r.sub b) r'

/-- It raises for a batch of 3 scenarios with 2 objects. -/
theorem C85_violated : ¬ ∀ B n, KimBatches B n := by
  intro hall
  obtain ⟨r, hr, -⟩ := hall 3 2 ⟨[3, 2], fun _ => 0⟩ ⟨[3], fun _ => true⟩ ⟨[3, 2], fun idx => idx.getD 1 0 = 0⟩ rfl rfl rfl
    0 (by omega) _ rfl
  exact absurd hr (by simp [planningKimNd, Nd.zip, Nd.broadcastShape, Nd.broadcastRev, bind, Except.bind])

/-- With as many scenarios as objects it does not raise but masks each OBJECT by the flag of the scenario with the same number:
the SDC at position `k` of scenario `b` is masked by the flag of scenario `k`. -/
theorem C85_square_exact (n : Nat) (value : Nd ℝ) (after isSdc : Nd Bool) (hv : value.shape = [n, n])
    (ha : after.shape = [n]) (hs : isSdc.shape = [n, n]) :
    ∃ r, planningKimNd value after isSdc = .ok r ∧ r.shape = [n] ∧
      ∀ b < n, ∀ k, OneHotAt isSdc [b] n k → r.get [b] = if after.get [k] then value.get [b, k] else 0 := by
  have hz : Nd.zip (fun a (w : Bool) => a * if w then (1 : ℝ) else 0) value after = .ok
      { shape := [n, n], get := fun idx => value.get (Nd.broadcastIdx [n, n] idx) * if after.get (Nd.broadcastIdx [n] idx) then 1 else 0 } := by
    unfold Nd.zip
    rw [hv, ha]
    simp [Nd.broadcastShape, Nd.broadcastRev]
  obtain ⟨⟨r, h1, h2, h3⟩, -⟩ := C84_select [n] n [] { shape := [n, n], get := fun idx => value.get (Nd.broadcastIdx [n, n] idx) * if after.get (Nd.broadcastIdx [n] idx) then 1 else 0 } isSdc rfl hs
  refine ⟨r, by simp only [planningKimNd, hz, bind, Except.bind]; exact h1, h2, fun b hb k hk => ?_⟩
  have := h3 [b] [] k (List.Forall₂.cons hb List.Forall₂.nil) hk
  simp only [List.cons_append, List.nil_append] at this
  rw [this]
  have hkn := hk.1
  have hin : InRange [n, n] [b, k] := List.Forall₂.cons hb (List.Forall₂.cons hkn List.Forall₂.nil)
  have h2 : Nd.broadcastIdx [n] [b, k] = [k] := by
    simp only [Nd.broadcastIdx, List.length_cons, List.length_nil, List.drop_one, List.zipWith_cons_cons, List.zipWith_nil_left,
      List.tail_cons]
    simp
    omega
  simp only [List.cons_append, List.nil_append, broadcastIdx_self hin, h2]
  cases after.get [k] <;> simp

/-- An unbatched state (where the flag is a scalar) is right. Missing: batches. -/
theorem C85_unbatched_partial (n : Nat) (value : Nd ℝ) (after isSdc : Nd Bool) (hv : value.shape = [n]) (ha : after.shape = [])
    (hs : isSdc.shape = [n]) (k : Nat) (hk : OneHotAt isSdc [] n k) :
    ∃ r, planningKimNd value after isSdc = .ok r ∧ r.shape = [] ∧
      r.get [] = if after.get [] then value.get [k] else 0 := by
  have hz : Nd.zip (fun a (w : Bool) => a * if w then (1 : ℝ) else 0) value after = .ok
      { shape := [n], get := fun idx => value.get (Nd.broadcastIdx [n] idx) * if after.get (Nd.broadcastIdx [] idx) then 1 else 0 } := by
    unfold Nd.zip
    rw [hv, ha]
    simp [Nd.broadcastShape, Nd.broadcastRev]
  obtain ⟨⟨r, h1, h2, h3⟩, -⟩ := C84_select [] n [] { shape := [n], get := fun idx => value.get (Nd.broadcastIdx [n] idx) * if after.get (Nd.broadcastIdx [] idx) then 1 else 0 } isSdc rfl hs
  refine ⟨r, by simp only [planningKimNd, hz, bind, Except.bind]; exact h1, h2, ?_⟩
  have := h3 [] [] k List.Forall₂.nil hk
  simp only [List.nil_append] at this
  rw [this]
  have hin : InRange [n] [k] := List.Forall₂.cons hk.1 List.Forall₂.nil
  have h2 : Nd.broadcastIdx [] [k] = [] := by simp [Nd.broadcastIdx]
  simp only [List.cons_append, List.nil_append, broadcastIdx_self hin, h2]
  cases after.get [] <;> simp

/-! ### The hypotheses can be met -/

example : OneHotAt ⟨[2, 3], fun idx => idx.getD 1 0 = 2⟩ [1] 3 2 := by
  refine ⟨by omega, fun j _ => ?_⟩
  simp

example : InRange [2, 3] [1, 2] := List.Forall₂.cons (by omega) (List.Forall₂.cons (by omega) List.Forall₂.nil)

/-- Mean of (1, 2, -) over a masked row of three. -/
example : meanOfValid 3 (fun k => (k : ℝ) + 1) (fun k => decide (k < 2)) (-1) = 3 / 2 := by
  have : (Finset.range 3).filter (fun k => decide (k < 2) = true) = {0, 1} := by decide
  simp only [meanOfValid, this]
  norm_num

end Waymax
