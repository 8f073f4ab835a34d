import Verif.Model.Discretizer
import Verif.Lemmas.Select
import Verif.Props.Delta
import Verif.Props.Bicycle
/-
C33 to C35: the discretiser, the discrete action space and inversion by search.
-/

namespace Waymax

open Real

/-! ### Rounding -/

theorem rint_close (x : ℝ) : |x - rint x| ≤ 1 / 2 := by
  have h1 := Int.floor_le x
  have h2 := Int.lt_floor_add_one x
  unfold rint
  split
  · rw [abs_le]; constructor <;> linarith
  · split
    · push_cast; rw [abs_le]; constructor <;> linarith
    · split
      · rw [abs_le]; constructor <;> linarith
      · push_cast; rw [abs_le]; constructor <;> linarith

theorem rint_eq_of_abs_lt {x : ℝ} {k : ℤ} (h : |x - k| < 1 / 2) : rint x = k := by
  have h1 := rint_close x
  rw [abs_le] at h1
  rw [abs_lt] at h
  have h2 : ((rint x : ℤ) : ℝ) - k < 1 := by linarith [h.2]
  have h3 : (-1 : ℝ) < ((rint x : ℤ) : ℝ) - k := by linarith [h.1]
  have h4 : rint x - k < 1 := by exact_mod_cast h2
  have h5 : -1 < rint x - k := by exact_mod_cast h3
  omega

theorem rint_nearest (x : ℝ) (j : ℤ) : |x - rint x| ≤ |x - j| := by
  by_cases h : |x - j| < 1 / 2
  · rw [rint_eq_of_abs_lt h]
  · exact (rint_close x).trans (not_lt.1 h)

theorem rint_mem {x : ℝ} {b : ℕ} (h0 : 0 ≤ x) (h1 : x ≤ b) : 0 ≤ rint x ∧ rint x ≤ b := by
  have h := rint_close x
  rw [abs_le] at h
  have h2 : (-1 : ℝ) < (rint x : ℤ) := by linarith [h.2]
  have h3 : ((rint x : ℤ) : ℝ) < b + 1 := by linarith [h.1]
  have h4 : -1 < rint x := by exact_mod_cast h2
  have h5 : rint x < b + 1 := by exact_mod_cast h3
  omega

/-! ### Row-major indices -/

/-- The number of discrete values: the product of all `bins + 1`. -/
theorem numBins_eq (ds : List BinDim) : numBins ds = (ds.map fun d => (d.bins : ℤ) + 1).prod := by
  induction ds with
  | nil => rfl
  | cons d ds ih => simp only [numBins, List.map_cons, List.prod_cons, ih]

theorem numBins_pos (ds : List BinDim) : 0 < numBins ds := by
  induction ds with
  | nil => simp [numBins]
  | cons d ds ih => simp only [numBins]; positivity

/-- An index vector inside its ranges. -/
def InBins (ds : List BinDim) (is : List ℤ) : Prop := List.Forall₂ (fun d i => 0 ≤ i ∧ i ≤ (d.bins : ℤ)) ds is

theorem ravel_range (ds : List BinDim) (is : List ℤ) : 0 ≤ ravelMultiIndex ds is ∧ ravelMultiIndex ds is < numBins ds := by
  induction ds generalizing is with
  | nil => simp [ravelMultiIndex, numBins]
  | cons d ds ih =>
    have hN := numBins_pos ds
    cases is with
    | nil => simp only [ravelMultiIndex, numBins]; constructor <;> positivity
    | cons i is =>
      simp only [ravelMultiIndex, numBins]
      obtain ⟨h1, h2⟩ := ih is
      have h3 : 0 ≤ max 0 (min i (d.bins : ℤ)) := le_max_left _ _
      have h4 : max 0 (min i (d.bins : ℤ)) ≤ d.bins := by omega
      constructor
      · positivity
      · nlinarith

theorem unravelAux_inBins (ds : List BinDim) (k : ℤ) : InBins ds (unravelAux ds k) := by
  unfold InBins
  induction ds with
  | nil => exact List.Forall₂.nil
  | cons d ds ih =>
    refine List.Forall₂.cons ?_ ih
    have hN := numBins_pos ds
    have hM : 0 < numBins (d :: ds) := numBins_pos _
    have h1 : 0 ≤ k % numBins (d :: ds) := Int.emod_nonneg _ hM.ne'
    have h2 : k % numBins (d :: ds) < numBins (d :: ds) := Int.emod_lt_of_pos _ hM
    refine ⟨Int.ediv_nonneg h1 hN.le, ?_⟩
    have : k % numBins (d :: ds) / numBins ds < d.bins + 1 := Int.ediv_lt_of_lt_mul hN (by simpa [numBins] using h2)
    omega

theorem ravel_unravelAux (ds : List BinDim) (k : ℤ) : ravelMultiIndex ds (unravelAux ds k) = k % numBins ds := by
  induction ds with
  | nil => simp [ravelMultiIndex, numBins]
  | cons d ds ih =>
    have hin := unravelAux_inBins (d :: ds) k
    unfold InBins at hin
    simp only [unravelAux] at hin ⊢
    rw [List.forall₂_cons] at hin
    obtain ⟨⟨h1, h2⟩, -⟩ := hin
    simp only [ravelMultiIndex]
    rw [min_eq_left h2, max_eq_right h1, ih]
    have h3 : k % numBins ds = (k % numBins (d :: ds)) % numBins ds :=
      (Int.emod_emod_of_dvd k ⟨(d.bins : ℤ) + 1, by simp [numBins, mul_comm]⟩).symm
    rw [h3, mul_comm]
    exact Int.mul_ediv_add_emod _ _

theorem unravelAux_ravel (ds : List BinDim) (is : List ℤ) (h : InBins ds is) (m : ℤ) :
    unravelAux ds (m * numBins ds + ravelMultiIndex ds is) = is := by
  unfold InBins at h
  induction h generalizing m with
  | nil => rfl
  | @cons d i ds is hd _ ih =>
    obtain ⟨h1, h2⟩ := ravel_range ds is
    have hN := numBins_pos ds
    simp only [unravelAux, ravelMultiIndex]
    rw [min_eq_left hd.2, max_eq_right hd.1]
    have e1 : (m * numBins (d :: ds) + (i * numBins ds + ravelMultiIndex ds is)) % numBins (d :: ds) =
        i * numBins ds + ravelMultiIndex ds is := by
      rw [add_comm, Int.add_mul_emod_self_right]
      apply Int.emod_eq_of_lt
      · have := mul_nonneg hd.1 hN.le; omega
      · simp only [numBins]; nlinarith [hd.2]
    have e2 : (i * numBins ds + ravelMultiIndex ds is) / numBins ds = i := by
      rw [add_comm, Int.add_mul_ediv_right _ _ hN.ne', Int.ediv_eq_zero_of_lt h1 h2, zero_add]
    rw [e1, e2]
    congr 1
    have := ih (m * (d.bins + 1) + i)
    rw [← this]
    congr 1
    simp only [numBins]
    rw [this]
    ring

theorem unravelIndex_of_mem (ds : List BinDim) (k : ℤ) (h0 : 0 ≤ k) (h1 : k < numBins ds) :
    unravelIndex ds k = unravelAux ds k := by
  unfold unravelIndex
  congr 1
  omega

/-! ### C33 -/

/-- A usable discretiser: in every dimension the minimum is below the maximum and there is at least one bin. -/
def ProperDims (ds : List BinDim) : Prop := ∀ d ∈ ds, d.lo < d.hi ∧ 1 ≤ d.bins

theorem scale_pos {d : BinDim} (h : d.lo < d.hi ∧ 1 ≤ d.bins) : 0 < d.scale := by
  unfold BinDim.scale
  have : (1 : ℝ) ≤ d.bins := by exact_mod_cast h.2
  exact div_pos (by linarith) (by linarith [h.1])

theorem inv_scale {d : BinDim} (i : ℝ) : i / d.scale = i * ((d.hi - d.lo) / d.bins) := by
  unfold BinDim.scale
  rw [div_div_eq_mul_div, mul_div_assoc]

theorem index_inBins (d : BinDim) (v : ℝ) : 0 ≤ d.index v ∧ d.index v ≤ d.bins := by
  unfold BinDim.index
  apply rint_mem
  · exact le_max_right _ _
  · exact max_le (min_le_right _ _) (Nat.cast_nonneg _)

theorem zip_index_inBins (ds : List BinDim) (v : List ℝ) (h : v.length = ds.length) :
    InBins ds (List.zipWith BinDim.index ds v) := by
  unfold InBins
  induction ds generalizing v with
  | nil => simp
  | cons d ds ih =>
    cases v with
    | nil => simp at h
    | cons x v => exact List.Forall₂.cons (index_inBins d x) (ih v (by simpa using h))

/-- C33: every vector of the right length gets an index between 0 and the product of all `bins + 1`; other lengths are
rejected. -/
theorem C33_index_range (ds : List BinDim) (v : List ℝ) :
    (v.length = ds.length → ∃ k, discretize ds v = .ok k ∧ 0 ≤ k ∧ k < (ds.map fun d => (d.bins : ℤ) + 1).prod) ∧
    (v.length ≠ ds.length → discretize ds v = .error .valueError) := by
  unfold discretize
  refine ⟨fun h => ?_, fun h => if_pos h⟩
  rw [if_neg (not_not.2 h), ← numBins_eq]
  exact ⟨_, rfl, ravel_range _ _⟩

/-- C33: every index, also one outside the range, stands for a vector inside the bounds, whose entries lie on the grid. -/
theorem C33_value_range {ds : List BinDim} (hd : ProperDims ds) (k : ℤ) :
    List.Forall₂ (fun (d : BinDim) (x : ℝ) => (d.lo ≤ x ∧ x ≤ d.hi) ∧ ∃ i : ℕ, i ≤ d.bins ∧ x = d.lo + i * ((d.hi - d.lo) / d.bins))
      ds (makeContinuous ds k) := by
  unfold makeContinuous
  have hin : InBins ds (unravelIndex ds k) := unravelAux_inBins _ _
  generalize unravelIndex ds k = is at hin
  unfold InBins at hin
  induction hin with
  | nil => exact List.Forall₂.nil
  | @cons d i ds is h _ ih =>
    refine List.Forall₂.cons ?_ (ih fun d' hd' => hd d' (List.mem_cons_of_mem _ hd'))
    obtain ⟨h1, h2⟩ := hd d (by simp)
    obtain ⟨j, rfl⟩ := Int.eq_ofNat_of_zero_le h.1
    have hj : j ≤ d.bins := by exact_mod_cast h.2
    have hb : (1 : ℝ) ≤ d.bins := by exact_mod_cast h2
    have hjr : (j : ℝ) ≤ d.bins := by exact_mod_cast hj
    have hpos : 0 < (d.hi - d.lo) / d.bins := div_pos (by linarith) (by linarith)
    have hfull : (d.bins : ℝ) * ((d.hi - d.lo) / d.bins) = d.hi - d.lo := by field_simp
    simp only [inv_scale]
    refine ⟨⟨?_, ?_⟩, j, hj, ?_⟩
    · have : (0 : ℝ) ≤ j * ((d.hi - d.lo) / d.bins) := by positivity
      push_cast
      linarith
    · have := mul_le_mul_of_nonneg_right hjr hpos.le
      push_cast
      linarith
    · push_cast; ring

/-- C33: index to vector and back is the identity. -/
theorem C33_index_round_trip {ds : List BinDim} (hd : ProperDims ds) {k : ℤ} (h0 : 0 ≤ k)
    (h1 : k < (ds.map fun d => (d.bins : ℤ) + 1).prod) : discretize ds (makeContinuous ds k) = .ok k := by
  rw [← numBins_eq] at h1
  have hin := unravelAux_inBins ds k
  have hlen : (makeContinuous ds k).length = ds.length := (C33_value_range hd k).length_eq.symm
  unfold discretize
  rw [if_neg (not_not.2 hlen)]
  have key : List.zipWith BinDim.index ds (makeContinuous ds k) = unravelAux ds k := by
    unfold makeContinuous
    rw [unravelIndex_of_mem ds k h0 h1]
    generalize unravelAux ds k = is at hin
    clear h0 h1 hlen
    unfold InBins at hin
    induction hin with
    | nil => rfl
    | @cons d i ds is h _ ih =>
      simp only [List.zipWith_cons_cons]
      rw [ih fun d' hd' => hd d' (List.mem_cons_of_mem _ hd')]
      congr 1
      have hs := scale_pos (hd d (by simp))
      unfold BinDim.index
      apply rint_eq_of_abs_lt
      have e : ((i : ℝ) / d.scale + d.lo - d.lo) * d.scale = i := by field_simp; ring
      have h1' : (0 : ℝ) ≤ i := by exact_mod_cast h.1
      have h2' : (i : ℝ) ≤ d.bins := by exact_mod_cast h.2
      rw [e, min_eq_left h2', max_eq_left h1']
      norm_num
  rw [key, ravel_unravelAux, Int.emod_eq_of_lt h0 h1]

/-- C33: distinct indices stand for distinct vectors. -/
theorem C33_injective {ds : List BinDim} (hd : ProperDims ds) {k k' : ℤ} (h0 : 0 ≤ k)
    (h1 : k < (ds.map fun d => (d.bins : ℤ) + 1).prod) (h0' : 0 ≤ k') (h1' : k' < (ds.map fun d => (d.bins : ℤ) + 1).prod)
    (h : makeContinuous ds k = makeContinuous ds k') : k = k' := by
  have e1 := C33_index_round_trip hd h0 h1
  rw [h, C33_index_round_trip hd h0' h1'] at e1
  exact (Except.ok.inj e1).symm

theorem continuous_discretize {ds : List BinDim} {v : List ℝ} {k : ℤ} (h : discretize ds v = .ok k) :
    makeContinuous ds k =
      List.zipWith (fun d (i : ℤ) => (i : ℝ) / d.scale + d.lo) ds (List.zipWith BinDim.index ds v) := by
  unfold discretize at h
  split at h
  · cases h
  · rename_i hlen
    rw [not_not] at hlen
    obtain rfl := Except.ok.inj h
    obtain ⟨h1, h2⟩ := ravel_range ds (List.zipWith BinDim.index ds v)
    unfold makeContinuous
    rw [unravelIndex_of_mem _ _ h1 h2]
    have := unravelAux_ravel ds _ (zip_index_inBins ds v hlen) 0
    rw [zero_mul, zero_add] at this
    rw [this]

/-- The value nearest to `x` in the interval of the dimension. -/
noncomputable def BinDim.clamp (d : BinDim) (x : ℝ) : ℝ := min (max x d.lo) d.hi

theorem index_eq_clamp {d : BinDim} (hd : d.lo < d.hi ∧ 1 ≤ d.bins) (x : ℝ) :
    max (min ((x - d.lo) * d.scale) d.bins) 0 = (d.clamp x - d.lo) * d.scale := by
  have hs := scale_pos hd
  have hb : (d.hi - d.lo) * d.scale = d.bins := by
    unfold BinDim.scale
    have : d.hi - d.lo ≠ 0 := by linarith [hd.1]
    field_simp
  unfold BinDim.clamp
  rcases le_total x d.lo with h | h
  · rw [max_eq_right h, min_eq_left hd.1.le, sub_self, zero_mul, max_eq_right]
    exact (min_le_left _ _).trans (mul_nonpos_of_nonpos_of_nonneg (by linarith) hs.le)
  · rw [max_eq_left h]
    rcases le_total x d.hi with h' | h'
    · rw [min_eq_left h', min_eq_left, max_eq_left]
      · exact mul_nonneg (by linarith) hs.le
      · rw [← hb]; exact mul_le_mul_of_nonneg_right (by linarith) hs.le
    · rw [min_eq_right h', hb, min_eq_right, max_eq_left (Nat.cast_nonneg _)]
      rw [← hb]; exact mul_le_mul_of_nonneg_right (by linarith) hs.le

/-- C33: vector to index and back: every coordinate becomes the grid value nearest to it (after clamping to the bounds), so a
coordinate inside the bounds moves by at most half a bin. -/
theorem C33_value_round_trip {ds : List BinDim} (hd : ProperDims ds) {v : List ℝ} {k : ℤ} (h : discretize ds v = .ok k)
    (j : ℕ) (d : BinDim) (x : ℝ) (hj : ds[j]? = some d) (hx : v[j]? = some x) :
    ∃ w, (makeContinuous ds k)[j]? = some w ∧
      (∀ i : ℤ, |d.clamp x - w| ≤ |d.clamp x - (d.lo + i * ((d.hi - d.lo) / d.bins))|) ∧
      |d.clamp x - w| ≤ (d.hi - d.lo) / d.bins / 2 ∧
      (d.lo ≤ x → x ≤ d.hi → |x - w| ≤ (d.hi - d.lo) / d.bins / 2) := by
  have hd' := hd d (List.mem_of_getElem? hj)
  have hs := scale_pos hd'
  have hsinv : (1 : ℝ) / d.scale = (d.hi - d.lo) / d.bins := by rw [inv_scale]; ring
  rw [continuous_discretize h]
  refine ⟨(d.index x : ℝ) / d.scale + d.lo, ?_, ?_⟩
  · rw [List.getElem?_zipWith, hj, List.getElem?_zipWith, hj, hx]
  · have hdiff : ∀ i : ℝ, d.clamp x - (i / d.scale + d.lo) = ((d.clamp x - d.lo) * d.scale - i) / d.scale := by
      intro i; field_simp; ring
    have hidx : d.index x = rint ((d.clamp x - d.lo) * d.scale) := by
      unfold BinDim.index; rw [index_eq_clamp hd']
    have hhalf : |d.clamp x - ((d.index x : ℝ) / d.scale + d.lo)| ≤ (d.hi - d.lo) / d.bins / 2 := by
      rw [hdiff, abs_div, abs_of_pos hs, hidx, ← hsinv, div_div, div_le_div_iff₀ hs (by positivity)]
      nlinarith [rint_close ((d.clamp x - d.lo) * d.scale)]
    refine ⟨fun i => ?_, hhalf, fun h1 h2 => ?_⟩
    · rw [hdiff, show d.lo + (i : ℝ) * ((d.hi - d.lo) / d.bins) = (i : ℝ) / d.scale + d.lo by rw [inv_scale]; ring, hdiff,
        abs_div, abs_div, hidx]
      exact div_le_div_of_nonneg_right (rint_nearest _ i) (abs_nonneg _)
    · have : d.clamp x = x := by unfold BinDim.clamp; rw [max_eq_left h1, min_eq_left h2]
      rw [this] at hhalf
      exact hhalf

/-- C33, rounding margin: whatever rounding error the code makes when it computes the normalised coordinates of the vector of
index `k`, the index is recovered as long as each error stays below half a bin. `ys` are the computed coordinates. -/
theorem C33_rounding_margin (ds : List BinDim) {k : ℤ} (h0 : 0 ≤ k) (h1 : k < (ds.map fun d => (d.bins : ℤ) + 1).prod)
    (ys : List ℝ) (hy : List.Forall₂ (fun (i : ℤ) (y : ℝ) => |y - i| < 1 / 2) (unravelAux ds k) ys) :
    ravelMultiIndex ds (ys.map rint) = k := by
  rw [← numBins_eq] at h1
  have : ys.map rint = unravelAux ds k := by
    generalize unravelAux ds k = is at hy
    induction hy with
    | nil => rfl
    | cons h _ ih => rw [List.map_cons, rint_eq_of_abs_lt h, ih]
  rw [this, ravel_unravelAux, Int.emod_eq_of_lt h0 h1]

/-- Documentation example (discretizer.py:28-35): bins 2, 3, 4 give 60 actions; the hypotheses hold. -/
example : ProperDims [⟨-1, 1, 2⟩, ⟨0, 3, 3⟩, ⟨-2, 2, 4⟩] ∧
    (([⟨-1, 1, 2⟩, ⟨0, 3, 3⟩, ⟨-2, 2, 4⟩] : List BinDim).map fun d => (d.bins : ℤ) + 1).prod = 60 := by
  refine ⟨?_, by simp⟩
  intro d hd
  simp only [List.mem_cons, List.not_mem_nil, or_false] at hd
  rcases hd with rfl | rfl | rfl <;> norm_num

/-! ### C67: the constructor's shape check -/

/-- The expectation: the constructor accepts only equal shapes. -/
def ShapesChecked : Prop :=
  ∀ a b c : List Nat, discretizerShapeCheck a b c = .ok () → a = b ∧ b = c

/-- The check joins the two comparisons with `and`, so one mismatch goes through. -/
theorem C67_violated : ¬ ShapesChecked := by
  intro h
  have := h [3] [3] [2] rfl
  simp at this

/-- What the check does establish: not both `max_value` and `bins` have another shape than `min_value`. Missing: the case where
exactly one of them differs. -/
theorem C67_shape_check_partial (a b c : List Nat) : discretizerShapeCheck a b c = .ok () ↔ a = b ∨ a = c := by
  unfold discretizerShapeCheck
  by_cases h1 : a = b <;> by_cases h2 : a = c <;> simp [h1, h2]

/-! ### C34 -/

section
variable {D : Type} {n : Nat}

/-- C34: for every dynamics model: a discrete action, also one outside the spec, is executed as the continuous action its index
stands for, with the same validity, and that action is inside the bounds given to the discretiser. -/
theorem C34_executes_in_bounds (d : DynamicsModel ℝ D n) (codec : RowCodec D) {ds : List BinDim} (hd : ProperDims ds)
    (a : Fin n → Act ℤ) (cur : Fin n → Pt ℝ) :
    ∃ rows : Fin n → List ℝ,
      (∀ i, List.Forall₂ (fun (d : BinDim) (x : ℝ) => d.lo ≤ x ∧ x ≤ d.hi) ds (rows i)) ∧
      (∀ i, inDiscreteSpec ds (a i).data → discretize ds (rows i) = .ok (a i).data) ∧
      (discreteWrapper d codec ds).computeUpdate a cur =
        d.computeUpdate (fun i => { data := codec.ofRow (rows i), valid := (a i).valid }) cur := by
  refine ⟨fun i => makeContinuous ds (a i).data, fun i => ?_, fun i hi => ?_, rfl⟩
  · exact (C33_value_range hd (a i).data).imp fun _ _ h => h.1
  · obtain ⟨h1, h2⟩ := hi
    exact C33_index_round_trip hd h1 (by rw [← numBins_eq]; omega)

theorem unravelAux_mod (ds : List BinDim) (k : ℤ) : unravelAux ds (k % numBins ds) = unravelAux ds k := by
  have h := unravelAux_ravel ds (unravelAux ds k) (unravelAux_inBins ds k) 0
  rwa [zero_mul, zero_add, ravel_unravelAux] at h

/-- The index inside the spec that an arbitrary index stands for: indices above the last one mean the last one; negative ones
count from the end, down to the first one. -/
def specIndex (N k : ℤ) : ℤ := if N ≤ k then N - 1 else if 0 ≤ k then k else if -N ≤ k then k + N else 0

/-- C34, indices outside the spec: the step they cause is the one of the index they stand for, which is inside the spec. -/
theorem C34_out_of_range (d : DynamicsModel ℝ D n) (codec : RowCodec D) (ds : List BinDim) (a : Fin n → Act ℤ)
    (cur : Fin n → Pt ℝ) :
    let N := (ds.map fun d => (d.bins : ℤ) + 1).prod
    let a' := fun i => { data := specIndex N (a i).data, valid := (a i).valid : Act ℤ }
    (∀ i, 0 ≤ (a' i).data ∧ (a' i).data < N) ∧
    (discreteWrapper d codec ds).computeUpdate a cur = (discreteWrapper d codec ds).computeUpdate a' cur := by
  intro N a'
  have hN : numBins ds = N := numBins_eq ds
  have hpos : 0 < N := hN ▸ numBins_pos ds
  have hin : ∀ k, 0 ≤ specIndex N k ∧ specIndex N k < N := by
    intro k
    unfold specIndex
    split_ifs <;> omega
  refine ⟨fun i => hin _, ?_⟩
  have hmc : ∀ k, makeContinuous ds (specIndex N k) = makeContinuous ds k := by
    intro k
    unfold makeContinuous
    congr 1
    rw [unravelIndex_of_mem ds _ (hin k).1 (by rw [hN]; exact (hin k).2)]
    unfold unravelIndex
    rw [hN, ← unravelAux_mod ds (max _ _), hN]
    congr 1
    unfold specIndex
    split_ifs with h1 h2 h3
    · rw [min_eq_right (by omega), max_eq_right (by omega), Int.emod_eq_of_lt (by omega) (by omega)]
    · rw [min_eq_left (by omega), max_eq_right (by omega), Int.emod_eq_of_lt (by omega) (by omega)]
    · rw [min_eq_left (by omega), max_eq_right (by omega), ← Int.add_emod_right, Int.emod_eq_of_lt (by omega) (by omega)]
    · rw [max_eq_left (by omega), Int.neg_emod_self]
  simp only [discreteWrapper, a', hmc]

example : specIndex 60 100 = 59 ∧ specIndex 60 (-1) = 59 ∧ specIndex 60 (-100) = 0 ∧ specIndex 60 7 = 7 := by decide

/-- C34: the binned inverse is an index in the discrete spec, valid exactly when the continuous inverse is. -/
theorem C34_inverse_in_spec (d : DynamicsModel ℝ D n) (codec : RowCodec D) (ds : List BinDim)
    (hlen : ∀ a, (codec.toRow a).length = ds.length) {T : Nat} [NeZero T] (traj : Traj ℝ n T) (md : Fin n → ObjMeta) (t : Int)
    (i : Fin n) :
    inDiscreteSpec ds ((discreteWrapper d codec ds).inverse traj md t i).data ∧
    ((discreteWrapper d codec ds).inverse traj md t i).valid = (d.inverse traj md t i).valid ∧
    discretize ds (codec.toRow (d.inverse traj md t i).data) = .ok ((discreteWrapper d codec ds).inverse traj md t i).data := by
  obtain ⟨k, hk, h0, h1⟩ := (C33_index_range ds (codec.toRow (d.inverse traj md t i).data)).1 (hlen _)
  have e : ((discreteWrapper d codec ds).inverse traj md t i).data = k := by
    simp only [discreteWrapper, hk]
  refine ⟨?_, rfl, ?_⟩
  · rw [e]; unfold inDiscreteSpec; rw [numBins_eq]; omega
  · rw [e, hk]

end

theorem bicycleDims_proper {P : BicycleParams} {ba bs : ℕ} (h1 : 0 < P.accelBound) (h2 : 0 < P.steeringBound) (h3 : 1 ≤ ba)
    (h4 : 1 ≤ bs) : ProperDims (bicycleDims P ba bs) := by
  intro d hd
  simp only [bicycleDims, List.mem_cons, List.not_mem_nil, or_false] at hd
  rcases hd with rfl | rfl
  · exact ⟨by simp only; linarith, h3⟩
  · exact ⟨by simp only; linarith, h4⟩

theorem deltaDims_proper {P : DeltaParams} {bx by' byaw : ℕ} (h1 : 0 < P.maxDx) (h2 : 0 < P.maxDy) (h3 : 0 < P.maxDyaw)
    (h4 : 1 ≤ bx) (h5 : 1 ≤ by') (h6 : 1 ≤ byaw) : ProperDims (deltaDims P bx by' byaw) := by
  intro d hd
  simp only [deltaDims, List.mem_cons, List.not_mem_nil, or_false] at hd
  rcases hd with rfl | rfl | rfl
  · exact ⟨by simp only; linarith, h4⟩
  · exact ⟨by simp only; linarith, h5⟩
  · exact ⟨by simp only; linarith, h6⟩

/-- C34 for the bicycle model: every integer is executed as an action of the bicycle model's own spec. -/
theorem C34_bicycle_in_spec {P : BicycleParams} {ba bs : ℕ} (h1 : 0 < P.accelBound) (h2 : 0 < P.steeringBound) (h3 : 1 ≤ ba)
    (h4 : 1 ≤ bs) {n : Nat} (a : Fin n → Act ℤ) (cur : Fin n → Pt ℝ) :
    ∃ c : Fin n → AccelSteer, (∀ i, P.inSpec (c i)) ∧
      (discreteWrapper (bicycle P) bicycleCodec (bicycleDims P ba bs)).computeUpdate a cur =
        (bicycle P).computeUpdate (fun i => { data := c i, valid := (a i).valid }) cur := by
  obtain ⟨rows, hr, -, he⟩ := C34_executes_in_bounds (bicycle P) bicycleCodec (bicycleDims_proper h1 h2 h3 h4) a cur
  refine ⟨fun i => bicycleCodec.ofRow (rows i), fun i => ?_, he⟩
  have := hr i
  unfold bicycleDims at this
  obtain ⟨x, y, hx, hy, e⟩ : ∃ x y, (-P.accelBound ≤ x ∧ x ≤ P.accelBound) ∧ (-P.steeringBound ≤ y ∧ y ≤ P.steeringBound) ∧
      rows i = [x, y] := by
    match hrow : rows i, this with
    | [x, y], h =>
      rw [List.forall₂_cons, List.forall₂_cons] at h
      exact ⟨x, y, h.1, h.2.1, rfl⟩
  simp only [e]
  exact ⟨hx, hy⟩

/-- C34 for the delta models: every integer is executed as an action of the delta model's own spec. -/
theorem C34_delta_in_spec {P : DeltaParams} {bx by' byaw : ℕ} (h1 : 0 < P.maxDx) (h2 : 0 < P.maxDy) (h3 : 0 < P.maxDyaw)
    (h4 : 1 ≤ bx) (h5 : 1 ≤ by') (h6 : 1 ≤ byaw) {n : Nat} (d : DynamicsModel ℝ Delta3 n) (a : Fin n → Act ℤ)
    (cur : Fin n → Pt ℝ) :
    ∃ c : Fin n → Delta3, (∀ i, P.inSpec (c i)) ∧
      (discreteWrapper d deltaCodec (deltaDims P bx by' byaw)).computeUpdate a cur =
        d.computeUpdate (fun i => { data := c i, valid := (a i).valid }) cur := by
  obtain ⟨rows, hr, -, he⟩ := C34_executes_in_bounds d deltaCodec (deltaDims_proper h1 h2 h3 h4 h5 h6) a cur
  refine ⟨fun i => deltaCodec.ofRow (rows i), fun i => ?_, he⟩
  have := hr i
  unfold deltaDims at this
  obtain ⟨x, y, z, hx, hy, hz, e⟩ : ∃ x y z, (-P.maxDx ≤ x ∧ x ≤ P.maxDx) ∧ (-P.maxDy ≤ y ∧ y ≤ P.maxDy) ∧
      (-P.maxDyaw ≤ z ∧ z ≤ P.maxDyaw) ∧ rows i = [x, y, z] := by
    match hrow : rows i, this with
    | [x, y, z], h =>
      rw [List.forall₂_cons, List.forall₂_cons, List.forall₂_cons] at h
      exact ⟨x, y, z, h.1, h.2.1, h.2.2.1, rfl⟩
  simp only [e]
  exact ⟨hx, hy, hz⟩

/-- C34: one step with the discretised `DeltaGlobal` inverse ends within half a bin of the target position. -/
theorem C34_delta_step_error {P : DeltaParams} {bx by' byaw : ℕ} (h1 : 0 < P.maxDx) (h2 : 0 < P.maxDy) (h3 : 0 < P.maxDyaw)
    (h4 : 1 ≤ bx) (h5 : 1 ≤ by') (h6 : 1 ≤ byaw) {n T : Nat} [NeZero T] (traj : Traj ℝ n T) (md : Fin n → ObjMeta)
    {t t' : Fin T} (ht : t'.val = t.val + 1) (i : Fin n) (hv : (traj i t).valid = true) (hv' : (traj i t').valid = true)
    (hx : |(traj i t').x - (traj i t).x| ≤ P.maxDx) (hy : |(traj i t').y - (traj i t).y| ≤ P.maxDy) :
    let w := discreteWrapper (deltaGlobal P (n := n)) deltaCodec (deltaDims P bx by' byaw)
    let u := w.computeUpdate (w.inverse traj md (t : Int)) (fun j => traj j t) i
    |(traj i t').x - u.x| ≤ P.maxDx / bx ∧ |(traj i t').y - u.y| ≤ P.maxDy / by' ∧ u.valid = true := by
  intro w u
  have hd := deltaDims_proper h1 h2 h3 h4 h5 h6
  obtain ⟨-, hval, hk⟩ := C34_inverse_in_spec (deltaGlobal P (n := n)) deltaCodec (deltaDims P bx by' byaw)
    (fun a => rfl) traj md (t : Int) i
  set k := (w.inverse traj md (t : Int) i).data with hkdef
  have hinv : (deltaGlobal P (n := n)).inverse traj md (t : Int) i = deltaGlobalInverse P (traj i) (t : Int) := rfl
  have hw : window2 (traj i) (t : Int) = (traj i t, traj i t') := window2_eq _ ht
  have hdx : ((deltaGlobal P (n := n)).inverse traj md (t : Int) i).data.dx = (traj i t').x - (traj i t).x := by
    rw [hinv]; unfold deltaGlobalInverse; rw [hw]; simp only [hv, hv', Bool.and_self, if_true, deltaClip]
    exact clip_id_abs hx
  have hdy : ((deltaGlobal P (n := n)).inverse traj md (t : Int) i).data.dy = (traj i t').y - (traj i t).y := by
    rw [hinv]; unfold deltaGlobalInverse; rw [hw]; simp only [hv, hv', Bool.and_self, if_true, deltaClip]
    exact clip_id_abs hy
  have hvalid : ((deltaGlobal P (n := n)).inverse traj md (t : Int) i).valid = true := by
    rw [hinv]; unfold deltaGlobalInverse; rw [hw]; simp only [hv, hv', Bool.and_self]
  rw [abs_le] at hx hy
  obtain ⟨wx, hwx, -, -, hx'⟩ := C33_value_round_trip hd hk 0 _ _ rfl rfl
  obtain ⟨wy, hwy, -, -, hy'⟩ := C33_value_round_trip hd hk 1 _ _ rfl rfl
  have ux : u.x = (traj i t).x + wx := by
    change (traj i t).x + (makeContinuous (deltaDims P bx by' byaw) k).getD 0 0 = _
    rw [List.getD_eq_getElem?_getD, hwx]; rfl
  have uy : u.y = (traj i t).y + wy := by
    change (traj i t).y + (makeContinuous (deltaDims P bx by' byaw) k).getD 1 0 = _
    rw [List.getD_eq_getElem?_getD, hwy]; rfl
  refine ⟨?_, ?_, ?_⟩
  · rw [hdx] at hx'
    have := hx' hx.1 hx.2
    rw [ux, show (traj i t').x - ((traj i t).x + wx) = (traj i t').x - (traj i t).x - wx by ring]
    refine this.trans (le_of_eq ?_)
    simp only; ring
  · rw [hdy] at hy'
    have := hy' hy.1 hy.2
    rw [uy, show (traj i t').y - ((traj i t).y + wy) = (traj i t').y - (traj i t).y - wy by ring]
    refine this.trans (le_of_eq ?_)
    simp only; ring
  · change ((traj i t).valid && (w.inverse traj md (t : Int) i).valid) = true
    rw [hv, hval, hvalid]; rfl

/-- The default parameters of both models meet the hypotheses. -/
example : ProperDims (bicycleDims {} 10 20) ∧ ProperDims (deltaDims {} 100 100 360) :=
  ⟨bicycleDims_proper (by norm_num [BicycleParams.accelBound]) (by norm_num [BicycleParams.steeringBound]) (by norm_num)
      (by norm_num),
   deltaDims_proper (by norm_num) (by norm_num) Real.pi_pos (by norm_num) (by norm_num) (by norm_num)⟩

/-! ### C35 -/

/-- The box of an object that is moved to the pose of `u` and keeps its size. -/
def movedBox (u : Upd ℝ) (cur : Pt ℝ) : Box := { x := u.x, y := u.y, length := cur.length, width := cur.width, yaw := u.yaw }

/-- Sum over the four corners of the squared distance between corresponding corners. -/
noncomputable def cornerGap (a b : Box) : ℝ := ∑ k : Fin 4, dist2 (cornersFromBbox a k) (cornersFromBbox b k) ^ 2

theorem cornerDistance_eq (p q : Pt ℝ) : cornerDistance p q = √(cornerGap p.box q.box) := by
  unfold cornerDistance cornerGap dist2
  congr 1
  refine Finset.sum_congr rfl fun k _ => ?_
  rw [Real.sq_sqrt (by positivity)]

theorem cornerGap_nonneg (a b : Box) : 0 ≤ cornerGap a b := Finset.sum_nonneg fun _ _ => sq_nonneg _

section
variable {D : Type} {n T : Nat} [NeZero T]

/-- The pose an object reaches when every object executes discrete action `k`. -/
noncomputable def actionOutcome (d : DynamicsModel ℝ D n) (codec : RowCodec D) (ds : List BinDim) (traj : Traj ℝ n T) (t t' : Fin T)
    (k : ℤ) (i : Fin n) : Upd ℝ :=
  d.computeUpdate (fun j => { data := codec.ofRow (makeContinuous ds k), valid := (traj j t).valid && (traj j t').valid })
    (fun j => traj j t) i

theorem search_eq (d : DynamicsModel ℝ D n) (codec : RowCodec D) (ds : List BinDim) (ph : ℤ) (traj : Traj ℝ n T)
    (md : Fin n → ObjMeta) {t t' : Fin T} (ht : t'.val = t.val + 1) (i : Fin n) :
    inverseActionBySearch d codec ds ph traj md (t : Int) i =
      { data := if (traj i t).valid && (traj i t').valid then
          ((argmin ((List.range (numBins ds).toNat).map fun k : ℕ => √(cornerGap
            (if (md i).isSdc then movedBox (actionOutcome d codec ds traj t t' k i) (traj i t)
              else { (traj i t').box with length := (traj i t).length, width := (traj i t).width }) (traj i t').box)) : ℕ) : ℤ)
          else ph
        valid := (traj i t).valid && (traj i t').valid } := by
  have ht1 : ((t' : Nat) : Int) = (t : Int) + 1 := by omega
  have hw : ∀ j, window2 (traj j) (t : Int) = (traj j t, traj j t') := fun j => window2_eq _ ht
  unfold inverseActionBySearch
  simp only [hw]
  have hnext : ∀ k : ℤ, dynIndex (d.forward (fun j => (⟨codec.ofRow (makeContinuous ds k),
      (traj j t).valid && (traj j t').valid⟩ : Act D)) traj traj (fun j => (md j).isSdc) (t : Int) false i) ((t : Int) + 1) =
      updatedPt false false (md i).isSdc (actionOutcome d codec ds traj t t' k i) (traj i t) (traj i t') := by
    intro k
    rw [dynIndex_of_eq _ ht1, forward_apply d _ _ _ _ _ rfl ht1, if_pos rfl]
    rfl
  have hbox : ∀ k : ℤ, (updatedPt false false (md i).isSdc (actionOutcome d codec ds traj t t' k i) (traj i t) (traj i t')).box =
      if (md i).isSdc then movedBox (actionOutcome d codec ds traj t t' k i) (traj i t)
        else { (traj i t').box with length := (traj i t).length, width := (traj i t).width } := by
    intro k
    cases (md i).isSdc <;> rfl
  simp only [hnext, dynIndex_of_eq _ ht1, cornerDistance_eq, hbox]

/-- The expectation: for every object that is valid in both steps, the returned discrete action leads to a box nearest to the
next logged box among all discrete actions. -/
def SearchOptimal (D : Type) (n T : Nat) [NeZero T] : Prop :=
  ∀ (d : DynamicsModel ℝ D n) (codec : RowCodec D) (ds : List BinDim) (ph : ℤ) (traj : Traj ℝ n T) (md : Fin n → ObjMeta)
    (t t' : Fin T) (_ : t'.val = t.val + 1) (i : Fin n) (_ : (traj i t).valid = true) (_ : (traj i t').valid = true)
    (k' : ℤ) (_ : inDiscreteSpec ds k'),
    cornerGap (movedBox (actionOutcome d codec ds traj t t' (inverseActionBySearch d codec ds ph traj md (t : Int) i).data i) (traj i t))
        (traj i t').box ≤
      cornerGap (movedBox (actionOutcome d codec ds traj t t' k' i) (traj i t)) (traj i t').box

/-- The search is optimal for the SDC: the returned action is in the discrete spec, its actionOutcome is nearest to the logged box
among all discrete actions, and it is the smallest such index; the action is valid iff both steps are, and the placeholder if
not. Missing: the other objects, see `C35_non_sdc` and `C35_violated`. -/
theorem C35_search_optimal_partial (d : DynamicsModel ℝ D n) (codec : RowCodec D) (ds : List BinDim) (ph : ℤ)
    (traj : Traj ℝ n T) (md : Fin n → ObjMeta) {t t' : Fin T} (ht : t'.val = t.val + 1) (i : Fin n)
    (hsdc : (md i).isSdc = true) :
    let r := inverseActionBySearch d codec ds ph traj md (t : Int) i
    let gap := fun k : ℤ => cornerGap (movedBox (actionOutcome d codec ds traj t t' k i) (traj i t)) (traj i t').box
    (r.valid = true ↔ (traj i t).valid = true ∧ (traj i t').valid = true) ∧
    (r.valid = false → r.data = ph) ∧
    (r.valid = true → inDiscreteSpec ds r.data ∧ (∀ k, inDiscreteSpec ds k → gap r.data ≤ gap k) ∧
      ∀ k, 0 ≤ k → k < r.data → gap r.data < gap k) := by
  intro r gap
  have hr : r = _ := search_eq d codec ds ph traj md ht i
  simp only [hsdc, if_true] at hr
  set xs := (List.range (numBins ds).toNat).map fun k : ℕ => √(gap k) with hxs
  change r = ⟨if (traj i t).valid && (traj i t').valid then ((argmin xs : ℕ) : ℤ) else ph,
    (traj i t).valid && (traj i t').valid⟩ at hr
  rw [hr]
  simp only [Bool.and_eq_true]
  refine ⟨trivial, fun h => by rw [if_neg (by rw [← Bool.and_eq_true, h]; decide)], fun h => ?_⟩
  rw [if_pos h]
  have hpos := numBins_pos ds
  have hne : xs ≠ [] := by
    rw [hxs]; intro he
    have := congrArg List.length he
    simp at this
    omega
  have hlen : xs.length = (numBins ds).toNat := by simp [hxs]
  obtain ⟨v, hv, hmin, hfirst⟩ := argmin_spec hne
  have hlt := argmin_lt hne
  have hget : ∀ k : ℕ, k < (numBins ds).toNat → xs[k]? = some √(gap k) := by
    intro k hk
    simp only [hxs, List.getElem?_map, List.getElem?_range hk, Option.map_some]
  have hva : v = √(gap ((argmin xs : ℕ) : ℤ)) := Option.some.inj (hv.symm.trans (hget _ (by omega)))
  refine ⟨⟨by omega, by omega⟩, ?_, ?_⟩
  · rintro k ⟨hk0, hk1⟩
    obtain ⟨j, rfl⟩ := Int.eq_ofNat_of_zero_le hk0
    have := hmin _ (List.mem_of_getElem? (hget j (by omega)))
    rw [hva] at this
    exact (Real.sqrt_le_sqrt_iff (cornerGap_nonneg _ _)).1 this
  · intro k hk0 hk1
    obtain ⟨j, rfl⟩ := Int.eq_ofNat_of_zero_le hk0
    have := hfirst j (by exact_mod_cast hk1) _ (hget j (by omega))
    rw [hva] at this
    exact (Real.sqrt_lt_sqrt_iff (cornerGap_nonneg _ _)).1 this

/-- Exact behaviour for the other objects: they are not controlled during the search, so all actions look the same and index 0
(the minimum of every action component) is returned. -/
theorem C35_non_sdc (d : DynamicsModel ℝ D n) (codec : RowCodec D) (ds : List BinDim) (ph : ℤ) (traj : Traj ℝ n T)
    (md : Fin n → ObjMeta) {t t' : Fin T} (ht : t'.val = t.val + 1) (i : Fin n) (hsdc : (md i).isSdc = false)
    (hv : (traj i t).valid = true) (hv' : (traj i t').valid = true) :
    inverseActionBySearch d codec ds ph traj md (t : Int) i = { data := 0, valid := true } := by
  rw [search_eq d codec ds ph traj md ht i]
  simp only [hsdc, hv, hv', Bool.and_self, Bool.false_eq_true, if_false, if_true]
  congr 1
  have hpos := numBins_pos ds
  generalize √_ = c
  have hne : ((List.range (numBins ds).toNat).map fun _ : ℕ => c) ≠ [] := by
    intro he
    have := congrArg List.length he
    simp at this
    omega
  obtain ⟨v, hv, -, hfirst⟩ := argmin_spec hne
  by_contra h
  have h0 : 0 < argmin ((List.range (numBins ds).toNat).map fun _ : ℕ => c) := by omega
  have hc : ((List.range (numBins ds).toNat).map fun _ : ℕ => c)[0]? = some c := by
    rw [List.getElem?_map, List.getElem?_range (by omega)]; rfl
  have h1 := hfirst 0 h0 c hc
  have h2 := List.mem_of_getElem? hv
  simp only [List.mem_map] at h2
  obtain ⟨-, -, h2⟩ := h2
  exact absurd h1 (by rw [h2]; exact lt_irrefl _)

end

/-- A vehicle, not the SDC, that stands still. -/
def stillTraj : Traj ℝ 1 2 := fun _ _ => ptAt 0 0 0 0 0

/-- Its inverse by search is the extreme action, although standing still is one of the discrete actions. -/
theorem C35_violated : ¬ SearchOptimal Delta3 1 2 := by
  intro h
  let P : DeltaParams := { maxDx := 1, maxDy := 1, maxDyaw := 1 }
  let ds := deltaDims P 2 2 2
  have h0 := C35_non_sdc (deltaGlobal P (n := 1)) deltaCodec ds 13 stillTraj (fun _ => { soloMeta (n := 1) 0 with isSdc := false })
    (t := 0) (t' := 1) rfl 0 rfl rfl rfl
  have hN : numBins ds = 27 := by simp [ds, deltaDims, numBins]
  have h1 := h (deltaGlobal P (n := 1)) deltaCodec ds 13 stillTraj (fun _ => { soloMeta (n := 1) 0 with isSdc := false }) 0 1 rfl 0 rfl rfl 13
    ⟨by norm_num, by rw [hN]; norm_num⟩
  rw [h0] at h1
  have c13 : makeContinuous ds 13 = [0, 0, 0] := by
    norm_num [makeContinuous, unravelIndex, unravelAux, numBins, ds, deltaDims, P, BinDim.scale]
  have c0 : makeContinuous ds 0 = [-1, -1, -1] := by
    norm_num [makeContinuous, unravelIndex, unravelAux, numBins, ds, deltaDims, P, BinDim.scale]
  have e13 : movedBox (actionOutcome (deltaGlobal P (n := 1)) deltaCodec ds stillTraj 0 1 13 0) (stillTraj 0 0) = (stillTraj 0 1).box := by
    simp [movedBox, actionOutcome, deltaGlobal, DynamicsModel.ofSingle, deltaGlobalUpdate, c13, deltaCodec, stillTraj, Pt.box, ptAt]
  have z : cornerGap (stillTraj 0 1).box (stillTraj 0 1).box = 0 := by
    simp [cornerGap, dist2]
  rw [e13, z] at h1
  have hx : (movedBox (actionOutcome (deltaGlobal P (n := 1)) deltaCodec ds stillTraj 0 1 0 0) (stillTraj 0 0)).x = -1 := by
    simp [movedBox, actionOutcome, deltaGlobal, DynamicsModel.ofSingle, deltaGlobalUpdate, c0, deltaCodec, stillTraj, ptAt]
  set b := movedBox (actionOutcome (deltaGlobal P (n := 1)) deltaCodec ds stillTraj 0 1 0 0) (stillTraj 0 0)
  have hzero : cornerGap b (stillTraj 0 1).box = 0 := le_antisymm h1 (cornerGap_nonneg _ _)
  unfold cornerGap at hzero
  rw [Finset.sum_eq_zero_iff_of_nonneg fun _ _ => sq_nonneg _] at hzero
  have q : ∀ k, (cornersFromBbox b k).1 = (cornersFromBbox (stillTraj 0 1).box k).1 := by
    intro k
    have := hzero k (Finset.mem_univ k)
    rw [sq_eq_zero_iff] at this
    unfold dist2 at this
    rw [Real.sqrt_eq_zero (by positivity)] at this
    nlinarith [sq_nonneg ((cornersFromBbox b k).1 - (cornersFromBbox (stillTraj 0 1).box k).1),
      sq_nonneg ((cornersFromBbox b k).2 - (cornersFromBbox (stillTraj 0 1).box k).2)]
  have q0 := q 0
  have q2 := q 2
  simp only [cornersFromBbox, Matrix.cons_val_zero, Matrix.cons_val] at q0 q2
  have hs : (stillTraj 0 1).box.x = 0 := rfl
  rw [hx, hs] at q0 q2
  linarith

/-- The partial theorem applies to the same vehicle when it is the SDC: the search finds "stand still". -/
example : let P : DeltaParams := { maxDx := 1, maxDy := 1, maxDyaw := 1 }
    let r := inverseActionBySearch (deltaGlobal P (n := 1)) deltaCodec (deltaDims P 2 2 2) 13 stillTraj
      (fun _ => { soloMeta (n := 1) 0 with isSdc := true }) ((0 : Fin 2) : Int) 0
    inDiscreteSpec (deltaDims P 2 2 2) r.data := by
  intro P r
  obtain ⟨h1, -, h2⟩ := C35_search_optimal_partial (deltaGlobal P (n := 1)) deltaCodec (deltaDims P 2 2 2) 13 stillTraj
    (fun _ => { soloMeta (n := 1) 0 with isSdc := true }) (t := 0) (t' := 1) rfl 0 rfl
  exact (h2 (h1.2 ⟨rfl, rfl⟩)).1

end Waymax
