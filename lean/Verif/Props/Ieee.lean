import Verif.Spec.Broken
import Verif.Props.Influence
import Verif.Props.MetricsMachine
/-
C158, C159: NaN and infinities.
-/

namespace Waymax

/-! ### Arithmetic with special values -/

namespace Ieee
variable {F : IeeeFormat}

@[simp] theorem nan_add (a : Ieee F) : nan.add a = nan := by cases a <;> rfl
@[simp] theorem add_nan (a : Ieee F) : a.add nan = nan := by cases a <;> rfl
@[simp] theorem neg_nan : (nan : Ieee F).neg = nan := rfl
@[simp] theorem nan_sub (a : Ieee F) : nan.sub a = nan := nan_add _
@[simp] theorem sub_nan (a : Ieee F) : a.sub nan = nan := add_nan _
@[simp] theorem nan_mul (a : Ieee F) : nan.mul a = nan := by cases a <;> rfl
@[simp] theorem mul_nan (a : Ieee F) : a.mul nan = nan := by cases a <;> rfl
@[simp] theorem sqrt_nan (L : Libm F.fmt) : (nan : Ieee F).sqrt L = nan := rfl
@[simp] theorem trig_nan (f : Flt F.fmt → Flt F.fmt) : (nan : Ieee F).trig f = nan := rfl
@[simp] theorem trig_inf (f : Flt F.fmt → Flt F.fmt) (b : Bool) : (inf b : Ieee F).trig f = nan := rfl
@[simp] theorem lt_nan (a : Ieee F) : a.lt nan = false := by cases a <;> rfl
@[simp] theorem nan_lt (a : Ieee F) : nan.lt a = false := by cases a <;> rfl
@[simp] theorem nan_min (a : Ieee F) : nan.min a = nan := by simp [Ieee.min, isNan]
@[simp] theorem min_nan (a : Ieee F) : a.min nan = nan := by simp [Ieee.min, isNan]
@[simp] theorem nan_max (a : Ieee F) : nan.max a = nan := by simp [Ieee.max, isNan]
@[simp] theorem max_nan (a : Ieee F) : a.max nan = nan := by simp [Ieee.max, isNan]

theorem not_finite {a : Ieee F} (h : a.isFinite = false) : a = nan ∨ ∃ b, a = inf b := by
  cases a with
  | nan => exact .inl rfl
  | inf b => exact .inr ⟨b, rfl⟩
  | fin x hx => exact absurd h (by simp [isFinite])

theorem finite_iff {a : Ieee F} : a.isFinite = true ↔ ∃ x h, a = fin x h := by
  cases a with
  | nan => simp [isFinite]
  | inf b => simp [isFinite]
  | fin x h => exact ⟨fun _ => ⟨x, h, rfl⟩, fun _ => rfl⟩

theorem foldl_add_nan (l : List (Ieee F)) : l.foldl add nan = nan := by
  induction l with
  | nil => rfl
  | cons a l ih => rw [List.foldl_cons, nan_add, ih]

/-- A sum with NaN among its terms is NaN. -/
theorem foldl_add_mem_nan {l : List (Ieee F)} (h : nan ∈ l) (acc : Ieee F) : l.foldl add acc = nan := by
  induction l generalizing acc with
  | nil => simp at h
  | cons a l ih =>
    rw [List.foldl_cons]
    rcases List.mem_cons.1 h with rfl | h
    · rw [add_nan, foldl_add_nan]
    · exact ih h _

theorem foldl_min_nan (l : List (Ieee F)) : l.foldl min nan = nan := by
  induction l with
  | nil => rfl
  | cons a l ih => rw [List.foldl_cons, nan_min, ih]

theorem minList_mem_nan {l : List (Ieee F)} (h : nan ∈ l) : minList l = nan := by
  unfold minList
  generalize inf false = acc
  induction l generalizing acc with
  | nil => simp at h
  | cons a l ih =>
    rw [List.foldl_cons]
    rcases List.mem_cons.1 h with rfl | h
    · rw [min_nan, foldl_min_nan]
    · exact ih h _

/-- A minimum of nothing but infinity is infinity. -/
theorem minList_top {l : List (Ieee F)} (h : ∀ a ∈ l, a = inf false) : minList l = inf false := by
  unfold minList
  induction l with
  | nil => rfl
  | cons a l ih =>
    rw [List.foldl_cons, h a List.mem_cons_self]
    exact ih fun b hb => h b (List.mem_cons_of_mem _ hb)

theorem two_pow_top (F : IeeeFormat) : (256 : ℝ) ≤ 2 ^ F.top := by
  have h : (2 : ℝ) ^ 8 ≤ 2 ^ F.top := pow_le_pow_right₀ (by norm_num) F.room
  norm_num at h
  exact h

theorem ofFlt_small {x : Flt F.fmt} (h : |x.val| < 2 ^ F.top) : ofFlt F x = fin x h := dif_pos h

theorem fin_congr {x y : Flt F.fmt} (h : x = y) {hx : |x.val| < 2 ^ F.top} {hy : |y.val| < 2 ^ F.top} :
    (fin x hx : Ieee F) = fin y hy := by subst h; rfl

theorem round_rep {x : ℝ} (h : F.fmt.Rep x) : Flt.round F.fmt x = ⟨x, h⟩ := Subtype.ext (Format.fl_of_rep h)

/-- The machine number zero. -/
noncomputable def zero (F : IeeeFormat) : Ieee F := fin ⟨0, Format.Rep.zero⟩ (by simp)

theorem ofReal_zero : ofReal F 0 = zero F := by
  unfold ofReal
  rw [round_rep Format.Rep.zero]
  exact ofFlt_small _

theorem rep_one' (φ : Format) : φ.Rep 1 := by
  have h2 := φ.two_le
  have h1 := φ.normal_one
  refine ⟨1, 0, ?_, by omega, by norm_num⟩
  rw [abs_one]
  exact one_lt_pow₀ (by norm_num) (by omega)

theorem ofReal_one : ofReal F 1 = fin ⟨1, rep_one' _⟩ (by rw [abs_one]; linarith [two_pow_top F]) := by
  unfold ofReal
  rw [round_rep (rep_one' _)]
  exact ofFlt_small _

theorem mul_zero_fin (x : Flt F.fmt) (h : |x.val| < 2 ^ F.top) : (fin x h).mul (ofReal F 0) = zero F := by
  rw [ofReal_zero]
  change ofFlt F (x.mul ⟨0, _⟩) = _
  have : x.mul ⟨0, Format.Rep.zero⟩ = ⟨0, Format.Rep.zero⟩ := by
    unfold Flt.mul
    simp only [MulZeroClass.mul_zero]
    exact round_rep Format.Rep.zero
  rw [this]
  exact ofFlt_small _

theorem mul_one_fin (x : Flt F.fmt) (h : |x.val| < 2 ^ F.top) : (fin x h).mul (ofReal F 1) = fin x h := by
  rw [ofReal_one]
  change ofFlt F (x.mul ⟨1, _⟩) = _
  have : x.mul ⟨1, rep_one' _⟩ = x := by
    unfold Flt.mul
    simp only [mul_one]
    exact round_rep x.property
  rw [this]
  exact ofFlt_small h

theorem mul_zero_broken {a : Ieee F} (h : a.isFinite = false) : a.mul (ofReal F 0) = nan := by
  rcases not_finite h with rfl | ⟨b, rfl⟩
  · simp
  · rw [ofReal_zero]
    simp [mul, zero, isZero]

theorem add_zero_fin (x : Flt F.fmt) (h : |x.val| < 2 ^ F.top) : (fin x h).add (zero F) = fin x h := by
  change ofFlt F (x.add ⟨0, _⟩) = _
  have : x.add ⟨0, Format.Rep.zero⟩ = x := by
    unfold Flt.add
    simp only [add_zero]
    exact round_rep x.property
  rw [this]
  exact ofFlt_small h

theorem zero_add_fin (x : Flt F.fmt) (h : |x.val| < 2 ^ F.top) : (zero F).add (fin x h) = fin x h := by
  change ofFlt F (Flt.add ⟨0, _⟩ x) = _
  have : Flt.add ⟨0, Format.Rep.zero⟩ x = x := by
    unfold Flt.add
    simp only [zero_add]
    exact round_rep x.property
  rw [this]
  exact ofFlt_small h

end Ieee

section
variable {F : IeeeFormat} {n T : Nat}

/-! ### Selecting one entry -/

/-- If an entry other than the selected one is NaN or infinite, the selected entry is NaN. -/
theorem select_broken {x : Fin n → Ieee F} {sel : Fin n → Bool} {j : Fin n} (hj : sel j = false) (hb : (x j).isFinite = false) :
    selectByOnehotIe x sel = .nan := by
  unfold selectByOnehotIe
  apply Ieee.foldl_add_mem_nan
  rw [List.mem_ofFn]
  exact ⟨j, by simp only [hj, Bool.false_eq_true, if_false, Ieee.mul_zero_broken hb]⟩

theorem foldl_add_zerosIe (l : List (Ieee F)) (h : ∀ a ∈ l, a = Ieee.zero F) (x : Flt F.fmt) (hx : |x.val| < 2 ^ F.top) :
    l.foldl Ieee.add (.fin x hx) = .fin x hx := by
  induction l with
  | nil => rfl
  | cons a l ih =>
    rw [List.foldl_cons, h a List.mem_cons_self, Ieee.add_zero_fin]
    exact ih fun b hb => h b (List.mem_cons_of_mem _ hb)

/-- If all entries are finite, the selected entry is exact. -/
theorem select_finite {x : Fin n → Ieee F} {sel : Fin n → Bool} {k : Fin n} (hsel : ∀ i, sel i = true ↔ i = k)
    (hf : ∀ i, (x i).isFinite = true) : selectByOnehotIe x sel = x k := by
  obtain ⟨v, hv, hk⟩ := Ieee.finite_iff.1 (hf k)
  unfold selectByOnehotIe
  have hlist : (List.ofFn fun i => (x i).mul (Ieee.ofReal F (if sel i then 1 else 0))) =
      (List.finRange n).map fun i => if i = k then x k else Ieee.zero F := by
    rw [List.ofFn_eq_map]
    apply List.map_congr_left
    intro i _
    obtain ⟨w, hw, hi⟩ := Ieee.finite_iff.1 (hf i)
    by_cases h : i = k
    · subst h
      rw [if_pos rfl, if_pos ((hsel i).2 rfl), hi, Ieee.mul_one_fin]
    · rw [if_neg h, if_neg (fun hh => h ((hsel i).1 hh)), hi, Ieee.mul_zero_fin]
  rw [hlist, Ieee.ofReal_zero]
  obtain ⟨pre, post, hsplit⟩ := List.append_of_mem (List.mem_finRange k)
  have hnd := List.nodup_finRange n
  rw [hsplit] at hnd ⊢
  have hpre : ∀ i ∈ pre, i ≠ k := fun i hi hik => by
    subst hik
    exact (List.nodup_append.1 hnd).2.2 _ hi _ List.mem_cons_self rfl
  have hpost : ∀ i ∈ post, i ≠ k := fun i hi hik => by
    subst hik
    exact (List.nodup_cons.1 (List.nodup_append.1 hnd).2.1).1 hi
  rw [List.map_append, List.map_cons, List.foldl_append, List.foldl_cons, if_pos rfl]
  have h0 : (pre.map fun i => if i = k then x k else Ieee.zero F).foldl Ieee.add (Ieee.zero F) = Ieee.zero F :=
    foldl_add_zerosIe _ (by
      intro a ha
      obtain ⟨i, hi, rfl⟩ := List.mem_map.1 ha
      rw [if_neg (hpre i hi)]) _ _
  rw [h0, hk, Ieee.zero_add_fin]
  apply foldl_add_zerosIe
  intro a ha
  obtain ⟨i, hi, rfl⟩ := List.mem_map.1 ha
  rw [if_neg (hpost i hi)]

/-! ### Distances -/

theorem sub_broken {a b : Ieee F} (h : a.isFinite = false) : (a.sub b).isFinite = false := by
  rcases Ieee.not_finite h with rfl | ⟨s, rfl⟩
  · simp [Ieee.isFinite]
  · cases b with
    | nan => simp [Ieee.isFinite]
    | inf t =>
      change (if s = !t then Ieee.inf s else Ieee.nan).isFinite = false
      split <;> rfl
    | fin y hy => rfl

theorem square_broken {a : Ieee F} (h : a.isFinite = false) : a.mul a = .nan ∨ a.mul a = .inf false := by
  rcases Ieee.not_finite h with rfl | ⟨s, rfl⟩
  · exact .inl rfl
  · exact .inr (by simp [Ieee.mul, Ieee.isZero, Ieee.isNeg])

theorem fl_nonneg {φ : Format} {x : ℝ} (h : 0 ≤ x) : 0 ≤ φ.fl x := by
  have := Format.le_fl_of_rep (φ := φ) Format.Rep.zero h
  exact this

/-- A square is NaN, infinity, or a finite number that is not negative. -/
theorem square_cases (a : Ieee F) : a.mul a = .nan ∨ a.mul a = .inf false ∨ ∃ x h, a.mul a = .fin x h ∧ 0 ≤ x.val := by
  cases a with
  | nan => exact .inl rfl
  | inf s => exact (square_broken rfl).imp_right .inl
  | fin x hx =>
    right
    change Ieee.ofFlt F (x.mul x) = _ ∨ ∃ y h, Ieee.ofFlt F (x.mul x) = _ ∧ _
    have h0 : 0 ≤ (x.mul x).val := fl_nonneg (mul_self_nonneg _)
    unfold Ieee.ofFlt
    split
    · rename_i hs
      exact .inr ⟨_, hs, rfl, h0⟩
    · exact .inl (by simp [h0])

/-- The distance to or from a broken point is NaN or infinite. -/
theorem distIe_broken (L : Libm F.fmt) {a b : Ieee F × Ieee F} (h : a.1.isFinite = false ∨ a.2.isFinite = false) :
    distIe L a b = .nan ∨ distIe L a b = .inf false := by
  unfold distIe
  simp only
  rcases h with h | h
  · rcases square_broken (sub_broken (b := b.1) h) with h1 | h1
    · left; rw [h1]; simp
    · rw [h1]
      rcases square_cases (a.2.sub b.2) with h2 | h2 | ⟨y, hy, h2, -⟩
      · left; rw [h2]; simp
      · right; rw [h2]; rfl
      · right; rw [h2]; rfl
  · rcases square_broken (sub_broken (b := b.2) h) with h1 | h1
    · left; rw [h1]; simp
    · rw [h1]
      rcases square_cases (a.1.sub b.1) with h2 | h2 | ⟨y, hy, h2, -⟩
      · left; rw [h2]; simp
      · right; rw [h2]; rfl
      · right; rw [h2]; rfl

/-- With NaN the distance is NaN. -/
theorem distIe_nan (L : Libm F.fmt) {a b : Ieee F × Ieee F} (h : a.1 = .nan ∨ a.2 = .nan) : distIe L a b = .nan := by
  unfold distIe
  rcases h with h | h <;> simp [h]

/-! ### Boxes -/

/-- NaN or the infinity of the given sign. -/
def Away (u : Bool) (a : Ieee F) : Prop := a = .nan ∨ a = .inf u

theorem Away.add_right {u : Bool} {a : Ieee F} (h : Away u a) (b : Ieee F) : Away u (b.add a) := by
  rcases h with rfl | rfl
  · left; simp
  · cases b with
    | nan => left; rfl
    | inf t =>
      change Away u (if t = u then Ieee.inf t else Ieee.nan)
      split
      · rename_i h; subst h; exact .inr rfl
      · exact .inl rfl
    | fin x hx => exact .inr rfl

theorem Away.add_left {u : Bool} {a : Ieee F} (h : Away u a) (b : Ieee F) : Away u (a.add b) := by
  rcases h with rfl | rfl
  · left; simp
  · cases b with
    | nan => left; rfl
    | inf t =>
      change Away u (if u = t then Ieee.inf u else Ieee.nan)
      split
      · exact .inr rfl
      · exact .inl rfl
    | fin x hx => exact .inr rfl

theorem Away.mul {u : Bool} {a : Ieee F} (h : Away u a) (b : Ieee F) : Away (u != b.isNeg) (a.mul b) := by
  rcases h with rfl | rfl
  · left; simp
  · cases b with
    | nan => left; rfl
    | inf t => right; rfl
    | fin x hx =>
      change Away _ (if _ then Ieee.nan else Ieee.inf _)
      split
      · exact .inl rfl
      · exact .inr rfl

theorem Away.min {u : Bool} {a b : Ieee F} (h : Away u a) (h' : Away u b) : Away u (a.min b) := by
  rcases h with rfl | rfl
  · left; simp
  · rcases h' with rfl | rfl
    · left; simp
    · right; simp [Ieee.min, Ieee.isNan]

theorem Away.max {u : Bool} {a b : Ieee F} (h : Away u a) (h' : Away u b) : Away u (a.max b) := by
  rcases h with rfl | rfl
  · left; simp
  · rcases h' with rfl | rfl
    · left; simp
    · right; simp [Ieee.max, Ieee.isNan]

theorem away_not_pos {a : Ieee F} (h : Away true a) : (Ieee.ofReal F 0).lt a = false := by
  rw [Ieee.ofReal_zero]
  rcases h with rfl | rfl <;> rfl

theorem min_down {a : Ieee F} (h : Away true a) (b : Ieee F) : Away true (a.min b) := by
  rcases h with rfl | rfl
  · left; simp
  · cases b with
    | nan => left; simp
    | inf t => cases t <;> exact .inr rfl
    | fin x hx => exact .inr rfl

theorem max_up {a : Ieee F} (h : Away false a) (b : Ieee F) : Away false (a.max b) := by
  rcases h with rfl | rfl
  · left; simp
  · cases b with
    | nan => left; simp
    | inf t => cases t <;> exact .inr rfl
    | fin x hx => exact .inr rfl

theorem gap_not_pos {u : Bool} {hi lo : Ieee F} (h1 : Away u hi) (h2 : Away u lo) (b c : Ieee F) :
    (Ieee.ofReal F 0).lt ((hi.min b).sub (lo.max c)) = false := by
  apply away_not_pos
  cases u with
  | true => exact (min_down h1 b).add_left _
  | false =>
    apply Away.add_right
    rcases max_up h2 c with h | h <;> rw [h]
    · exact .inl rfl
    · exact .inr rfl

theorem corners_away {L : Libm F.fmt} {b : BoxIe F} {u : Bool} :
    (Away u b.x → ∀ k, Away u (cornersIe L b k).1) ∧ (Away u b.y → ∀ k, Away u (cornersIe L b k).2) := by
  constructor
  · intro h k
    fin_cases k <;> exact h.add_right _
  · intro h k
    fin_cases k <;> exact h.add_right _

/-- The projections of a box with a broken pose on its own axes are all NaN or all the same infinity. -/
theorem proj_away (L : Libm F.fmt) {p : Pt (Ieee F)} (h : BrokenPose p) (axis : Fin 2) :
    ∃ u, ∀ k, Away u (projIe L p.boxIe p.boxIe axis k) := by
  have away : ∀ {a : Ieee F}, a.isFinite = false → ∃ u, Away u a := fun {a} ha => by
    rcases Ieee.not_finite ha with rfl | ⟨b, rfl⟩
    · exact ⟨true, .inl rfl⟩
    · exact ⟨b, .inr rfl⟩
  rcases h with h | h | h
  · obtain ⟨u, hu⟩ := away h
    exact ⟨_, fun k => ((corners_away.1 hu k).mul _).add_left _⟩
  · obtain ⟨u, hu⟩ := away h
    exact ⟨_, fun k => ((corners_away.2 hu k).mul _).add_right _⟩
  · refine ⟨true, fun k => .inl ?_⟩
    have ht : ∀ f, (p.boxIe.yaw).trig f = (.nan : Ieee F) := fun f => by
      change p.yaw.trig f = _
      rcases Ieee.not_finite h with h | ⟨b, h⟩ <;> rw [h] <;> rfl
    unfold projIe axisIe
    simp only [ht]
    fin_cases axis <;> simp

theorem overlapAOverB_broken (L : Libm F.fmt) {p : Pt (Ieee F)} (h : BrokenPose p) (b : BoxIe F) :
    overlapAOverBIe L p.boxIe b = false := by
  obtain ⟨u, hu⟩ := proj_away L h 0
  unfold overlapAOverBIe
  rw [List.all_eq_false]
  refine ⟨0, List.mem_finRange _, ?_⟩
  rw [gap_not_pos (u := u)]
  · simp
  · exact (((hu 0).max (hu 1)).max (hu 2)).max (hu 3)
  · exact (((hu 0).min (hu 1)).min (hu 2)).min (hu 3)

/-- An object with a broken pose overlaps nothing, whichever of the two is looked at first. -/
theorem C158_no_overlap (L : Libm F.fmt) {p : Pt (Ieee F)} (h : BrokenPose p) (q : Pt (Ieee F)) :
    hasOverlapIe L p.boxIe q.boxIe = false ∧ hasOverlapIe L q.boxIe p.boxIe = false := by
  unfold hasOverlapIe
  rw [overlapAOverB_broken L h]
  simp

/-! ### C158: others are not affected -/

/-- The dynamics models move every object by itself in this arithmetic as well. -/
theorem C158_builtin : ObjectByObject (stateDynamics : DynamicsModel (Ieee F) (StateRow (Ieee F)) n) ∧
    ∀ (dt : Ieee F) (inverse : {T : Nat} → [NeZero T] → (Fin T → Pt (Ieee F)) → Int → Act (Delta3Ie F)),
      ObjectByObject (DynamicsModel.ofSingle (n := n) (deltaUpdateIe dt) inverse) :=
  ⟨fun a a' c c' i ha _ => by simp only [stateDynamics, ha], fun _ _ => ofSingle_objectByObject _ _⟩

section
variable [NeZero T] {D : Type}

/-- Whole episodes: NaN and infinities in the log, the state or the actions of other objects do not change the states of object `i`. -/
theorem C158_episode {i : Fin n} {s s' : SimState (Ieee F) n T} {d : DynamicsModel (Ieee F) D n} (hd : ObjectByObject d) (cfg : EnvConfig)
    {as as' : List (Fin n → Act D)} (ha : List.Forall₂ (fun a a' => a' i = a i) as as') (h : SameObject i s s') :
    Both (SameObject i) (reset cfg s >>= fun s0 => stepMany d cfg s0 as) (reset cfg s' >>= fun s0 => stepMany d cfg s0 as') :=
  C151_episode hd cfg ha h

/-- Nor do they change its log divergence. -/
theorem C158_log_divergence (L : Libm F.fmt) {i : Fin n} {s s' : SimState (Ieee F) n T} (h : SameObject i s s') :
    logDivergenceMetricIe L s' i = logDivergenceMetricIe L s i := by
  simp only [logDivergenceMetricIe, h.sim, h.log, h.clock]

/-- Nor its overlap: the broken object counts as if it were not there. -/
theorem C158_overlap (L : Libm F.fmt) {i j : Fin n} {s s' : SimState (Ieee F) n T} (hij : i ≠ j) (h : ∀ k, k ≠ j → SameObject k s s')
    (hb : BrokenPose (currentPt s' j)) (hv : (currentPt s j).valid = false) : overlapMetricIe L s' i = overlapMetricIe L s i := by
  have hk : ∀ k, k ≠ j → currentPt s' k = currentPt s k := fun k hk => by
    unfold currentPt
    rw [(h k hk).sim, (h k hk).clock]
  have e : ∀ s : SimState (Ieee F) n T, overlapMetricIe L s i =
      { value := if ((List.finRange n).any fun k => (decide (k ≠ i) && hasOverlapIe L (currentPt s k).boxIe (currentPt s i).boxIe) && (currentPt s k).valid)
          then Ieee.ofReal F 1 else Ieee.ofReal F 0, valid := (currentPt s i).valid } := fun _ => rfl
  rw [e, e, hk i hij]
  have : (fun k => (decide (k ≠ i) && hasOverlapIe L (currentPt s' k).boxIe (currentPt s i).boxIe) && (currentPt s' k).valid) =
      fun k => (decide (k ≠ i) && hasOverlapIe L (currentPt s k).boxIe (currentPt s i).boxIe) && (currentPt s k).valid := by
    funext k
    by_cases hkj : k = j
    · subst hkj
      rw [(C158_no_overlap L hb (currentPt s i)).1, hv, Bool.and_false, Bool.and_false, Bool.false_and]
    · rw [hk k hkj]
  rw [this]

/-! ### C158: what does leak -/

theorem sdcXy_broken {k j : Fin n} {s : SimState (Ieee F) n T} (hs : SdcIs s k) (hj : j ≠ k)
    (hb : (currentPt s j).x.isFinite = false ∨ (currentPt s j).y.isFinite = false) :
    (sdcXyCurrentIe s).1 = .nan ∨ (sdcXyCurrentIe s).2 = .nan := by
  have hsel : (s.objectMetadata j).isSdc = false := Bool.eq_false_iff.2 fun h => hj ((hs j).1 h)
  exact hb.imp (fun h => select_broken hsel h) (fun h => select_broken hsel h)

theorem add_broken_left {a b : Ieee F} (h : a.isFinite = false) : (a.add b).isFinite = false := by
  rcases Ieee.not_finite h with rfl | ⟨s, rfl⟩
  · simp [Ieee.isFinite]
  · cases b with
    | nan => simp [Ieee.isFinite]
    | inf t =>
      change (if s = t then Ieee.inf s else Ieee.nan).isFinite = false
      split <;> rfl
    | fin y hy => rfl

theorem add_broken_right {a b : Ieee F} (h : b.isFinite = false) : (a.add b).isFinite = false := by
  rcases Ieee.not_finite h with rfl | ⟨s, rfl⟩
  · simp [Ieee.isFinite]
  · cases a with
    | nan => simp [Ieee.isFinite]
    | inf t =>
      change (if t = s then Ieee.inf t else Ieee.nan).isFinite = false
      split <;> rfl
    | fin y hy => rfl

theorem foldl_add_broken {l : List (Ieee F)} (acc : Ieee F) (h : acc.isFinite = false ∨ ∃ a ∈ l, a.isFinite = false) :
    (l.foldl Ieee.add acc).isFinite = false := by
  induction l generalizing acc with
  | nil =>
    rcases h with h | ⟨a, ha, -⟩
    · exact h
    · simp at ha
  | cons b l ih =>
    rw [List.foldl_cons]
    apply ih
    rcases h with h | ⟨a, ha, h⟩
    · exact .inl (add_broken_left h)
    · rcases List.mem_cons.1 ha with rfl | ha
      · exact .inl (add_broken_right h)
      · exact .inr ⟨a, ha, h⟩

theorem mul_broken {a b : Ieee F} (h : a.isFinite = false) : (a.mul b).isFinite = false := by
  rcases Ieee.not_finite h with rfl | ⟨s, rfl⟩
  · simp [Ieee.isFinite]
  · rcases (Away.mul (F := F) (u := s) (.inr rfl) b) with h | h <;> rw [h] <;> rfl

/-- Selecting from entries of which one is broken, selected or not, gives a broken result. -/
theorem select_any_broken {x : Fin n → Ieee F} {sel : Fin n → Bool} {j : Fin n} (hb : (x j).isFinite = false) :
    (selectByOnehotIe x sel).isFinite = false := by
  unfold selectByOnehotIe
  apply foldl_add_broken
  exact .inr ⟨_, List.mem_ofFn.2 ⟨j, rfl⟩, mul_broken hb⟩

theorem sdcXy_any_broken {j : Fin n} {s : SimState (Ieee F) n T}
    (hb : (currentPt s j).x.isFinite = false ∨ (currentPt s j).y.isFinite = false) :
    (sdcXyCurrentIe s).1.isFinite = false ∨ (sdcXyCurrentIe s).2.isFinite = false :=
  hb.imp (fun h => select_any_broken h) (fun h => select_any_broken h)

theorem minList_broken {l : List (Ieee F)} (h : ∀ a ∈ l, a = .nan ∨ a = .inf false) : (Ieee.minList l).isFinite = false := by
  by_cases hn : .nan ∈ l
  · rw [Ieee.minList_mem_nan hn]; rfl
  · rw [Ieee.minList_top fun a ha => (h a ha).resolve_left fun he => hn (he ▸ ha)]; rfl

/-- The distance to the nearest path point of a broken position is NaN or infinite. -/
theorem minDist_broken (L : Libm F.fmt) (paths : List (SdcPath (Ieee F))) (use : SdcPath (Ieee F) → PathPoint (Ieee F) → Bool)
    {xy : Ieee F × Ieee F} (h : xy.1.isFinite = false ∨ xy.2.isFinite = false) : (minDistIe L paths use xy).isFinite = false := by
  apply minList_broken
  intro a ha
  obtain ⟨path, -, ha⟩ := List.mem_flatMap.1 ha
  obtain ⟨p, -, rfl⟩ := List.mem_map.1 ha
  split
  · exact distIe_broken L h
  · exact .inr rfl

/-- A position of any object that is NaN or infinite makes the wrong-way metric of the SDC 0 and invalid. -/
theorem C158_wrong_way_exact (L : Libm F.fmt) {j : Fin n} {s : SimState (Ieee F) n T} {paths : List (SdcPath (Ieee F))}
    (hp : s.sdcPaths = some paths) (hne : ∃ path ∈ paths, path.points ≠ [])
    (hb : (currentPt s j).x.isFinite = false ∨ (currentPt s j).y.isFinite = false) :
    wrongWayMetricIe L s = .ok { value := Ieee.ofReal F 0, valid := false } := by
  unfold wrongWayMetricIe
  rw [hp]
  simp only
  rw [if_neg]
  · simp only [minDist_broken L paths _ (sdcXy_any_broken hb), Bool.not_false, Bool.or_true, if_true]
  · obtain ⟨path, h1, h2⟩ := hne
    simp only [List.all_eq_true, List.isEmpty_iff, not_forall]
    exact ⟨path, h1, h2⟩

/-- With NaN as the position of the SDC the off-route metric says "on the route", and is valid. -/
theorem offRoute_of_nan (L : Libm F.fmt) {s : SimState (Ieee F) n T} {paths : List (SdcPath (Ieee F))} (hp : s.sdcPaths = some paths)
    {path : SdcPath (Ieee F)} {p : PathPoint (Ieee F)} (hpath : path ∈ paths) (hpt : p ∈ path.points) (hon : path.onRoute = true)
    (hpv : p.valid = true) (hv : sdcValidCurrentIe s = true) (hx : (sdcXyCurrentIe s).1 = .nan ∨ (sdcXyCurrentIe s).2 = .nan) :
    offRouteMetricIe L s = .ok { value := Ieee.ofReal F 0, valid := true } := by
  have hmin : minDistIe L paths (fun path p => path.onRoute && (sdcValidCurrentIe s && p.valid)) (sdcXyCurrentIe s) = .nan := by
    apply Ieee.minList_mem_nan
    refine List.mem_flatMap.2 ⟨path, hpath, List.mem_map.2 ⟨p, hpt, ?_⟩⟩
    simp only [hon, hv, hpv, Bool.and_self, if_true]
    exact distIe_nan L hx
  unfold offRouteMetricIe
  rw [hp]
  simp only
  rw [if_neg]
  · rw [hmin]
    simp [Ieee.ofReal_zero, Ieee.zero, Ieee.isFinite]
  · simp only [List.all_eq_true, List.isEmpty_iff, not_forall]
    exact ⟨path, hpath, fun h => by rw [h] at hpt; simp at hpt⟩

/-- A position of another object that is NaN or infinite makes the off-route metric of the SDC 0 and valid, wherever the SDC is. -/
theorem C158_off_route_exact (L : Libm F.fmt) {k j : Fin n} {s : SimState (Ieee F) n T} (hs : SdcIs s k) (hj : j ≠ k)
    (hb : (currentPt s j).x.isFinite = false ∨ (currentPt s j).y.isFinite = false) (hv : (currentPt s k).valid = true)
    {paths : List (SdcPath (Ieee F))} (hp : s.sdcPaths = some paths)
    {path : SdcPath (Ieee F)} {p : PathPoint (Ieee F)} (hpath : path ∈ paths) (hpt : p ∈ path.points) (hon : path.onRoute = true)
    (hpv : p.valid = true) : offRouteMetricIe L s = .ok { value := Ieee.ofReal F 0, valid := true } :=
  offRoute_of_nan L hp hpath hpt hon hpv ((selectByOnehotBool_eq _ _ k hs).trans hv) (sdcXy_broken hs hj hb)

/-- What one expects: a scenario in which only other objects differ has the same route metrics. -/
def RouteSeesOnlySdc (F : IeeeFormat) (L : Libm F.fmt) : Prop :=
  ∀ (n T : Nat) [NeZero T] (k : Fin n) (s s' : SimState (Ieee F) n T), SdcIs s k → SdcIs s' k → SameObject k s s' →
    s'.sdcPaths = s.sdcPaths → wrongWayMetricIe L s' = wrongWayMetricIe L s ∧ offRouteMetricIe L s' = offRouteMetricIe L s

/-- It holds while the current positions of all objects are finite. -/
theorem C158_route_partial (L : Libm F.fmt) {k : Fin n} {s s' : SimState (Ieee F) n T} (hs : SdcIs s k) (hs' : SdcIs s' k)
    (h : SameObject k s s') (hp : s'.sdcPaths = s.sdcPaths)
    (hf : ∀ i, (currentPt s i).x.isFinite = true ∧ (currentPt s i).y.isFinite = true)
    (hf' : ∀ i, (currentPt s' i).x.isFinite = true ∧ (currentPt s' i).y.isFinite = true) :
    wrongWayMetricIe L s' = wrongWayMetricIe L s ∧ offRouteMetricIe L s' = offRouteMetricIe L s := by
  have hxy : sdcXyCurrentIe s' = sdcXyCurrentIe s := by
    have e1 : sdcXyCurrentIe s = ((currentPt s k).x, (currentPt s k).y) :=
      Prod.ext (select_finite hs fun i => (hf i).1) (select_finite hs fun i => (hf i).2)
    have e2 : sdcXyCurrentIe s' = ((currentPt s' k).x, (currentPt s' k).y) :=
      Prod.ext (select_finite hs' fun i => (hf' i).1) (select_finite hs' fun i => (hf' i).2)
    rw [e1, e2, currentPt, currentPt, h.sim, h.clock]
  have hv : sdcValidCurrentIe s' = sdcValidCurrentIe s := by
    unfold sdcValidCurrentIe
    rw [selectByOnehotBool_eq _ _ k hs, selectByOnehotBool_eq _ _ k hs', h.sim, h.clock]
  unfold wrongWayMetricIe offRouteMetricIe
  rw [hp, hxy, hv]
  exact ⟨rfl, rfl⟩

end

/-! ### C158: the planning environment -/

/-- The log divergence reported by the planning environment is NaN when another object, valid or not, has a broken position. -/
theorem C158_planning_metric_exact [NeZero T] (L : Libm F.fmt) {k j : Fin n} {s : SimState (Ieee F) n T} (hs : SdcIs s k) (hj : j ≠ k)
    (hb : (currentPt s j).x.isFinite = false ∨ (currentPt s j).y.isFinite = false) :
    (planMetricIe (logDivergenceMetricIe L s) fun i => (s.objectMetadata i).isSdc).value = .nan := by
  apply select_broken (j := j) (Bool.eq_false_iff.2 fun h => hj ((hs j).1 h))
  change (distIe L _ _).isFinite = false
  rcases distIe_broken L (a := ((currentPt s j).x, (currentPt s j).y)) (b := ((dynIndex (s.logTrajectory j) s.timestep).x, (dynIndex (s.logTrajectory j) s.timestep).y)) hb with h | h
  · exact (congrArg Ieee.isFinite h).trans rfl
  · exact (congrArg Ieee.isFinite h).trans rfl

/-- The reward of the planning environment is NaN when a metric of another valid object is NaN or infinite. -/
theorem C158_planning_reward_exact {k j : Fin n} {isSdc : Fin n → Bool} (hs : ∀ i, isSdc i = true ↔ i = k) (hj : j ≠ k)
    {terms : List (MetricArrIe F n × Ieee F)} {r : Fin n → MetricResultIe F} {w : Ieee F} (hr : (.perObject r, w) ∈ terms)
    (hv : (r j).valid = true) (hb : (r j).value.isFinite = false) : planRewardIe terms isSdc = .nan := by
  have hsel : isSdc j = false := Bool.eq_false_iff.2 fun h => hj ((hs j).1 h)
  apply select_broken hsel
  unfold linearRewardIe
  have key : ∀ (l : List (MetricArrIe F n × Ieee F)) (acc : Ieee F), acc.isFinite = false ∨ (MetricArrIe.perObject r, w) ∈ l →
      (l.foldl (fun reward e => reward.add (((e.1.masked j).mul (Ieee.ofReal F (if isSdc j then 1 else 0))).mul e.2)) acc).isFinite = false := by
    intro l
    induction l with
    | nil => intro acc h; exact h.resolve_right (by simp)
    | cons e l ih =>
      intro acc h
      rw [List.foldl_cons]
      apply ih
      rcases h with h | h
      · exact .inl (add_broken_left h)
      · rcases List.mem_cons.1 h with rfl | h
        · refine .inl (add_broken_right (mul_broken (mul_broken ?_)))
          change (r j).maskedValue.isFinite = false
          rw [MetricResultIe.maskedValue, if_pos hv]
          exact hb
        · exact .inr h
  exact key _ _ (.inr hr)

/-- What one expects: the planning environment reports the metrics and the reward of the SDC. -/
def PlanningSeesSdc (F : IeeeFormat) (L : Libm F.fmt) : Prop :=
  ∀ (n T : Nat) [NeZero T] (k : Fin n) (s : SimState (Ieee F) n T), SdcIs s k →
    planMetricIe (logDivergenceMetricIe L s) (fun i => (s.objectMetadata i).isSdc) = logDivergenceMetricIe L s k

/-- It holds when the metric and the reward of all objects are finite. -/
theorem C158_planning_partial {k : Fin n} {isSdc : Fin n → Bool} (hs : ∀ i, isSdc i = true ↔ i = k) :
    (∀ r : Fin n → MetricResultIe F, (∀ i, (r i).value.isFinite = true) → planMetricIe r isSdc = r k) ∧
    ∀ terms : List (MetricArrIe F n × Ieee F), (∀ i, (linearRewardIe terms isSdc i).isFinite = true) →
      planRewardIe terms isSdc = linearRewardIe terms isSdc k := by
  refine ⟨fun r h => ?_, fun terms h => select_finite hs h⟩
  unfold planMetricIe
  rw [select_finite hs h, selectByOnehotBool_eq _ _ k hs]

/-! ### C159 -/

section
variable [NeZero T]

/-- The log divergence of an object with a broken position is NaN or infinite, so the fault can be seen. -/
theorem C159_log_divergence_partial (L : Libm F.fmt) {i : Fin n} {s : SimState (Ieee F) n T}
    (hb : (currentPt s i).x.isFinite = false ∨ (currentPt s i).y.isFinite = false) : (logDivergenceMetricIe L s i).value.isFinite = false := by
  change (distIe L _ _).isFinite = false
  rcases distIe_broken L (a := ((currentPt s i).x, (currentPt s i).y)) (b := ((dynIndex (s.logTrajectory i) s.timestep).x, (dynIndex (s.logTrajectory i) s.timestep).y)) hb with h | h
  · exact (congrArg Ieee.isFinite h).trans rfl
  · exact (congrArg Ieee.isFinite h).trans rfl

/-- The wrong-way metric of an SDC with a broken position is marked as invalid. -/
theorem C159_wrong_way_partial (L : Libm F.fmt) {k : Fin n} {s : SimState (Ieee F) n T}
    (hb : (currentPt s k).x.isFinite = false ∨ (currentPt s k).y.isFinite = false) {r : MetricResultIe F}
    (h : wrongWayMetricIe L s = .ok r) : r.valid = false := by
  unfold wrongWayMetricIe at h
  cases hp : s.sdcPaths with
  | none => rw [hp] at h; simp at h
  | some paths =>
    rw [hp] at h
    simp only at h
    split at h
    · simp at h
    · simp only [Except.ok.injEq] at h
      rw [← h]
      exact minDist_broken L paths _ (sdcXy_any_broken hb)

/-- The off-route metric of an SDC at NaN is 0, which means on the route, and valid. -/
theorem C159_off_route_exact (L : Libm F.fmt) {k : Fin n} {s : SimState (Ieee F) n T} (hs : SdcIs s k)
    (hb : (currentPt s k).x = .nan ∨ (currentPt s k).y = .nan) (hv : (currentPt s k).valid = true)
    {paths : List (SdcPath (Ieee F))} (hp : s.sdcPaths = some paths)
    {path : SdcPath (Ieee F)} {p : PathPoint (Ieee F)} (hpath : path ∈ paths) (hpt : p ∈ path.points) (hon : path.onRoute = true)
    (hpv : p.valid = true) : offRouteMetricIe L s = .ok { value := Ieee.ofReal F 0, valid := true } := by
  refine offRoute_of_nan L hp hpath hpt hon hpv ((selectByOnehotBool_eq _ _ k hs).trans hv) (hb.imp (fun h => ?_) (fun h => ?_)) <;>
  · refine Ieee.foldl_add_mem_nan (List.mem_ofFn.2 ⟨k, ?_⟩) _
    unfold currentPt at h
    simp only [h, Ieee.nan_mul]

/-- The overlap of an object with a broken pose is 0, and valid as often as the object is. -/
theorem C159_overlap_exact (L : Libm F.fmt) {i : Fin n} {s : SimState (Ieee F) n T} (hb : BrokenPose (currentPt s i)) :
    overlapMetricIe L s i = { value := Ieee.ofReal F 0, valid := (currentPt s i).valid } := by
  unfold overlapMetricIe
  simp only
  rw [if_neg]
  · rfl
  · simp only [List.any_eq_true, not_exists, not_and]
    intro j _
    have h1 := (C158_no_overlap L hb (dynIndex (s.simTrajectory j) s.timestep)).2
    unfold currentPt at h1
    rw [h1]
    simp

end

/-- What one expects: no metric rates an object with a broken position with the valid best value. -/
def BrokenIsNotPerfect (F : IeeeFormat) (L : Libm F.fmt) : Prop :=
  ∀ (n T : Nat) [NeZero T] (k : Fin n) (s : SimState (Ieee F) n T), SdcIs s k →
    (currentPt s k).x.isFinite = false ∨ (currentPt s k).y.isFinite = false →
    offRouteMetricIe L s ≠ .ok { value := Ieee.ofReal F 0, valid := true } ∧
    (0 < n → overlapMetricIe L s k ≠ { value := Ieee.ofReal F 0, valid := true })

/-! ### A car far from its route -/

theorem rep_two_pow (φ : Format) (k : Nat) : φ.Rep (2 ^ k) := by
  have h2 := φ.two_le
  have h1 := φ.normal_one
  refine ⟨1, k, ?_, by omega, by norm_num⟩
  rw [abs_one]
  exact one_lt_pow₀ (by norm_num) (by omega)

theorem Ieee.ofReal_rep {x : ℝ} (h : F.fmt.Rep x) (hx : |x| < 256) :
    Ieee.ofReal F x = .fin ⟨x, h⟩ (lt_of_lt_of_le hx (Ieee.two_pow_top F)) := by
  unfold Ieee.ofReal
  rw [Ieee.round_rep h]
  exact Ieee.ofFlt_small _

/-- A state of two objects with one on-route path through the origin: the SDC 8 metres from it, the other object where it is told to be. -/
noncomputable def exBroken (F : IeeeFormat) (own other : Ieee F) (otherValid : Bool) : SimState (Ieee F) 2 1 :=
  let pt : Ieee F → Bool → Pt (Ieee F) := fun x v =>
    { x := x, y := Ieee.zero F, z := Ieee.zero F, velX := Ieee.zero F, velY := Ieee.zero F, yaw := Ieee.zero F, valid := v, timestampMicros := 0,
      length := Ieee.ofReal F 4, width := Ieee.ofReal F 2, height := Ieee.ofReal F 1 }
  { simTrajectory := fun i _ => if i = 0 then pt own true else pt other otherValid
    logTrajectory := fun i _ => if i = 0 then pt (Ieee.zero F) true else pt (Ieee.zero F) otherValid
    logTrafficLight := []
    objectMetadata := fun i => { id := i.val, objectType := 1, isSdc := decide (i = 0), isModeled := true, isValid := true, objectsOfInterest := false, isControlled := true }
    timestep := 0
    sdcPaths := some [{ points := [{ x := Ieee.zero F, y := Ieee.zero F, z := Ieee.zero F, id := 0, valid := true, arcLength := Ieee.zero F }], onRoute := true }]
    roadgraphPoints := none }

theorem exBroken_sdc (own other : Ieee F) (v : Bool) : SdcIs (exBroken F own other v) 0 := fun i => by simp [exBroken]

theorem exBroken_same (own other other' : Ieee F) (v v' : Bool) : SameObject 0 (exBroken F own other v) (exBroken F own other' v') :=
  ⟨rfl, rfl, rfl, rfl⟩

theorem exBroken_cur (own other : Ieee F) (v : Bool) :
    (currentPt (exBroken F own other v) 0).x = own ∧ (currentPt (exBroken F own other v) 0).y = Ieee.zero F ∧
    (currentPt (exBroken F own other v) 0).valid = true ∧
    (currentPt (exBroken F own other v) 1).x = other ∧ (currentPt (exBroken F own other v) 1).y = Ieee.zero F ∧
    (currentPt (exBroken F own other v) 1).valid = v :=
  ⟨rfl, rfl, rfl, rfl, rfl, rfl⟩

/-- With all positions finite and a square root that is right at 64, the SDC is seen to be 8 metres off its route. -/
theorem exBroken_off (L : Libm F.fmt) (hL : ∀ x, x.val = 64 → (L.sqrt x).val = 8) :
    offRouteMetricIe L (exBroken F (Ieee.ofReal F 8) (Ieee.zero F) true) = .ok { value := Ieee.ofReal F 8, valid := true } := by
  have r8 : F.fmt.Rep 8 := by have := rep_two_pow F.fmt 3; norm_num at this; exact this
  have r64 : F.fmt.Rep 64 := by have := rep_two_pow F.fmt 6; norm_num at this; exact this
  have e8 : Ieee.ofReal F 8 = .fin ⟨8, r8⟩ _ := Ieee.ofReal_rep r8 (by norm_num)
  have hz : (Ieee.zero F).isFinite = true := rfl
  have hfx : ∀ i, (currentPt (exBroken F (Ieee.ofReal F 8) (Ieee.zero F) true) i).x.isFinite = true := fun i => by
    fin_cases i
    · change (Ieee.ofReal F 8).isFinite = true
      rw [e8]; rfl
    · rfl
  have hfy : ∀ i, (currentPt (exBroken F (Ieee.ofReal F 8) (Ieee.zero F) true) i).y.isFinite = true := fun i => by
    fin_cases i <;> rfl
  have hx : sdcXyCurrentIe (exBroken F (Ieee.ofReal F 8) (Ieee.zero F) true) = (Ieee.ofReal F 8, Ieee.zero F) :=
    Prod.ext (select_finite (exBroken_sdc _ _ _) hfx) (select_finite (exBroken_sdc _ _ _) hfy)
  have hv : sdcValidCurrentIe (exBroken F (Ieee.ofReal F 8) (Ieee.zero F) true) = true :=
    selectByOnehotBool_eq _ _ 0 (exBroken_sdc _ _ _)
  have s8 : (Ieee.ofReal F 8).sub (Ieee.zero F) = Ieee.ofReal F 8 := by
    have hn : (Ieee.zero F).neg = Ieee.zero F := by
      change Ieee.fin _ _ = Ieee.fin _ _
      exact Ieee.fin_congr (Subtype.ext (by change -(0 : ℝ) = 0; simp))
    rw [Ieee.sub, hn, e8, Ieee.add_zero_fin]
  have s0 : (Ieee.zero F).sub (Ieee.zero F) = Ieee.zero F := by
    have hn : (Ieee.zero F).neg = Ieee.zero F := by
      change Ieee.fin _ _ = Ieee.fin _ _
      exact Ieee.fin_congr (Subtype.ext (by change -(0 : ℝ) = 0; simp))
    rw [Ieee.sub, hn]
    exact Ieee.add_zero_fin _ _
  have m0 : (Ieee.zero F).mul (Ieee.zero F) = Ieee.zero F := by
    have := Ieee.mul_zero_fin (F := F) ⟨0, Format.Rep.zero⟩ (by simp)
    rw [Ieee.ofReal_zero] at this
    exact this
  have m8 : (Ieee.ofReal F 8).mul (Ieee.ofReal F 8) = Ieee.ofReal F 64 := by
    rw [e8]
    change Ieee.ofFlt F (Flt.mul _ _) = Ieee.ofReal F 64
    unfold Ieee.ofReal Flt.mul
    congr 2
    norm_num
  have hd : distIe L (Ieee.ofReal F 8, Ieee.zero F) (Ieee.zero F, Ieee.zero F) = Ieee.ofReal F 8 := by
    unfold distIe
    simp only
    rw [s8, s0, m0, m8, Ieee.ofReal_rep r64 (by norm_num), Ieee.add_zero_fin]
    change (if (64 : ℝ) < 0 then Ieee.nan else Ieee.ofFlt F (L.sqrt ⟨64, r64⟩)) = _
    rw [if_neg (by norm_num)]
    have : L.sqrt ⟨64, r64⟩ = ⟨8, r8⟩ := Subtype.ext (hL _ rfl)
    rw [this, e8]
    exact Ieee.ofFlt_small _
  have hmin : minDistIe L [{ points := [{ x := Ieee.zero F, y := Ieee.zero F, z := Ieee.zero F, id := 0, valid := true, arcLength := Ieee.zero F }], onRoute := true }]
      (fun path p => path.onRoute && (true && p.valid)) (Ieee.ofReal F 8, Ieee.zero F) = Ieee.ofReal F 8 := by
    unfold minDistIe
    simp only [List.flatMap_cons, List.flatMap_nil, List.append_nil, List.map_cons, List.map_nil, Bool.and_self, if_true, hd]
    rw [e8]
    rfl
  unfold offRouteMetricIe
  rw [hx, hv]
  change (if _ then _ else _) = _
  rw [if_neg (by simp)]
  have l5 : (Ieee.ofReal F 5).lt (Ieee.ofReal F 8) = true := by
    have r6 : F.fmt.Rep 6 := by
      have h2 := F.fmt.two_le
      have h1 := F.fmt.normal_one
      refine ⟨3, 1, ?_, by omega, by norm_num⟩
      have : (2 : ℤ) ^ 2 ≤ 2 ^ F.fmt.prec := pow_le_pow_right₀ (by norm_num) h2
      rw [abs_of_pos (by norm_num)]
      linarith
    have r1 : F.fmt.fl 5 ≤ 6 := Format.fl_le_of_rep r6 (by norm_num)
    have r0 : 0 ≤ F.fmt.fl 5 := fl_nonneg (by norm_num)
    have e5 : Ieee.ofReal F 5 = .fin (Flt.round F.fmt 5) (by
        change |F.fmt.fl 5| < _
        rw [abs_of_nonneg r0]
        linarith [Ieee.two_pow_top F]) := Ieee.ofFlt_small _
    rw [e5, e8]
    change decide (F.fmt.fl 5 < 8) = true
    rw [decide_eq_true_iff]
    linarith
  change Except.ok (MetricResultIe.mk _ _) = _
  rw [hmin, l5, Bool.true_or, if_pos rfl, e8]
  rfl

theorem sqrt64 (φ : Format) : ∀ x : Flt φ, x.val = 64 → ((exactLibm φ).sqrt x).val = 8 := fun x hx => by
  have r8 : φ.Rep 8 := by have := rep_two_pow φ 3; norm_num at this; exact this
  change φ.fl √x.val = 8
  rw [hx, show (64 : ℝ) = 8 ^ 2 by norm_num, Real.sqrt_sq (by norm_num), Format.fl_of_rep r8]

/-- The SDC is 8 metres off its route; with the other object at NaN, even if that object is marked as invalid, the metric says it is on it. -/
theorem C158_route_violated (L : Libm F.fmt) (hL : ∀ x, x.val = 64 → (L.sqrt x).val = 8) : ¬ RouteSeesOnlySdc F L := fun h => by
  have h1 := (h 2 1 0 _ _ (exBroken_sdc (Ieee.ofReal F 8) (Ieee.zero F) true) (exBroken_sdc (Ieee.ofReal F 8) .nan false)
    (exBroken_same _ _ _ _ _) rfl).2
  rw [exBroken_off L hL, C158_off_route_exact L (exBroken_sdc _ _ _) (j := 1) (by decide) (.inl rfl) rfl rfl List.mem_cons_self List.mem_cons_self rfl rfl] at h1
  have r8 : F.fmt.Rep 8 := by have := rep_two_pow F.fmt 3; norm_num at this; exact this
  rw [Ieee.ofReal_zero, Ieee.ofReal_rep r8 (by norm_num)] at h1
  simp only [Except.ok.injEq, MetricResultIe.mk.injEq, and_true] at h1
  have h2 : (0 : ℝ) = 8 := congrArg (fun a : Ieee F => match a with | .fin x _ => x.val | _ => 0) h1
  norm_num at h2

/-- The hypotheses on the square root are met by the correctly rounding library. -/
example : ¬ RouteSeesOnlySdc binary32 (exactLibm _) := C158_route_violated _ (sqrt64 _)

/-- The SDC is at its logged position; with the other object at NaN the planning environment reports NaN. -/
theorem C158_planning_violated (L : Libm F.fmt) (hL : ∀ x, x.val = 0 → (L.sqrt x).val = 0) : ¬ PlanningSeesSdc F L := fun h => by
  have h1 := congrArg MetricResultIe.value (h 2 1 0 _ (exBroken_sdc (Ieee.zero F) .nan false))
  rw [C158_planning_metric_exact L (exBroken_sdc _ _ _) (j := 1) (by decide) (.inl rfl)] at h1
  have h2 : Ieee.nan = distIe L (Ieee.zero F, Ieee.zero F) (Ieee.zero F, Ieee.zero F) := h1
  have hn : (Ieee.zero F).neg = Ieee.zero F := by
    change Ieee.fin _ _ = Ieee.fin _ _
    exact Ieee.fin_congr (Subtype.ext (by change -(0 : ℝ) = 0; simp))
  have s0 : (Ieee.zero F).add (Ieee.zero F) = Ieee.zero F := Ieee.add_zero_fin _ _
  have m0 : (Ieee.zero F).mul (Ieee.zero F) = Ieee.zero F := by
    have := Ieee.mul_zero_fin (F := F) ⟨0, Format.Rep.zero⟩ (by simp)
    rw [Ieee.ofReal_zero] at this
    exact this
  unfold distIe at h2
  simp only [Ieee.sub, hn, s0, m0] at h2
  change Ieee.nan = (if (0 : ℝ) < 0 then Ieee.nan else Ieee.ofFlt F (L.sqrt ⟨0, Format.Rep.zero⟩)) at h2
  rw [if_neg (lt_irrefl _), Ieee.ofFlt_small (by rw [hL _ rfl]; simp)] at h2
  exact absurd h2 (by simp)

example : ¬ PlanningSeesSdc binary32 (exactLibm _) := C158_planning_violated _ fun x hx => by
  change Format.fl _ √x.val = 0
  rw [hx, Real.sqrt_zero, Format.fl_of_rep Format.Rep.zero]

/-- An SDC at NaN is rated as on its route and as free of overlap. -/
theorem C159_violated (L : Libm F.fmt) : ¬ BrokenIsNotPerfect F L := fun h =>
  (h 2 1 0 _ (exBroken_sdc .nan (Ieee.zero F) true) (.inl rfl)).1
    (C159_off_route_exact L (exBroken_sdc _ _ _) (.inl rfl) rfl rfl List.mem_cons_self List.mem_cons_self rfl rfl)

/-- The second half of the expectation fails as well. -/
theorem C159_overlap_violated (L : Libm F.fmt) : ∃ s : SimState (Ieee F) 2 1, SdcIs s 0 ∧ BrokenPose (currentPt s 0) ∧
    overlapMetricIe L s 0 = { value := Ieee.ofReal F 0, valid := true } :=
  ⟨exBroken F .nan (Ieee.zero F) true, exBroken_sdc _ _ _, .inl rfl, C159_overlap_exact L (.inl rfl)⟩

/-! ### The hypotheses can be met -/

/-- Two scenarios that differ in the other object only, which is at infinity in one of them and absent in the other. -/
example (L : Libm F.fmt) (v : Bool) : overlapMetricIe L (exBroken F (Ieee.ofReal F 8) (.inf false) v) 0 =
    overlapMetricIe L (exBroken F (Ieee.ofReal F 8) (Ieee.zero F) false) 0 :=
  C158_overlap L (j := 1) (by decide) (fun k hk => by
    have : k = 0 := by fin_cases k <;> simp_all
    subst this
    exact exBroken_same _ _ _ _ _) (.inl rfl) rfl

/-- An episode in which only the action and the log of the other object are broken. -/
example (dt : Ieee F) (inv : {T : Nat} → [NeZero T] → (Fin T → Pt (Ieee F)) → Int → Act (Delta3Ie F)) (cfg : EnvConfig)
    (a a' : Fin 2 → Act (Delta3Ie F)) (h : a' 0 = a 0) :
    Both (SameObject 0) (reset cfg (exBroken F (Ieee.ofReal F 8) (Ieee.zero F) true) >>= fun s0 => stepMany (.ofSingle (deltaUpdateIe dt) inv) cfg s0 [a])
      (reset cfg (exBroken F (Ieee.ofReal F 8) .nan true) >>= fun s0 => stepMany (.ofSingle (deltaUpdateIe dt) inv) cfg s0 [a']) :=
  C158_episode (C158_builtin.2 dt inv) cfg (.cons h .nil) (exBroken_same _ _ _ _ _)

/-- A reward that is NaN because of the other object, which the environment does not control. -/
example (L : Libm F.fmt) (w : Ieee F) : planRewardIe [(.perObject (logDivergenceMetricIe L (exBroken F (Ieee.ofReal F 8) .nan true)), w)]
    (fun i => ((exBroken F (Ieee.ofReal F 8) .nan true).objectMetadata i).isSdc) = .nan :=
  C158_planning_reward_exact (exBroken_sdc _ _ _) (j := 1) (by decide) List.mem_cons_self rfl (C159_log_divergence_partial L (.inl rfl))

end

end Waymax
