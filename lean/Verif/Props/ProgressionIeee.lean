import Verif.Spec.ProgressionIeee
import Verif.Props.OffroadIeee
import Verif.Props.ProgressionMachine
/-
C168: route progression with NaN, infinities and overflow.
-/

namespace Waymax

section
variable {F : IeeeFormat} {n T : Nat} [NeZero T]

omit [NeZero T] in
theorem argminAux_none {l : List (Ieee F)} (h : argminIeAux l = none) : l = [] := by
  cases l with
  | nil => rfl
  | cons x xs =>
    rw [argminIeAux] at h
    split at h
    · cases h
    · split at h
      · cases h
      · split at h <;> cases h

omit [NeZero T] in
theorem argminIe_get {l : List (Ieee F)} (h : l ≠ []) : ∃ v, l[argminIe l]? = some v := by
  unfold argminIe
  cases hl : argminIeAux l with
  | none => exact absurd (argminAux_none hl) h
  | some jv => exact ⟨jv.2, argminAux_get l (j := jv.1) (v := jv.2) hl⟩

/-- The metric for one of the paths. -/
theorem progressionIe_cases (L : Libm F.fmt) {s : SimState (Ieee F) n T} {paths : List (SdcPath (Ieee F))} (hp : s.sdcPaths = some paths)
    (hne : ∃ path ∈ paths, path.points ≠ []) {first last : Fin T} (hf : first.val = 0) (hl : last.val + 1 = T) :
    ∃ ref ∈ paths, ∀ valid : Bool, valid = (Ieee.minList (paths.flatMap fun path =>
        path.points.map (routeDistIe L (sdcValidCurrentIe s) (sdcXyCurrentIe s) path))).isFinite →
      progressionMetricIe L s = .ok ⟨if valid then progressIe (arclengthForPtsIe L (sdcXyCurrentIe s) ref)
        (arclengthForPtsIe L (sdcXyLogIe s first) ref) (arclengthForPtsIe L (sdcXyLogIe s last) ref) else Ieee.ofReal F 0, valid⟩ := by
  have hfirst : (⟨0, Nat.pos_of_ne_zero (NeZero.ne T)⟩ : Fin T) = first := Fin.ext hf.symm
  have hlast : (⟨T - 1, Nat.sub_lt (Nat.pos_of_ne_zero (NeZero.ne T)) one_pos⟩ : Fin T) = last := Fin.ext (by simp only; omega)
  obtain ⟨path0, hm0, hpt0⟩ := hne
  have hall : (paths.all fun path => path.points.isEmpty) = false := by
    rw [List.all_eq_false]
    exact ⟨path0, hm0, by simpa using hpt0⟩
  have hmap : (paths.map fun path => Ieee.minList (path.points.map (routeDistIe L (sdcValidCurrentIe s) (sdcXyCurrentIe s) path))) ≠ [] := by
    simpa using List.ne_nil_of_mem hm0
  obtain ⟨v, hv⟩ := argminIe_get hmap
  rw [List.getElem?_map, Option.map_eq_some_iff] at hv
  obtain ⟨ref, hr, -⟩ := hv
  refine ⟨ref, List.mem_of_getElem? hr, ?_⟩
  rintro valid rfl
  unfold progressionMetricIe
  simp only [hp, hall, hr, hfirst, hlast, Bool.false_eq_true, if_false]

omit [NeZero T] in
theorem neg_broken {a : Ieee F} (h : a.isFinite = false) : a.neg.isFinite = false := by
  cases a with
  | nan => rfl
  | inf s => rfl
  | fin x hx => cases h

omit [NeZero T] in
theorem distIe_broken_right (L : Libm F.fmt) {a b : Ieee F × Ieee F} (h : b.1.isFinite = false ∨ b.2.isFinite = false) :
    distIe L a b = .nan ∨ distIe L a b = .inf false := by
  unfold distIe
  simp only
  rcases h with h | h
  · rcases square_broken (show (a.1.sub b.1).isFinite = false from add_broken_right (neg_broken h)) with h1 | h1
    · left; rw [h1]; simp
    · rw [h1]
      rcases square_cases (a.2.sub b.2) with h2 | h2 | ⟨y, hy, h2, -⟩
      · left; rw [h2]; simp
      · right; rw [h2]; rfl
      · right; rw [h2]; rfl
  · rcases square_broken (show (a.2.sub b.2).isFinite = false from add_broken_right (neg_broken h)) with h1 | h1
    · left; rw [h1]; simp
    · rw [h1]
      rcases square_cases (a.1.sub b.1) with h2 | h2 | ⟨y, hy, h2, -⟩
      · left; rw [h2]; simp
      · right; rw [h2]; rfl
      · right; rw [h2]; rfl

/-- C168: when the current position of any object is broken, of the car or of another one, valid or not, the metric is invalid and 0. -/
theorem C168_broken_position (L : Libm F.fmt) {s : SimState (Ieee F) n T} {paths : List (SdcPath (Ieee F))} (hp : s.sdcPaths = some paths)
    (hne : ∃ path ∈ paths, path.points ≠ []) {j : Fin n} (hb : (currentPt s j).x.isFinite = false ∨ (currentPt s j).y.isFinite = false) :
    progressionMetricIe L s = .ok { value := Ieee.ofReal F 0, valid := false } := by
  obtain ⟨ref, -, h⟩ := progressionIe_cases L hp hne (first := ⟨0, Nat.pos_of_ne_zero (NeZero.ne T)⟩)
    (last := ⟨T - 1, Nat.sub_lt (Nat.pos_of_ne_zero (NeZero.ne T)) one_pos⟩) rfl (by have := Nat.pos_of_ne_zero (NeZero.ne T); simp only; omega)
  have : (Ieee.minList (paths.flatMap fun path =>
        path.points.map (routeDistIe L (sdcValidCurrentIe s) (sdcXyCurrentIe s) path))).isFinite = false := by
    apply minList_broken
    intro a ha
    obtain ⟨path, -, ha⟩ := List.mem_flatMap.1 ha
    obtain ⟨p, -, rfl⟩ := List.mem_map.1 ha
    unfold routeDistIe
    split
    · split
      · exact distIe_broken_right L (sdcXy_any_broken hb)
      · exact .inr rfl
    · exact .inr rfl
  rw [h _ this.symm]
  rfl

omit [NeZero T] in
theorem nan_sub_right (a : Ieee F) : a.sub .nan = .nan := by cases a <;> rfl

omit [NeZero T] in
theorem nan_distIe_left (L : Libm F.fmt) {a b : Ieee F × Ieee F} (h : a.1 = .nan ∨ a.2 = .nan) : distIe L a b = .nan := distIe_nan L h

/-- C168: a valid point of an on-route path at NaN makes the metric invalid and 0 wherever the car is. -/
theorem C168_broken_path (L : Libm F.fmt) {s : SimState (Ieee F) n T} {k : Fin n} (hs : SdcIs s k) (hv : (currentPt s k).valid = true)
    {paths : List (SdcPath (Ieee F))} (hp : s.sdcPaths = some paths) {path : SdcPath (Ieee F)} (hpath : path ∈ paths) (hon : path.onRoute = true)
    {p : PathPoint (Ieee F)} (hpt : p ∈ path.points) (hpv : p.valid = true) (hb : p.x = .nan ∨ p.y = .nan) :
    progressionMetricIe L s = .ok { value := Ieee.ofReal F 0, valid := false } := by
  obtain ⟨ref, -, h⟩ := progressionIe_cases L hp ⟨path, hpath, List.ne_nil_of_mem hpt⟩ (first := ⟨0, Nat.pos_of_ne_zero (NeZero.ne T)⟩)
    (last := ⟨T - 1, Nat.sub_lt (Nat.pos_of_ne_zero (NeZero.ne T)) one_pos⟩) rfl (by have := Nat.pos_of_ne_zero (NeZero.ne T); simp only; omega)
  have hval : sdcValidCurrentIe s = true := (selectByOnehotBool_eq _ _ k hs).trans hv
  have : (Ieee.minList (paths.flatMap fun path =>
        path.points.map (routeDistIe L (sdcValidCurrentIe s) (sdcXyCurrentIe s) path))).isFinite = false := by
    rw [Ieee.minList_mem_nan]
    · rfl
    · refine List.mem_flatMap.2 ⟨path, hpath, List.mem_map.2 ⟨p, hpt, ?_⟩⟩
      unfold routeDistIe
      rw [hval, hpv, hon]
      exact distIe_nan L hb
  rw [h _ this.symm]
  rfl

omit [NeZero T] in
theorem sdcXyLog_broken {s : SimState (Ieee F) n T} {k : Fin n} (hs : SdcIs s k) {t : Fin T} (h : LogBrokenAt s k t) :
    (sdcXyLogIe s t).1 = .nan ∨ (sdcXyLogIe s t).2 = .nan := by
  obtain ⟨j, h | ⟨hj, h⟩⟩ := h
  · refine h.imp (fun h => ?_) fun h => ?_ <;>
    · refine Ieee.foldl_add_mem_nan (List.mem_ofFn.2 ⟨j, ?_⟩) _
      simp only [h, Ieee.nan_mul]
  · have hsel : (s.objectMetadata j).isSdc = false := Bool.eq_false_iff.2 fun h => hj ((hs j).1 h)
    exact h.imp (fun h => select_broken hsel h) (fun h => select_broken hsel h)

omit [NeZero T] in
theorem arclength_nan_eq (L : Libm F.fmt) {a b : Ieee F × Ieee F} (ha : a.1 = .nan ∨ a.2 = .nan) (hb : b.1 = .nan ∨ b.2 = .nan)
    (path : SdcPath (Ieee F)) : arclengthForPtsIe L a path = arclengthForPtsIe L b path := by
  unfold arclengthForPtsIe
  have : ∀ p : PathPoint (Ieee F), distIe L a (p.x, p.y) = distIe L b (p.x, p.y) := fun p => by rw [distIe_nan L ha, distIe_nan L hb]
  simp only [this]

omit [NeZero T] in
theorem arclength_not_nan (L : Libm F.fmt) (xy : Ieee F × Ieee F) {path : SdcPath (Ieee F)} (h : ∀ p ∈ path.points, p.arcLength ≠ .nan) :
    arclengthForPtsIe L xy path ≠ .nan := by
  unfold arclengthForPtsIe
  cases hg : path.points[argminIe (path.points.map fun p => if p.valid then distIe L xy (p.x, p.y) else .inf false)]? with
  | none =>
    rw [Option.map_none, Option.getD_none]
    exact ofFlt_not_nan _
  | some p => exact h p (List.mem_of_getElem? hg)

omit [NeZero T] in
theorem Ieee.eq_self {a : Ieee F} (h : a ≠ .nan) : a.eq a = true := by
  cases a with
  | nan => exact absurd rfl h
  | inf s => simp [Ieee.eq]
  | fin x hx => simp [Ieee.eq]

/-- C168: if the first and the last step of the log are broken, of the car or of any other object, the metric reports the full way wherever
the car is, and marks it as valid. -/
theorem C168_broken_log (L : Libm F.fmt) {s : SimState (Ieee F) n T} {k : Fin n} (hs : SdcIs s k) {paths : List (SdcPath (Ieee F))}
    (hp : s.sdcPaths = some paths) (hne : ∃ path ∈ paths, path.points ≠ []) (harc : ∀ path ∈ paths, ∀ p ∈ path.points, p.arcLength ≠ .nan)
    {first last : Fin T} (hf : first.val = 0) (hl : last.val + 1 = T) (h1 : LogBrokenAt s k first) (h2 : LogBrokenAt s k last)
    {r : MetricResultIe F} (hr : progressionMetricIe L s = .ok r) (hv : r.valid = true) : r.value = Ieee.ofReal F 1 := by
  obtain ⟨ref, hm, h⟩ := progressionIe_cases L hp hne hf hl
  rw [hr] at h
  obtain rfl := Except.ok.inj (h _ rfl)
  simp only at hv ⊢
  rw [hv, if_pos rfl]
  unfold progressIe
  rw [arclength_nan_eq L (sdcXyLog_broken hs h1) (sdcXyLog_broken hs h2), Ieee.eq_self (arclength_not_nan L _ (harc ref hm)), if_pos rfl]

theorem arclength_all_nan (L : Libm F.fmt) (xy : Ieee F × Ieee F) {path : SdcPath (Ieee F)} (hne : path.points ≠ [])
    (h : ∀ p ∈ path.points, p.arcLength = .nan) : arclengthForPtsIe L xy path = .nan := by
  unfold arclengthForPtsIe
  obtain ⟨v, hv⟩ := argminIe_get (l := path.points.map fun p => if p.valid then distIe L xy (p.x, p.y) else .inf false) (by simpa using hne)
  rw [List.getElem?_map, Option.map_eq_some_iff] at hv
  obtain ⟨p, hp, -⟩ := hv
  rw [hp, Option.map_some, Option.getD_some]
  exact h p (List.mem_of_getElem? hp)

/-- C168: broken arc lengths show. If they are NaN all along the paths, the progress is NaN, and not the full way, wherever the metric is
valid. -/
theorem C168_broken_arclength (L : Libm F.fmt) {s : SimState (Ieee F) n T} {paths : List (SdcPath (Ieee F))} (hp : s.sdcPaths = some paths)
    (hne : paths ≠ []) (hpts : ∀ path ∈ paths, path.points ≠ []) (harc : ∀ path ∈ paths, ∀ p ∈ path.points, p.arcLength = .nan)
    {r : MetricResultIe F} (hr : progressionMetricIe L s = .ok r) (hv : r.valid = true) : r.value = .nan := by
  have hT := Nat.pos_of_ne_zero (NeZero.ne T)
  obtain ⟨path, hpath⟩ := List.exists_mem_of_ne_nil _ hne
  obtain ⟨ref, hm, h⟩ := progressionIe_cases L hp ⟨path, hpath, hpts path hpath⟩ (first := ⟨0, hT⟩)
    (last := ⟨T - 1, Nat.sub_lt hT one_pos⟩) rfl (by simp only; omega)
  rw [hr] at h
  obtain rfl := Except.ok.inj (h _ rfl)
  simp only at hv ⊢
  rw [hv, if_pos rfl]
  have ha := fun xy => arclength_all_nan L xy (hpts ref hm) (harc ref hm)
  unfold progressIe
  rw [ha, ha, ha]
  rfl

/-- The full expectation: the progress of the car depends on no other object. -/
def ProgressSeesOnlySdc (F : IeeeFormat) (L : Libm F.fmt) : Prop :=
  ∀ (n T : Nat) [NeZero T] (k : Fin n) (s s' : SimState (Ieee F) n T), SdcIs s k → SdcIs s' k → SameObject k s s' →
    s'.sdcPaths = s.sdcPaths → progressionMetricIe L s' = progressionMetricIe L s

/-- C168: it holds while the current positions and the first and last logged positions of all objects are finite. Missing: broken positions,
see `C168_sees_only_sdc_violated`. -/
theorem C168_sees_only_sdc_partial (L : Libm F.fmt) {k : Fin n} {s s' : SimState (Ieee F) n T} (hs : SdcIs s k) (hs' : SdcIs s' k)
    (h : SameObject k s s') (hp : s'.sdcPaths = s.sdcPaths) {first last : Fin T} (hf : first.val = 0) (hl : last.val + 1 = T)
    (hc : ∀ i, (currentPt s i).x.isFinite = true ∧ (currentPt s i).y.isFinite = true)
    (hc' : ∀ i, (currentPt s' i).x.isFinite = true ∧ (currentPt s' i).y.isFinite = true)
    (h1 : LogFiniteAt s first) (h1' : LogFiniteAt s' first) (h2 : LogFiniteAt s last) (h2' : LogFiniteAt s' last) :
    progressionMetricIe L s' = progressionMetricIe L s := by
  have hfirst : (⟨0, Nat.pos_of_ne_zero (NeZero.ne T)⟩ : Fin T) = first := Fin.ext hf.symm
  have hlast : (⟨T - 1, Nat.sub_lt (Nat.pos_of_ne_zero (NeZero.ne T)) one_pos⟩ : Fin T) = last := Fin.ext (by simp only; omega)
  have hxy : sdcXyCurrentIe s' = sdcXyCurrentIe s := by
    have e1 : sdcXyCurrentIe s = ((currentPt s k).x, (currentPt s k).y) :=
      Prod.ext (select_finite hs fun i => (hc i).1) (select_finite hs fun i => (hc i).2)
    have e2 : sdcXyCurrentIe s' = ((currentPt s' k).x, (currentPt s' k).y) :=
      Prod.ext (select_finite hs' fun i => (hc' i).1) (select_finite hs' fun i => (hc' i).2)
    rw [e1, e2, currentPt, currentPt, h.sim, h.clock]
  have hv : sdcValidCurrentIe s' = sdcValidCurrentIe s := by
    unfold sdcValidCurrentIe
    rw [selectByOnehotBool_eq _ _ k hs, selectByOnehotBool_eq _ _ k hs', h.sim, h.clock]
  have hlog : ∀ t, LogFiniteAt s t → LogFiniteAt s' t → sdcXyLogIe s' t = sdcXyLogIe s t := fun t g g' => by
    have e1 : sdcXyLogIe s t = ((s.logTrajectory k t).x, (s.logTrajectory k t).y) :=
      Prod.ext (select_finite hs fun i => (g i).1) (select_finite hs fun i => (g i).2)
    have e2 : sdcXyLogIe s' t = ((s'.logTrajectory k t).x, (s'.logTrajectory k t).y) :=
      Prod.ext (select_finite hs' fun i => (g' i).1) (select_finite hs' fun i => (g' i).2)
    rw [e1, e2, h.log]
  unfold progressionMetricIe
  rw [hp, hxy, hv, hfirst, hlast, hlog first h1 h1', hlog last h2 h2']

/-! ### Padding -/

omit [NeZero T] in
theorem forall₂_map_eq {A B C : Type} {R : A → B → Prop} {l : List A} {l' : List B} (h : List.Forall₂ R l l') {f : A → C} {g : B → C}
    (hfg : ∀ a b, R a b → f a = g b) : l.map f = l'.map g := by
  induction h with
  | nil => rfl
  | cons hab _ ih => rw [List.map_cons, List.map_cons, hfg _ _ hab, ih]

omit [NeZero T] in
theorem arclength_same (L : Libm F.fmt) (xy : Ieee F × Ieee F) {p q : SdcPath (Ieee F)} (h : SamePath p q) :
    arclengthForPtsIe L xy p = arclengthForPtsIe L xy q := by
  unfold arclengthForPtsIe
  rw [forall₂_map_eq h.2 (g := fun p => if p.valid then distIe L xy (p.x, p.y) else .inf false) fun a b hab => ?_]
  · rw [← List.getElem?_map, ← List.getElem?_map, forall₂_map_eq h.2 fun a b hab => hab.arc]
  · rw [← hab.valid]
    split
    · rename_i hv
      rw [(hab.xy hv).1, (hab.xy hv).2]
    · rfl

/-- C168: whatever stands in the coordinates of points marked invalid, NaN included, has no effect. -/
theorem C168_padding (L : Libm F.fmt) {s s' : SimState (Ieee F) n T} {paths paths' : List (SdcPath (Ieee F))}
    (hp : s.sdcPaths = some paths) (hpaths : List.Forall₂ SamePath paths paths') (hs' : s' = { s with sdcPaths := some paths' }) :
    progressionMetricIe L s' = progressionMetricIe L s := by
  subst hs'
  have hdist : ∀ (v : Bool) (xy : Ieee F × Ieee F) (p q : SdcPath (Ieee F)), SamePath p q →
      p.points.map (routeDistIe L v xy p) = q.points.map (routeDistIe L v xy q) := by
    intro v xy p q h
    refine forall₂_map_eq h.2 fun a b hab => ?_
    unfold routeDistIe
    rw [← hab.valid, ← h.1]
    cases hv : a.valid with
    | false => rfl
    | true => rw [(hab.xy hv).1, (hab.xy hv).2]
  have hempty : (paths'.all fun path => path.points.isEmpty) = paths.all fun path => path.points.isEmpty := by
    clear hp
    induction hpaths with
    | nil => rfl
    | cons hab _ ih =>
      rw [List.all_cons, List.all_cons, ih]
      congr 1
      have := hab.2.length_eq
      rw [Bool.eq_iff_iff, List.isEmpty_iff, List.isEmpty_iff, ← List.length_eq_zero_iff, ← List.length_eq_zero_iff, this]
  have hmins : ∀ (v : Bool) (xy : Ieee F × Ieee F), (paths'.map fun path => Ieee.minList (path.points.map (routeDistIe L v xy path))) =
      paths.map fun path => Ieee.minList (path.points.map (routeDistIe L v xy path)) := fun v xy =>
    (forall₂_map_eq hpaths fun a b hab => by rw [hdist v xy a b hab]).symm
  have hflat : ∀ (v : Bool) (xy : Ieee F × Ieee F), (paths'.flatMap fun path => path.points.map (routeDistIe L v xy path)) =
      paths.flatMap fun path => path.points.map (routeDistIe L v xy path) := fun v xy => by
    rw [List.flatMap_def, List.flatMap_def, forall₂_map_eq hpaths fun a b hab => hdist v xy a b hab]
  have hget : ∀ idx : Nat, (paths[idx]? = none ∧ paths'[idx]? = none) ∨ ∃ a b, paths[idx]? = some a ∧ paths'[idx]? = some b ∧ SamePath a b := by
    clear hp hempty hmins hflat
    induction hpaths with
    | nil => exact fun idx => .inl ⟨by simp, by simp⟩
    | cons hab _ ih =>
      intro idx
      cases idx with
      | zero => exact .inr ⟨_, _, rfl, rfl, hab⟩
      | succ idx => exact ih idx
  unfold progressionMetricIe
  have hx : sdcXyCurrentIe { s with sdcPaths := some paths' } = sdcXyCurrentIe s := rfl
  have hv : sdcValidCurrentIe { s with sdcPaths := some paths' } = sdcValidCurrentIe s := rfl
  have hlg : ∀ t, sdcXyLogIe { s with sdcPaths := some paths' } t = sdcXyLogIe s t := fun _ => rfl
  simp only [hp, hempty, hx, hv, hlg, hmins, hflat]
  split
  · rfl
  · generalize argminIe _ = idx
    rcases hget idx with ⟨h1, h2⟩ | ⟨a, b, h1, h2, hab⟩
    · rw [h1, h2]
    · rw [h1, h2]
      simp only [arclength_same L _ hab]

/-! ### No overflow -/

omit [NeZero T] in
theorem zero_lift : Ieee.ofReal F 0 = Ieee.ofFlt F (Flt.zero F.fmt) := by
  rw [Ieee.ofReal_zero, Ieee.ofFlt_small (by simp [Flt.zero])]
  rfl

omit [NeZero T] in
theorem sdcXyLog_lift {B : ℕ} (hB : B < F.top) {s : SimState (Flt F.fmt) n T} (h : CoordinatesWithin B s) {k : Fin n}
    (hk : ∀ i, (s.objectMetadata i).isSdc = true ↔ i = k) (t : Fin T) :
    sdcXyLogIe (s.ieee F) t = (Ieee.ofFlt F (sdcXyLogFl s t).1, Ieee.ofFlt F (sdcXyLogFl s t).2) ∧
    |(sdcXyLogFl s t).1.val| ≤ 2 ^ B ∧ |(sdcXyLogFl s t).2.val| ≤ 2 ^ B := by
  have e : sdcXyLogFl s t = ((s.logTrajectory k t).x, (s.logTrajectory k t).y) :=
    Prod.ext (selectFl_exact _ _ k hk) (selectFl_exact _ _ k hk)
  have hfin : ∀ {x : Flt F.fmt}, |x.val| ≤ 2 ^ B → (Ieee.ofFlt F x).isFinite = true := fun h =>
    (hasVal_ofFlt (lt_of_le_of_lt h (two_pow_lt F hB))).finite
  rw [e]
  refine ⟨Prod.ext ?_ ?_, h.log k t⟩
  · exact select_finite (k := k) hk fun i => hfin (h.log i t).1
  · exact select_finite (k := k) hk fun i => hfin (h.log i t).2

omit [NeZero T] in
theorem arclength_lift {L : Libm F.fmt} (hL : SaneSqrt L) {B : ℕ} (hB : 2 * B + 3 < F.top) {xy : Flt F.fmt × Flt F.fmt}
    (hxy : |xy.1.val| ≤ 2 ^ B ∧ |xy.2.val| ≤ 2 ^ B) {path : SdcPath (Flt F.fmt)}
    (hp : ∀ p ∈ path.points, |p.x.val| ≤ 2 ^ B ∧ |p.y.val| ≤ 2 ^ B) :
    arclengthForPtsIe L (Ieee.ofFlt F xy.1, Ieee.ofFlt F xy.2) (path.ieee F) = Ieee.ofFlt F (arclengthForPtsFl L xy path) := by
  have hlist : ((path.ieee F).points.map fun p => if p.valid then distIe L (Ieee.ofFlt F xy.1, Ieee.ofFlt F xy.2) (p.x, p.y) else .inf false) =
      (path.points.map fun p => orInfFl p.valid (distFl L xy (p.x, p.y))).map (topIe F) := by
    unfold SdcPath.ieee
    rw [List.map_map, List.map_map]
    apply List.map_congr_left
    intro p hpt
    simp only [Function.comp_apply]
    unfold orInfFl
    split
    · exact (dist_hasVal hL hB (b := (p.x, p.y)) hxy (hp p hpt)).eq
    · rfl
  have hsm : ∀ a ∈ (path.points.map fun p => orInfFl p.valid (distFl L xy (p.x, p.y))), ∀ x : Flt F.fmt, a = x → |x.val| < 2 ^ F.top := by
    rintro a ha x rfl
    obtain ⟨p, hpt, hx⟩ := List.mem_map.1 ha
    unfold orInfFl at hx
    split at hx
    · rw [← WithTop.coe_inj.1 hx]
      exact (dist_hasVal hL hB hxy (hp p hpt)).small
    · exact absurd hx (by simp)
  unfold arclengthForPtsIe arclengthForPtsFl
  rw [hlist, argmin_lift _ hsm]
  generalize argmin (path.points.map fun p => orInfFl p.valid (distFl L xy (p.x, p.y))) = j
  unfold SdcPath.ieee
  rw [List.getElem?_map]
  cases path.points[j]? with
  | none => exact zero_lift
  | some p => rfl

omit [NeZero T] in
theorem arclengthFl_mem (L : Libm F.fmt) (xy : Flt F.fmt × Flt F.fmt) {path : SdcPath (Flt F.fmt)} (h : path.points ≠ []) :
    ∃ p ∈ path.points, arclengthForPtsFl L xy path = p.arcLength := by
  have hne : (path.points.map fun p => orInfFl p.valid (distFl L xy (p.x, p.y))) ≠ [] := by simpa using h
  obtain ⟨v, h1, -, -⟩ := argmin_spec hne
  rw [List.getElem?_map, Option.map_eq_some_iff] at h1
  obtain ⟨p, hp, -⟩ := h1
  refine ⟨p, List.mem_of_getElem? hp, ?_⟩
  unfold arclengthForPtsFl
  rw [hp]
  rfl

omit [NeZero T] in
theorem progress_lift {B D : ℕ} (hB : B + D + 1 < F.top) (hD : F.fmt.emin ≤ -(D : ℤ)) {c s e : Flt F.fmt} (hc : |c.val| ≤ 2 ^ B) (hs : |s.val| ≤ 2 ^ B)
    (he : |e.val| ≤ 2 ^ B) (hgap : e.val = s.val ∨ (2 : ℝ) ^ (-(D : ℤ)) ≤ |e.val - s.val|) :
    progressIe (Ieee.ofFlt F c) (Ieee.ofFlt F s) (Ieee.ofFlt F e) = Ieee.ofFlt F (progressFl c s e) := by
  have hlt : ∀ {x : Flt F.fmt}, |x.val| ≤ 2 ^ B → |x.val| < 2 ^ F.top := fun h => lt_of_le_of_lt h (two_pow_lt F (by omega))
  have heq : (Ieee.ofFlt F e).eq (Ieee.ofFlt F s) = decide (e.val = s.val) := by
    rw [Ieee.ofFlt_small (hlt he), Ieee.ofFlt_small (hlt hs)]
    rfl
  unfold progressIe progressFl
  rw [heq]
  by_cases hes : e.val = s.val
  · rw [if_pos (decide_eq_true hes), if_pos hes]
    rfl
  · rw [if_neg (by simpa using hes), if_neg hes]
    have g := hgap.resolve_left hes
    have n1 : |F.fmt.fl (c.val - s.val)| ≤ 2 ^ (B + 1) := abs_fl_le ((abs_sub _ _).trans (by rw [pow_succ]; linarith))
    have n2 : |F.fmt.fl (e.val - s.val)| ≤ 2 ^ (B + 1) := abs_fl_le ((abs_sub _ _).trans (by rw [pow_succ]; linarith))
    have t1 : (2 : ℝ) ^ (B + 1) < 2 ^ F.top := two_pow_lt F (by omega)
    have hrep : F.fmt.Rep (2 ^ (-(D : ℤ))) := by
      refine ⟨1, -(D : ℤ), ?_, hD, by norm_num⟩
      rw [abs_one]
      exact one_lt_pow₀ (by norm_num) (by have := F.fmt.two_le; omega)
    have hlow : (2 : ℝ) ^ (-(D : ℤ)) ≤ |F.fmt.fl (e.val - s.val)| := by
      rcases le_total 0 (e.val - s.val) with h0 | h0
      · rw [abs_of_nonneg h0] at g
        exact (Format.le_fl_of_rep hrep g).trans (le_abs_self _)
      · rw [abs_of_nonpos h0] at g
        have := Format.fl_le_of_rep (φ := F.fmt) (x := e.val - s.val) hrep.neg (by linarith)
        exact le_trans (by linarith) (neg_le_abs _)
    have hpos : (0 : ℝ) < 2 ^ (-(D : ℤ)) := Format.two_zpow_pos _
    have hne : F.fmt.fl (e.val - s.val) ≠ 0 := abs_pos.1 (lt_of_lt_of_le hpos hlow)
    have q : |F.fmt.fl (c.val - s.val) / F.fmt.fl (e.val - s.val)| ≤ 2 ^ (B + D + 1) := by
      rw [abs_div, div_le_iff₀ (lt_of_lt_of_le hpos hlow)]
      refine n1.trans ?_
      have e1 : (2 : ℝ) ^ (B + 1) = 2 ^ (B + D + 1) * 2 ^ (-(D : ℤ)) := by
        rw [zpow_neg, zpow_natCast, show B + D + 1 = (B + 1) + D by ring, pow_add _ (B + 1) D, mul_assoc, mul_inv_cancel₀ (by positivity), mul_one]
      rw [e1]
      exact mul_le_mul_of_nonneg_left hlow (by positivity)
    have hq : |F.fmt.fl (F.fmt.fl (c.val - s.val) / F.fmt.fl (e.val - s.val))| < 2 ^ F.top :=
      lt_of_le_of_lt (abs_fl_le q) (two_pow_lt F hB)
    have v1 := (hasVal_ofFlt (hlt hc)).sub (hasVal_ofFlt (hlt hs)) (lt_of_le_of_lt n1 t1)
    have v2 := (hasVal_ofFlt (hlt he)).sub (hasVal_ofFlt (hlt hs)) (lt_of_le_of_lt n2 t1)
    exact HasVal.eq (x := (c.sub s).div (e.sub s)) (v1.div v2 hne hq)

/-- C168: with moderate coordinates and arc lengths nothing overflows, and the metric is that of C167. -/
theorem C168_no_overflow {L : Libm F.fmt} (hL : SaneSqrt L) {B D : ℕ} (hB : 2 * B + 3 < F.top) (hBD : B + D + 1 < F.top)
    (hD : F.fmt.emin ≤ -(D : ℤ)) {s : SimState (Flt F.fmt) n T} (h : CoordinatesWithin B s)
    (harc : ∀ paths, s.sdcPaths = some paths → ArcsWithin B D paths) {k : Fin n} (hk : IsTheSdc s k) :
    progressionMetricIe L (s.ieee F) = (progressionMetricFl L s).map (MetricResultFl.ieee F) := by
  obtain ⟨hxy, hb⟩ := sdcXy_lift (by omega) h hk
  unfold progressionMetricIe progressionMetricFl
  cases hp : s.sdcPaths with
  | none =>
    have : (s.ieee F).sdcPaths = none := by simp [SimState.ieee, hp]
    rw [this]
    rfl
  | some paths =>
    have : (s.ieee F).sdcPaths = some (paths.map (SdcPath.ieee F)) := by simp [SimState.ieee, hp]
    rw [this]
    simp only
    rw [noPoints_lift]
    split
    · rfl
    rename_i hnp
    have hv : sdcValidCurrentIe (s.ieee F) = sdcValidCurrentFl s := rfl
    have hpb := h.paths paths hp
    rw [hxy, hv]
    set xy := sdcXyCurrentFl s with hxydef
    set v := sdcValidCurrentFl s with hvdef
    set g : SdcPath (Flt F.fmt) → PathPoint (Flt F.fmt) → WithTop (Flt F.fmt) :=
      fun path p => if v = true then orInfFl (p.valid && path.onRoute) (distFl L (p.x, p.y) xy) else ⊤ with hg
    have gsm : ∀ path ∈ paths, ∀ p ∈ path.points, ∀ x : Flt F.fmt, g path p = x → |x.val| < 2 ^ F.top := by
      intro path hm p hpt x hx
      simp only [hg] at hx
      split at hx
      · unfold orInfFl at hx
        split at hx
        · rw [← WithTop.coe_inj.1 hx]
          exact (dist_hasVal hL hB (a := (p.x, p.y)) (hpb path hm p hpt) hb).small
        · exact absurd hx (by simp)
      · exact absurd hx (by simp)
    have hdist : ∀ path ∈ paths, (path.ieee F).points.map (routeDistIe L v (Ieee.ofFlt F xy.1, Ieee.ofFlt F xy.2) (path.ieee F)) =
        (path.points.map (g path)).map (topIe F) := by
      intro path hm
      unfold SdcPath.ieee
      rw [List.map_map, List.map_map]
      apply List.map_congr_left
      intro p hpt
      simp only [Function.comp_apply, routeDistIe, hg]
      cases hvv : v with
      | false => rfl
      | true =>
        simp only [if_true]
        unfold orInfFl
        split
        · exact (dist_hasVal hL hB (a := (p.x, p.y)) (hpb path hm p hpt) hb).eq
        · rfl
    have hmin1 : ((paths.map (SdcPath.ieee F)).map fun path => Ieee.minList (path.points.map
          (routeDistIe L v (Ieee.ofFlt F xy.1, Ieee.ofFlt F xy.2) path))) =
        (paths.map fun path => listMin (path.points.map (g path))).map (topIe F) := by
      rw [List.map_map, List.map_map]
      apply List.map_congr_left
      intro path hm
      simp only [Function.comp_apply]
      rw [hdist path hm]
      refine minList_topIe _ fun x hx => ?_
      obtain ⟨p, hpt, hpx⟩ := List.mem_map.1 hx
      exact gsm path hm p hpt x hpx
    have hsm1 : ∀ a ∈ (paths.map fun path => listMin (path.points.map (g path))), ∀ x : Flt F.fmt, a = x → |x.val| < 2 ^ F.top := by
      rintro a ha x rfl
      obtain ⟨path, hm, hx⟩ := List.mem_map.1 ha
      rcases listMin_mem (path.points.map (g path)) with ht | ht
      · rw [ht] at hx
        exact absurd hx (by simp)
      · rw [hx] at ht
        obtain ⟨p, hpt, hpx⟩ := List.mem_map.1 ht
        exact gsm path hm p hpt x hpx
    have hmin2 : Ieee.minList ((paths.map (SdcPath.ieee F)).flatMap fun path => path.points.map
          (routeDistIe L v (Ieee.ofFlt F xy.1, Ieee.ofFlt F xy.2) path)) = topIe F (minOverPathsFl paths g) := by
      unfold minOverPathsFl
      rw [← minList_topIe, List.map_flatMap, List.flatMap_map]
      · congr 1
        apply List.flatMap_congr
        intro path hm
        exact hdist path hm
      · intro x hx
        obtain ⟨path, hm, hx⟩ := List.mem_flatMap.1 hx
        obtain ⟨p, hpt, hpx⟩ := List.mem_map.1 hx
        exact gsm path hm p hpt x hpx
    have hsm2 : ∀ x : Flt F.fmt, minOverPathsFl paths g = x → |x.val| < 2 ^ F.top := by
      intro x hx
      rcases listMin_mem (paths.flatMap fun path => path.points.map fun p => g path p) with ht | ht
      · exact absurd (ht.symm.trans hx) (by simp)
      · have hx' : (x : WithTop (Flt F.fmt)) ∈ (paths.flatMap fun path => path.points.map fun p => g path p) := hx ▸ ht
        obtain ⟨path, hm, hx'⟩ := List.mem_flatMap.1 hx'
        obtain ⟨p, hpt, hpx⟩ := List.mem_map.1 hx'
        exact gsm path hm p hpt x hpx
    rw [hmin1, argmin_lift _ hsm1, hmin2, List.getElem?_map]
    have hmin3 : (minOverPathsFl paths fun path p => g path p) = minOverPathsFl paths g := rfl
    have hne : ∃ path ∈ paths, path.points ≠ [] := by
      by_contra hc
      push Not at hc
      apply hnp
      unfold noPathPointsFl
      rw [List.all_eq_true]
      intro path hm
      rw [hc path hm]
      rfl
    cases hidx : paths[argmin (paths.map fun path => listMin (path.points.map (g path)))]? with
    | none => rfl
    | some ref =>
      have hm := List.mem_of_getElem? hidx
      simp only [Option.map_some]
      rw [arclength_lift hL hB hb (hpb ref hm)]
      obtain ⟨l1, l2⟩ := sdcXyLog_lift (by omega) h hk ⟨0, Nat.pos_of_ne_zero (NeZero.ne T)⟩
      obtain ⟨l3, l4⟩ := sdcXyLog_lift (by omega) h hk ⟨T - 1, Nat.sub_lt (Nat.pos_of_ne_zero (NeZero.ne T)) one_pos⟩
      rw [l1, l3, arclength_lift hL hB l2 (hpb ref hm), arclength_lift hL hB l4 (hpb ref hm)]
      rcases hmv : minOverPathsFl paths g with _ | d
      · change Except.ok _ = Except.ok (MetricResultFl.ieee F ⟨Flt.zero F.fmt, false⟩)
        simp only [MetricResultFl.ieee]
        rw [← zero_lift]
        rfl
      · change Except.ok _ = Except.ok (MetricResultFl.ieee F ⟨progressFl _ _ _, true⟩)
        have hfin : (topIe F (d : WithTop (Flt F.fmt))).isFinite = true := (hasVal_ofFlt (hsm2 d hmv)).finite
        have hfin' : (topIe F (some d : WithTop (Flt F.fmt))).isFinite = true := hfin
        have hrne : ref.points ≠ [] := by
          intro hnil
          have hall := argmin_spec (xs := paths.map fun path => listMin (path.points.map (g path))) (by
            obtain ⟨path, hm', -⟩ := hne
            simpa using List.ne_nil_of_mem hm')
          obtain ⟨w, hw, hw2, -⟩ := hall
          rw [List.getElem?_map, hidx, Option.map_some, hnil] at hw
          have hw' : w = ⊤ := (Option.some.inj hw).symm
          rcases listMin_mem (paths.flatMap fun path => path.points.map fun p => g path p) with ht | ht
          · exact absurd (ht.symm.trans hmv) (by exact nofun)
          · obtain ⟨path, hm', hx'⟩ := List.mem_flatMap.1 ht
            have h1 := listMin_le hx'
            have h2 := hw2 _ (List.mem_map_of_mem (f := fun path => listMin (path.points.map (g path))) hm')
            rw [hw', top_le_iff] at h2
            have h3 : listMin (path.points.map fun p => g path p) = ⊤ := h2
            rw [h3, top_le_iff] at h1
            exact absurd (h1.symm.trans hmv) (by exact nofun)
        obtain ⟨p1, m1, a1⟩ := arclengthFl_mem L xy hrne
        obtain ⟨p2, m2, a2⟩ := arclengthFl_mem L (sdcXyLogFl s ⟨0, Nat.pos_of_ne_zero (NeZero.ne T)⟩) hrne
        obtain ⟨p3, m3, a3⟩ := arclengthFl_mem L (sdcXyLogFl s ⟨T - 1, Nat.sub_lt (Nat.pos_of_ne_zero (NeZero.ne T)) one_pos⟩) hrne
        have A := harc paths hp
        simp only [hfin', if_true, MetricResultFl.ieee]
        rw [a1, a2, a3, progress_lift hBD hD (A.arc ref hm p1 m1) (A.arc ref hm p2 m2) (A.arc ref hm p3 m3) (A.gap ref hm p3 m3 p2 m2)]

end

/-! ### Two cars, the log of the second broken -/

/-- Two cars on the two-point path of C167, both at its start now; the first is the SDC. -/
noncomputable def twoCarsFl : SimState (Flt float32) 2 2 :=
  { simTrajectory := fun _ _ => quarterPt (quarter (-4)) (quarter 0) (quarter 0)
    logTrajectory := fun _ t => quarterPt (![quarter (-4), quarter 0] t) (quarter 0) (quarter 0)
    logTrafficLight := []
    objectMetadata := fun i => { soloMeta (0 : Fin 1) with id := i.val, isSdc := decide (i = 0) }
    timestep := 0
    sdcPaths := some [twoPointPath]
    roadgraphPoints := none }

/-- The same with NaN in the log of the second car. -/
noncomputable def twoCarsBroken : SimState (Ieee binary32) 2 2 :=
  { twoCarsFl.ieee binary32 with
    logTrajectory := fun i t => if i = 0 then (twoCarsFl.ieee binary32).logTrajectory 0 t else { (twoCarsFl.ieee binary32).logTrajectory 1 t with x := .nan } }

theorem twoCars_sdc : IsTheSdc twoCarsFl 0 := fun i => by simp [twoCarsFl]

theorem twoCars_within : CoordinatesWithin 1 twoCarsFl where
  sim := fun i t => by norm_num [twoCarsFl, quarterPt, quarter]
  log := fun i t => by fin_cases t <;> norm_num [twoCarsFl, quarterPt, quarter]
  paths := fun paths h path hm p hp => by
    obtain rfl := Option.some.inj h
    obtain rfl := List.mem_singleton.1 hm
    simp only [twoPointPath, List.mem_cons, List.not_mem_nil, or_false] at hp
    rcases hp with rfl | rfl <;> norm_num [axisPoint, quarter]

theorem twoCars_arcs : ∀ paths, twoCarsFl.sdcPaths = some paths → ArcsWithin 7 0 paths := fun paths h => by
  obtain rfl := Option.some.inj h
  constructor
  · intro path hm p hp
    obtain rfl := List.mem_singleton.1 hm
    simp only [twoPointPath, List.mem_cons, List.not_mem_nil, or_false] at hp
    rcases hp with rfl | rfl <;> norm_num [axisPoint, quarter]
  · intro path hm p hp q hq
    obtain rfl := List.mem_singleton.1 hm
    simp only [twoPointPath, List.mem_cons, List.not_mem_nil, or_false] at hp hq
    rcases hp with rfl | rfl <;> rcases hq with rfl | rfl <;> norm_num [axisPoint, quarter]

theorem CoordinatesWithin.mono {φ : Format} {B C : ℕ} (hBC : B ≤ C) {n T : Nat} {s : SimState (Flt φ) n T} (h : CoordinatesWithin B s) :
    CoordinatesWithin C s :=
  have hp : (2 : ℝ) ^ B ≤ 2 ^ C := pow_le_pow_right₀ (by norm_num) hBC
  { sim := fun i t => ⟨(h.sim i t).1.trans hp, (h.sim i t).2.trans hp⟩
    log := fun i t => ⟨(h.log i t).1.trans hp, (h.log i t).2.trans hp⟩
    paths := fun paths hs path hm p hpt => ⟨(h.paths paths hs path hm p hpt).1.trans hp, (h.paths paths hs path hm p hpt).2.trans hp⟩ }

/-- With finite logs the progress of the SDC is 0. -/
theorem twoCars_value : ∃ r, progressionMetricIe (F := binary32) (exactLibm binary32.fmt) (twoCarsFl.ieee binary32) = .ok ⟨Ieee.ofFlt binary32 r, true⟩ ∧ r.val = 0 := by
  have hv : progressionMetricFl (exactLibm float32) twoCarsFl = .ok ⟨progressFl (quarter 0) (quarter 0) (quarter 400), true⟩ := by
    rcases progressionFl_eq exactLibm_accurate twoCars_sdc (t := 0) rfl rfl twoPoint_ne (first := 0) (last := 1) rfl rfl with
      ⟨-, hn⟩ | ⟨path, hm, -, -, -, -, he⟩
    · exact absurd ⟨rfl, ⟨_, _, List.mem_singleton.2 rfl, rfl, _, List.mem_cons_self, rfl, rfl⟩⟩ hn
    · obtain rfl := List.mem_singleton.1 hm
      rw [he]
      have h1 : ((twoCarsFl.logTrajectory 0 0).x, (twoCarsFl.logTrajectory 0 0).y) = (quarter (-4), quarter 0) := rfl
      have h2 : ((twoCarsFl.logTrajectory 0 1).x, (twoCarsFl.logTrajectory 0 1).y) = (quarter 0, quarter 0) := rfl
      have h3 : ((twoCarsFl.simTrajectory 0 0).x, (twoCarsFl.simTrajectory 0 0).y) = (quarter (-4), quarter 0) := rfl
      rw [h1, h2, h3, (arclength_ends exactLibm_accurate).1, (arclength_ends exactLibm_accurate).2]
  refine ⟨progressFl (quarter 0) (quarter 0) (quarter 400), ?_, ?_⟩
  · rw [C168_no_overflow (F := binary32) (exactLibm_sane _).1 (B := 7) (D := 0) (by decide) (by decide) (by decide) (twoCars_within.mono (by decide))
      twoCars_arcs twoCars_sdc]
    have hv' : progressionMetricFl (exactLibm binary32.fmt) twoCarsFl = .ok ⟨progressFl (quarter 0) (quarter 0) (quarter 400), true⟩ := hv
    rw [hv']
    rfl
  · rcases progressFl_start exactLibm_accurate (quarter 0) (quarter 400) with h0 | ⟨-, h1⟩
    · exact h0
    · norm_num [quarter] at h1

theorem twoCarsBroken_sdc : SdcIs twoCarsBroken 0 := fun i => by simp [twoCarsBroken, twoCarsFl, SimState.ieee]

/-- Both steps of the broken log are broken. -/
theorem twoCarsBroken_log (t : Fin 2) : LogBrokenAt twoCarsBroken 0 t := ⟨1, .inl (.inl rfl)⟩

/-- C168: the SDC is at the start of its way; with NaN in the log of the other car the metric reports that it has reached the end. -/
theorem C168_sees_only_sdc_violated : ¬ ProgressSeesOnlySdc binary32 (exactLibm binary32.fmt) := by
  intro h
  obtain ⟨r, hr, h0⟩ := twoCars_value
  have he := h 2 2 0 (twoCarsFl.ieee binary32) twoCarsBroken (fun i => by simp [twoCarsFl, SimState.ieee]) twoCarsBroken_sdc ⟨rfl, rfl, rfl, rfl⟩ rfl
  rw [hr] at he
  have h1 := C168_broken_log (F := binary32) (exactLibm binary32.fmt) twoCarsBroken_sdc (paths := [twoPointPath.ieee binary32]) rfl
    ⟨_, List.mem_singleton.2 rfl, List.cons_ne_nil _ _⟩ (fun path hm p hp => by
      obtain rfl := List.mem_singleton.1 hm
      obtain ⟨q, -, rfl⟩ := List.mem_map.1 hp
      exact ofFlt_not_nan _) (first := 0) (last := 1) rfl rfl (twoCarsBroken_log _) (twoCarsBroken_log _) he rfl
  have h2 : Ieee.ofFlt binary32 r = .fin r (by rw [h0]; simp) := Ieee.ofFlt_small _
  have h3 : Ieee.ofReal binary32 1 = .fin ⟨1, Ieee.rep_one' _⟩ (by norm_num [binary32]) := Ieee.ofReal_rep _ (by norm_num)
  rw [show (⟨Ieee.ofFlt binary32 r, true⟩ : MetricResultIe binary32).value = Ieee.ofFlt binary32 r from rfl, h2, h3] at h1
  have h4 : r.val = 1 := congrArg (fun a : Ieee binary32 => match a with | .fin x _ => x.val | _ => 0) h1
  rw [h0] at h4
  norm_num at h4

/-- The two cars, the second one somewhere else. -/
noncomputable def twoCarsMoved : SimState (Flt float32) 2 2 :=
  { twoCarsFl with simTrajectory := fun i t => if i = 0 then twoCarsFl.simTrajectory 0 t else quarterPt (quarter 0) (quarter 0) (quarter 0) }

/-- The hypotheses of `C168_sees_only_sdc_partial` are met: two finite scenarios that differ in the second car. -/
example : progressionMetricIe (exactLibm binary32.fmt) (twoCarsMoved.ieee binary32) =
    progressionMetricIe (exactLibm binary32.fmt) (twoCarsFl.ieee binary32) := by
  have hf : ∀ {x : Flt binary32.fmt}, |x.val| ≤ 2 ^ 1 → (Ieee.ofFlt binary32 x).isFinite = true := fun {x} hx =>
    (hasVal_ofFlt (F := binary32) (lt_of_le_of_lt hx (two_pow_lt binary32 (by decide)))).finite
  have hlog := twoCars_within.log
  have hsim := twoCars_within.sim
  have hsim' : ∀ i, |(twoCarsMoved.simTrajectory i 0).x.val| ≤ 2 ^ 1 ∧ |(twoCarsMoved.simTrajectory i 0).y.val| ≤ 2 ^ 1 := fun i => by
    fin_cases i <;> norm_num [twoCarsMoved, twoCarsFl, quarterPt, quarter]
  have hl : ∀ t, LogFiniteAt (twoCarsFl.ieee binary32) t := fun t i => ⟨hf (hlog i t).1, hf (hlog i t).2⟩
  have hl' : ∀ t, LogFiniteAt (twoCarsMoved.ieee binary32) t := fun t i => ⟨hf (hlog i t).1, hf (hlog i t).2⟩
  have hc : ∀ i, (currentPt (twoCarsFl.ieee binary32) i).x.isFinite = true ∧ (currentPt (twoCarsFl.ieee binary32) i).y.isFinite = true :=
    fun i => ⟨hf (hsim i 0).1, hf (hsim i 0).2⟩
  have hc' : ∀ i, (currentPt (twoCarsMoved.ieee binary32) i).x.isFinite = true ∧ (currentPt (twoCarsMoved.ieee binary32) i).y.isFinite = true :=
    fun i => ⟨hf (hsim' i).1, hf (hsim' i).2⟩
  exact C168_sees_only_sdc_partial (exactLibm binary32.fmt) (k := 0) (s := twoCarsFl.ieee binary32) (s' := twoCarsMoved.ieee binary32)
    (fun i => by simp [twoCarsFl, SimState.ieee]) (fun i => by simp [twoCarsMoved, twoCarsFl, SimState.ieee])
    ⟨rfl, rfl, rfl, rfl⟩ rfl (first := 0) (last := 1) rfl rfl hc hc' (hl 0) (hl' 0) (hl 1) (hl' 1)

/-- A car at NaN, or another object at infinity: `C168_broken_position` applies to the scenarios of C158. -/
example (other : Ieee binary32) : progressionMetricIe (F := binary32) (exactLibm binary32.fmt) (exBroken binary32 .nan other true) = .ok { value := Ieee.ofReal binary32 0, valid := false } ∧
    progressionMetricIe (F := binary32) (exactLibm binary32.fmt) (exBroken binary32 (Ieee.zero binary32) (.inf true) false) = .ok { value := Ieee.ofReal binary32 0, valid := false } :=
  ⟨C168_broken_position _ rfl ⟨_, List.mem_singleton.2 rfl, List.cons_ne_nil _ _⟩ (j := 0) (.inl rfl),
   C168_broken_position _ rfl ⟨_, List.mem_singleton.2 rfl, List.cons_ne_nil _ _⟩ (j := 1) (.inl rfl)⟩

/-- A path with one good point and one point at NaN. -/
noncomputable def halfBrokenPath (x : Ieee binary32) (valid : Bool) : SdcPath (Ieee binary32) :=
  { points := [{ x := Ieee.zero binary32, y := Ieee.zero binary32, z := Ieee.zero binary32, id := 0, valid := true, arcLength := Ieee.zero binary32 },
      { x := x, y := Ieee.zero binary32, z := Ieee.zero binary32, id := 0, valid := valid, arcLength := Ieee.zero binary32 }], onRoute := true }

/-- Two objects at the origin with that path. -/
noncomputable def exHalf (x : Ieee binary32) (valid : Bool) : SimState (Ieee binary32) 2 1 :=
  { exBroken binary32 (Ieee.zero binary32) (Ieee.zero binary32) true with sdcPaths := some [halfBrokenPath x valid] }

/-- `C168_broken_path` applies to it if the point is valid, `C168_padding` if it is not. -/
example : progressionMetricIe (exactLibm binary32.fmt) (exHalf .nan true) = .ok { value := Ieee.ofReal binary32 0, valid := false } ∧
    progressionMetricIe (exactLibm binary32.fmt) (exHalf .nan false) = progressionMetricIe (exactLibm binary32.fmt) (exHalf (Ieee.zero binary32) false) :=
  ⟨C168_broken_path _ (k := 0) (s := exHalf .nan true) (fun i => by simp [exHalf, exBroken]) rfl rfl (List.mem_singleton.2 rfl) rfl (List.mem_cons_of_mem _ List.mem_cons_self) rfl (.inl rfl),
   C168_padding _ (paths := [halfBrokenPath (Ieee.zero binary32) false]) (paths' := [halfBrokenPath .nan false]) rfl
    (.cons ⟨rfl, .cons ⟨rfl, rfl, fun _ => ⟨rfl, rfl⟩⟩ (.cons ⟨rfl, rfl, fun h => absurd h (by exact nofun)⟩ .nil)⟩ .nil) rfl⟩

/-- The two cars, on a path whose arc lengths are NaN. -/
noncomputable def twoCarsArc : SimState (Ieee binary32) 2 2 :=
  { twoCarsFl.ieee binary32 with sdcPaths := some [{ twoPointPath.ieee binary32 with
      points := (twoPointPath.ieee binary32).points.map fun p => { p with arcLength := .nan } }] }

/-- The metric is valid there, so `C168_broken_arclength` says that it is NaN. -/
example : progressionMetricIe (exactLibm binary32.fmt) twoCarsArc = .ok { value := .nan, valid := true } := by
  obtain ⟨r, hr, -⟩ := twoCars_value
  obtain ⟨ref, -, h⟩ := progressionIe_cases (exactLibm binary32.fmt) (s := twoCarsFl.ieee binary32) (paths := [twoPointPath.ieee binary32]) rfl
    ⟨_, List.mem_singleton.2 rfl, List.cons_ne_nil _ _⟩ (first := 0) (last := 1) rfl rfl
  have hv := h _ rfl
  rw [hr] at hv
  have hv : true = _ := congrArg MetricResultIe.valid (Except.ok.inj hv)
  obtain ⟨ref', -, h'⟩ := progressionIe_cases (exactLibm binary32.fmt) (s := twoCarsArc) rfl
    ⟨_, List.mem_singleton.2 rfl, List.cons_ne_nil _ _⟩ (first := 0) (last := 1) rfl rfl
  have h2 := h' true hv
  have h3 := C168_broken_arclength _ (s := twoCarsArc) rfl (List.cons_ne_nil _ _) (fun path hm => by
    obtain rfl := List.mem_singleton.1 hm
    exact List.cons_ne_nil _ _) (fun path hm p hp => by
      obtain rfl := List.mem_singleton.1 hm
      obtain ⟨q, -, rfl⟩ := List.mem_map.1 hp
      rfl) h2 rfl
  rw [h2]
  exact congrArg (fun a => Except.ok (⟨a, true⟩ : MetricResultIe binary32)) h3

end Waymax
