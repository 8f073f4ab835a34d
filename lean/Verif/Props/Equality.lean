import Verif.Spec.Equality
import Verif.Props.Batch
/-
C114: `==` on the data classes.
-/

namespace Waymax
namespace PyVal
variable {α : Type} [BEq α]

theorem mem_indices (s : List Nat) (idx : List Nat) : idx ∈ indices s ↔ List.Forall₂ (fun d i => i < d) s idx := by
  induction s generalizing idx with
  | nil => cases idx <;> simp [indices]
  | cons d s ih =>
    cases idx with
    | nil => simp [indices]
    | cons i idx => simp [indices, ih, List.forall₂_cons]

theorem arrayEqual_iff (a b : Nd α) : arrayEqual a (.arr b) = true ↔ SameArr a b := by
  unfold arrayEqual SameArr
  rw [Bool.and_eq_true, decide_eq_true_eq, List.all_eq_true]
  simp only [mem_indices]

theorem flags_nones (xs ys : List (PyVal α)) (hx : ∀ x ∈ xs, x = .none) (hy : ∀ y ∈ ys, y = .none) :
    (xs.length = ys.length → treeFlagsL xs ys = .ok [] ∧ SameL xs ys) ∧
    (xs.length ≠ ys.length → treeFlagsL xs ys = .error .valueError) := by
  induction xs generalizing ys with
  | nil => cases ys <;> simp [treeFlagsL, SameL]
  | cons x xs ih =>
    cases ys with
    | nil => simp [treeFlagsL]
    | cons y ys =>
      have h1 := hx x (by simp)
      have h2 := hy y (by simp)
      subst h1 h2
      have := ih ys (fun z hz => hx z (by simp [hz])) (fun z hz => hy z (by simp [hz]))
      constructor
      · intro h
        have h' := this.1 (by simpa using h)
        simp [treeFlagsL, treeFlags, SameL, Same, h'.1, h'.2, bind, Except.bind, pure, Except.pure]
      · intro h
        have h' := this.2 (by simpa using h)
        simp [treeFlagsL, treeFlags, h', bind, Except.bind]

mutual
theorem flags_spec : ∀ (k : Kind) (a b : PyVal α), Has k a → Has k b →
    (SameParts a b → ∃ fl, treeFlags a b = .ok fl ∧ (fl.all id = true ↔ Same a b)) ∧
    (¬ SameParts a b → treeFlags a b = .error .valueError)
  | k, .arr a, b, ha, hb => by
    cases k <;> simp only [Has] at ha
    cases b <;> simp only [Has] at hb
    rename_i b
    refine ⟨fun _ => ⟨[arrayEqual a (.arr b)], by simp only [treeFlags], ?_⟩, fun h => absurd (by simp [SameParts]) h⟩
    simp [Same, ← arrayEqual_iff]
  | k, .none, b, ha, hb => by
    cases k <;> simp only [Has] at ha
    cases b <;> simp only [Has] at hb
    · exact ⟨fun _ => ⟨[], by simp only [treeFlags], by simp [Same]⟩, fun h => absurd (by simp [SameParts]) h⟩
    · exact ⟨fun h => absurd h (by simp [SameParts]), fun _ => by simp only [treeFlags]⟩
  | k, .seq xs, b, ha, hb => by
    cases k <;> simp only [Has] at ha
    cases b <;> simp only [Has] at hb
    rename_i ys
    have := flags_nones xs ys ha hb
    simp only [SameParts, treeFlags, Same]
    exact ⟨fun h => ⟨[], (this.1 h).1, by simp [(this.1 h).2]⟩, this.2⟩
  | k, .obj c xs, b, ha, hb => by
    cases k <;> simp only [Has] at ha
    all_goals cases b <;> simp only [Has] at hb
    · obtain ⟨rfl, h1⟩ := ha
      obtain ⟨h0, h2⟩ := hb
      subst h0
      simpa only [SameParts, treeFlags, Same, if_true, true_and] using flags_specL _ xs _ h1 h2
    · exact ⟨fun h => absurd h (by simp [SameParts]), fun _ => by simp only [treeFlags]⟩
    · obtain ⟨rfl, h1⟩ := ha
      obtain ⟨h0, h2⟩ := hb
      subst h0
      simpa only [SameParts, treeFlags, Same, if_true, true_and] using flags_specL _ xs _ h1 h2
theorem flags_specL : ∀ (ks : List Kind) (xs ys : List (PyVal α)), HasL ks xs → HasL ks ys →
    (SamePartsL xs ys → ∃ fl, treeFlagsL xs ys = .ok fl ∧ (fl.all id = true ↔ SameL xs ys)) ∧
    (¬ SamePartsL xs ys → treeFlagsL xs ys = .error .valueError)
  | ks, [], ys, h1, h2 => by
    cases ks <;> simp only [HasL] at h1
    cases ys <;> simp only [HasL] at h2
    exact ⟨fun _ => ⟨[], by simp only [treeFlagsL], by simp [SameL]⟩, fun h => absurd (by simp [SamePartsL]) h⟩
  | ks, x :: xs, ys, h1, h2 => by
    cases ks <;> simp only [HasL] at h1
    cases ys <;> simp only [HasL] at h2
    rename_i k ks y ys
    have e1 := flags_spec k x y h1.1 h2.1
    have e2 := flags_specL ks xs ys h1.2 h2.2
    simp only [SamePartsL, SameL, treeFlagsL]
    constructor
    · rintro ⟨p1, p2⟩
      obtain ⟨f, hf, hf'⟩ := e1.1 p1
      obtain ⟨g, hg, hg'⟩ := e2.1 p2
      refine ⟨f ++ g, by rw [hf, hg]; rfl, ?_⟩
      rw [List.all_append, Bool.and_eq_true, hf', hg']
    · intro h
      by_cases p1 : SameParts x y
      · obtain ⟨f, hf, -⟩ := e1.1 p1
        rw [hf, e2.2 fun p2 => h ⟨p1, p2⟩]; rfl
      · rw [e1.2 p1]; rfl
end

end PyVal

/-! ### Theorems -/

open PyVal
variable {α : Type} [BEq α]


/-- C114, full expectation: for two values of one class, `==` gives an answer, and the answer says whether they are the same. -/
def C114_full : Prop :=
  ∀ (c : Cls) (a b : PyVal Int), Has (.cls c) a → Has (.cls c) b → ∃ r, pyEq a b = .ok r ∧ (r = true ↔ Same a b)

/-- For every class that defines `==`, two objects with the same optional parts compare as equal exactly when every array of one has
the shape and the entries of the corresponding array of the other. -/
theorem C114_equal_partial {c : Cls} (hc : c ∉ [Cls.planningState, Cls.metricResult, Cls.observation]) {a b : PyVal α}
    (ha : Has (.cls c) a) (hb : Has (.cls c) b) (hp : SameParts a b) : ∃ r, pyEq a b = .ok r ∧ (r = true ↔ Same a b) := by
  cases a <;> simp only [Has] at ha
  cases b <;> simp only [Has] at hb
  rename_i d xs d' ys
  obtain ⟨rfl, h1⟩ := ha
  obtain ⟨h0, h2⟩ := hb
  subst h0
  have ho : d'.ownEq = true := by revert hc; cases d' <;> simp [Cls.ownEq]
  obtain ⟨fl, e, h⟩ := (flags_spec (.cls d') (.obj d' xs) (.obj d' ys) (by simpa only [Has, true_and] using h1)
    (by simpa only [Has, true_and] using h2)).1 hp
  refine ⟨fl.all id, ?_, h⟩
  simp only [pyEq, ho, if_true, compareAllLeafNodes, isInstance, Cls.isSub, beq_self_eq_true, Bool.true_or, Bool.not_true,
    Bool.false_eq_true, if_false, e]
  rfl

/-- If an optional part is present in only one of the two, the comparison raises a ValueError. -/
theorem C114_missing_part {c : Cls} (hc : c ∉ [Cls.planningState, Cls.metricResult, Cls.observation]) {a b : PyVal α}
    (ha : Has (.cls c) a) (hb : Has (.cls c) b) (hp : ¬ SameParts a b) : pyEq a b = .error .valueError := by
  cases a <;> simp only [Has] at ha
  cases b <;> simp only [Has] at hb
  rename_i d xs d' ys
  obtain ⟨rfl, h1⟩ := ha
  obtain ⟨h0, h2⟩ := hb
  subst h0
  have ho : d'.ownEq = true := by revert hc; cases d' <;> simp [Cls.ownEq]
  have e := (flags_spec (.cls d') (.obj d' xs) (.obj d' ys) (by simpa only [Has, true_and] using h1)
    (by simpa only [Has, true_and] using h2)).2 hp
  simp only [pyEq, ho, if_true, compareAllLeafNodes, isInstance, Cls.isSub, beq_self_eq_true, Bool.true_or, Bool.not_true,
    Bool.false_eq_true, if_false, e]
  rfl

/-- Objects of different classes, neither derived from the other, are unequal. -/
theorem C114_other_class {c d : Cls} (h1 : c ≠ d) (h2 : (c, d) ∉ [(Cls.metricResult, Cls.maskedArray), (Cls.planningState, Cls.simulatorState)])
    (h3 : (d, c) ∉ [(Cls.metricResult, Cls.maskedArray), (Cls.planningState, Cls.simulatorState)]) (xs ys : List (PyVal α)) :
    pyEq (.obj c xs) (.obj d ys) = .ok false := by
  have e1 : Cls.isSub c d = false := by revert h1 h2; cases c <;> cases d <;> decide
  have e2 : Cls.isSub d c = false := by revert h1 h3; cases c <;> cases d <;> decide
  simp [pyEq, compareAllLeafNodes, isInstance, e1, e2, h1]

/-- Comparing an object with one of a derived class raises a ValueError on either side. -/
theorem C114_derived_class (xs ys : List (PyVal α)) :
    pyEq (.obj .maskedArray xs) (.obj .metricResult ys) = .error .valueError ∧
    pyEq (.obj .metricResult xs) (.obj .maskedArray ys) = .error .valueError ∧
    pyEq (.obj .simulatorState xs) (.obj .planningState ys) = .error .valueError ∧
    pyEq (.obj .planningState xs) (.obj .simulatorState ys) = .error .valueError := by
  simp [pyEq, compareAllLeafNodes, isInstance, Cls.isSub, Cls.ownEq, Cls.base, treeFlags, bind, Except.bind]

/-- Two metric results for more or fewer than one entry cannot be compared, even if every entry is the same. -/
theorem C114_metric_result (value valid value' valid' : Nd α) (h : value.shape = value'.shape) (h1 : value.shape.prod ≠ 1) :
    pyEq (.obj .metricResult [.arr value, .arr valid]) (.obj .metricResult [.arr value', .arr valid']) = .error .valueError := by
  have : Nd.broadcastShape value.shape value'.shape = some value.shape := by rw [← h]; exact broadcastShape_self _
  simp [pyEq, Cls.ownEq, pyEqL, arrayTruth, this, h1, bind, Except.bind]

/-- C114 fails: two equal metric results for two objects cannot be compared. -/
theorem C114_violated : ¬ C114_full := by
  intro h
  let x : PyVal Int := .obj .metricResult [.arr ⟨[2], fun _ => 0⟩, .arr ⟨[2], fun _ => 1⟩]
  have hx : Has (.cls .metricResult) x := by simp [x, Has, HasL, fieldKinds]
  obtain ⟨r, e, -⟩ := h _ x x hx hx
  rw [C114_metric_result _ _ _ _ rfl (by decide)] at e
  cases e

/-- The comparison decides sameness. -/
def Decides (x y : PyVal α) : Prop := ∃ r, pyEq x y = .ok r ∧ (r = true ↔ Same x y)

theorem pyEqL_decides {xs ys : List (PyVal α)} (h : List.Forall₂ Decides xs ys) :
    ∃ r, pyEqL xs ys = .ok r ∧ (r = true ↔ SameL xs ys) := by
  induction h with
  | nil => exact ⟨true, by simp only [pyEqL], by simp [SameL]⟩
  | @cons x y xs ys h1 _ ih =>
    obtain ⟨r, e, hr⟩ := h1
    obtain ⟨r', e', hr'⟩ := ih
    cases r with
    | false => exact ⟨false, by simp [pyEqL, e, bind, Except.bind, pure, Except.pure], by
        simp only [SameL]; simp only [Bool.false_eq_true, false_iff] at hr; simp [hr]⟩
    | true => exact ⟨r', by simp [pyEqL, e, bind, Except.bind, e'], by
        simp only [SameL]; simp only [true_iff] at hr; simp [hr, hr']⟩

theorem parts_arrays (k : Nat) {xs ys : List (PyVal α)} (h1 : HasL (List.replicate k .array) xs) (h2 : HasL (List.replicate k .array) ys) :
    SamePartsL xs ys := by
  induction k generalizing xs ys with
  | zero =>
    cases xs <;> simp only [List.replicate, HasL] at h1
    simp [SamePartsL]
  | succ k ih =>
    cases xs <;> simp only [List.replicate, HasL] at h1
    cases ys <;> simp only [List.replicate, HasL] at h2
    rename_i x xs y ys
    have e1 := h1.1
    have e2 := h2.1
    cases x <;> simp only [Has] at e1
    cases y <;> simp only [Has] at e2
    exact ⟨by simp [SameParts], ih h1.2 h2.2⟩

/-- The classes whose fields are all arrays. -/
theorem decides_flat {c : Cls} {k : Nat} (hk : fieldKinds c = List.replicate k .array) (hc : c.ownEq = true) {a b : PyVal α}
    (ha : Has (.cls c) a) (hb : Has (.cls c) b) : Decides a b := by
  refine C114_equal_partial (by revert hc; cases c <;> simp [Cls.ownEq]) ha hb ?_
  cases a <;> simp only [Has] at ha
  cases b <;> simp only [Has] at hb
  rw [hk] at ha hb
  exact parts_arrays k ha.2 hb.2

theorem decides_opt {c : Cls} {k : Nat} (hk : fieldKinds c = List.replicate k .array) (hc : c.ownEq = true) {a b : PyVal α}
    (ha : Has (.opt c) a) (hb : Has (.opt c) b) : Decides a b := by
  cases a <;> simp only [Has] at ha
  · cases b <;> simp only [Has] at hb
    · exact ⟨true, by simp only [pyEq], by simp [Same]⟩
    · exact ⟨false, by simp only [pyEq], by simp [Same]⟩
  · cases b <;> simp only [Has] at hb
    · exact ⟨false, by simp only [pyEq], by simp [Same]⟩
    · exact decides_flat hk hc (by simpa only [Has] using ha) (by simpa only [Has] using hb)

theorem decides_states {a b : PyVal α} (ha : Has .states a) (hb : Has .states b) : Decides a b := by
  cases a <;> simp only [Has] at ha
  cases b <;> simp only [Has] at hb
  rename_i xs ys
  have := flags_nones xs ys ha hb
  by_cases h : xs.length = ys.length
  · refine ⟨true, ?_, by simp [Same, (this.1 h).2]⟩
    simp only [pyEq, h, if_true]
    clear this
    induction xs generalizing ys with
    | nil => simp only [pyEqL]
    | cons x xs ih =>
      cases ys with
      | nil => simp at h
      | cons y ys =>
        have h1 := ha x (by simp)
        have h2 := hb y (by simp)
        subst h1 h2
        simp only [pyEqL, pyEq, bind, Except.bind, if_true]
        exact ih (fun z hz => ha z (by simp [hz])) ys (fun z hz => hb z (by simp [hz])) (by simpa using h)
  · refine ⟨false, by simp only [pyEq, h, if_false], ?_⟩
    simp only [Same, Bool.false_eq_true, false_iff]
    clear this
    induction xs generalizing ys with
    | nil => cases ys <;> simp_all [SameL]
    | cons x xs ih =>
      cases ys with
      | nil => simp [SameL]
      | cons y ys =>
        simp only [SameL, not_and]
        intro _
        exact ih (fun z hz => ha z (by simp [hz])) ys (fun z hz => hb z (by simp [hz])) (by simpa using h)

theorem decides_scalar {a b : Nd α} (ha : a.shape = []) (hb : b.shape = []) : Decides (.arr a) (.arr b) := by
  refine ⟨a.get [] == b.get [], ?_, ?_⟩
  · have h1 : Nd.broadcastShape ([] : List Nat) [] = some [] := broadcastShape_self []
    have h2 : Nd.broadcastIdx [] [] = [] := by simp [Nd.broadcastIdx]
    simp [pyEq, arrayTruth, ha, hb, h1, h2]
  · simp [Same, SameArr, ha, hb]

/-- States of the planning environment whose time step is a single number compare as equal exactly when they are the same; a part
that is missing on one side makes them unequal. -/
theorem C114_planning_partial {s l tl m s' l' tl' m' p p' r r' st st' : PyVal α} {t t' : Nd α} (ht : t.shape = []) (ht' : t'.shape = [])
    (ha : Has (.cls .planningState) (.obj .planningState [s, l, tl, m, .arr t, p, r, st]))
    (hb : Has (.cls .planningState) (.obj .planningState [s', l', tl', m', .arr t', p', r', st'])) :
    ∃ e, pyEq (.obj .planningState [s, l, tl, m, .arr t, p, r, st]) (.obj .planningState [s', l', tl', m', .arr t', p', r', st']) = .ok e ∧
      (e = true ↔ Same (.obj .planningState [s, l, tl, m, .arr t, p, r, st]) (.obj .planningState [s', l', tl', m', .arr t', p', r', st'])) := by
  simp only [Has, HasL, fieldKinds, true_and, and_true] at ha hb
  obtain ⟨a1, a2, a3, a4, a5, a6, a7⟩ := ha
  obtain ⟨b1, b2, b3, b4, b5, b6, b7⟩ := hb
  simp only [pyEq, Cls.ownEq, Bool.false_eq_true, if_false, if_true, Same, true_and]
  refine pyEqL_decides ?_
  exact .cons (decides_flat rfl rfl a1 b1) (.cons (decides_flat rfl rfl a2 b2) (.cons (decides_flat rfl rfl a3 b3)
    (.cons (decides_flat rfl rfl a4 b4) (.cons (decides_scalar ht ht') (.cons (decides_opt rfl rfl a5 b5)
    (.cons (decides_opt rfl rfl a6 b6) (.cons (decides_states a7 b7) .nil)))))))

/-- An observation cannot be compared with one of the same content: unless it has exactly one pair of observer and object, a
ValueError is raised. -/
theorem C114_observation {t t' : PyVal α} {e e' : Nd α} {xs ys : List (PyVal α)}
    (ha : Has (.cls .observation) (.obj .observation (t :: .arr e :: xs))) (hb : Has (.cls .observation) (.obj .observation (t' :: .arr e' :: ys)))
    (h : Same (.obj .observation (t :: .arr e :: xs)) (.obj .observation (t' :: .arr e' :: ys))) (he : e.shape.prod ≠ 1) :
    pyEq (.obj .observation (t :: .arr e :: xs)) (.obj .observation (t' :: .arr e' :: ys)) = .error .valueError := by
  simp only [Has, HasL, fieldKinds, true_and] at ha hb
  simp only [Same, SameL, SameArr, true_and] at h
  obtain ⟨r, e1, hr⟩ := decides_flat (c := .trajectory) (k := 11) rfl rfl ha.1 hb.1
  rw [hr.2 h.1] at e1
  have h2 : Nd.broadcastShape e.shape e'.shape = some e.shape := by rw [← h.2.1.1]; exact broadcastShape_self _
  simp [pyEq, Cls.ownEq, pyEqL, e1, arrayTruth, h2, he, bind, Except.bind]

mutual
theorem same_parts_self : ∀ (a : PyVal α), SameParts a a
  | .arr _ => by simp [SameParts]
  | .none => by simp [SameParts]
  | .seq _ => by simp [SameParts]
  | .obj _ xs => by simpa [SameParts] using same_parts_selfL xs
theorem same_parts_selfL : ∀ (xs : List (PyVal α)), SamePartsL xs xs
  | [] => by simp [SamePartsL]
  | x :: xs => ⟨same_parts_self x, same_parts_selfL xs⟩
end

mutual
/-- Every entry of every array equals itself: no NaN. -/
def NoNan : PyVal α → Prop
  | .arr a => ∀ idx, List.Forall₂ (fun d i => i < d) a.shape idx → (a.get idx == a.get idx) = true
  | .none => True
  | .seq xs => NoNanL xs
  | .obj _ xs => NoNanL xs
/-- In every field. -/
def NoNanL : List (PyVal α) → Prop
  | [] => True
  | x :: xs => NoNan x ∧ NoNanL xs
end

mutual
theorem same_self_iff : ∀ (a : PyVal α), Same a a ↔ NoNan a
  | .arr _ => by simp [Same, SameArr, NoNan]
  | .none => by simp [Same, NoNan]
  | .seq xs => by simpa [Same, NoNan] using same_self_iffL xs
  | .obj _ xs => by simpa [Same, NoNan] using same_self_iffL xs
theorem same_self_iffL : ∀ (xs : List (PyVal α)), SameL xs xs ↔ NoNanL xs
  | [] => by simp [SameL, NoNanL]
  | x :: xs => by simp only [SameL, NoNanL, same_self_iff x, same_self_iffL xs]
end

/-- An object equals its copy exactly when no entry is NaN. -/
theorem C114_copy {c : Cls} (hc : c ∉ [Cls.planningState, Cls.metricResult, Cls.observation]) {a : PyVal α} (ha : Has (.cls c) a) :
    ∃ r, pyEq a a = .ok r ∧ (r = true ↔ NoNan a) := by
  obtain ⟨r, e, h⟩ := C114_equal_partial hc ha ha (same_parts_self a)
  exact ⟨r, e, h.trans (same_self_iff a)⟩

/-- Simulator states part by part: simulated and logged trajectories, lights, metadata, time step, and paths and road map if present. -/
theorem C114_state {s l tl m s' l' tl' m' p p' r r' : PyVal α} {t t' : Nd α}
    (h1 : ∀ x ∈ [s, l, s', l'], Has (.cls .trajectory) x) (h2 : ∀ x ∈ [tl, tl'], Has (.cls .trafficLights) x)
    (h3 : ∀ x ∈ [m, m'], Has (.cls .objectMetadata) x) (h4 : ∀ x ∈ [p, p'], Has (.opt .paths) x)
    (h5 : ∀ x ∈ [r, r'], Has (.opt .roadgraphPoints) x)
    (hp : SameParts (.obj .simulatorState [s, l, tl, m, .arr t, p, r]) (.obj .simulatorState [s', l', tl', m', .arr t', p', r'])) :
    ∃ e, pyEq (.obj .simulatorState [s, l, tl, m, .arr t, p, r]) (.obj .simulatorState [s', l', tl', m', .arr t', p', r']) = .ok e ∧
      (e = true ↔ Same s s' ∧ Same l l' ∧ Same tl tl' ∧ Same m m' ∧ SameArr t t' ∧ Same p p' ∧ Same r r') := by
  simp only [List.mem_cons, List.not_mem_nil, or_false, forall_eq_or_imp, forall_eq] at h1 h2 h3 h4 h5
  obtain ⟨e, h, h'⟩ := C114_equal_partial (c := .simulatorState) (by simp)
    (a := .obj .simulatorState [s, l, tl, m, .arr t, p, r]) (b := .obj .simulatorState [s', l', tl', m', .arr t', p', r'])
    (by simp only [Has, HasL, fieldKinds, true_and, and_true]; exact ⟨h1.1, h1.2.1, h2.1, h3.1, h4.1, h5.1⟩)
    (by simp only [Has, HasL, fieldKinds, true_and, and_true]; exact ⟨h1.2.2.1, h1.2.2.2, h2.2, h3.2, h4.2, h5.2⟩) hp
  refine ⟨e, h, h'.trans ?_⟩
  simp only [Same, SameL, true_and, and_true]

/-! ### Cases -/

/-- An action for two objects. -/
def exEqAct (v : Int) : PyVal Int := .obj .action [.arr ⟨[2, 1], fun idx => if idx = [1, 0] then v else 0⟩, .arr ⟨[2, 1], fun _ => 1⟩]

example : Has (.cls .action) (exEqAct 4) ∧ Has (.cls .action) (exEqAct 5) ∧ SameParts (exEqAct 4) (exEqAct 5) ∧
    pyEq (exEqAct 4) (exEqAct 4) = .ok true ∧ pyEq (exEqAct 4) (exEqAct 5) = .ok false := by
  refine ⟨by simp [exEqAct, Has, HasL, fieldKinds], by simp [exEqAct, Has, HasL, fieldKinds], by simp [exEqAct, SameParts, SamePartsL], ?_, ?_⟩
  · rfl
  · rfl

/-- `k` fields holding the same number. -/
def exFields (k : Nat) (v : Int) : List (PyVal Int) := List.replicate k (.arr ⟨[1, 2], fun _ => v⟩)

/-- A state with or without paths. -/
def exEqState (c : Cls) (paths : PyVal Int) (more : List (PyVal Int)) : PyVal Int :=
  .obj c ([.obj .trajectory (exFields 11 3), .obj .trajectory (exFields 11 3), .obj .trafficLights (exFields 6 1),
    .obj .objectMetadata (exFields 7 1), .arr ⟨[], fun _ => 4⟩, paths, .none] ++ more)

/-- Two states of which one has paths: the comparison raises, and says False in the planning environment. -/
example :
    let p : PyVal Int := .obj .paths (exFields 7 2)
    Has (.cls .simulatorState) (exEqState .simulatorState p []) ∧ Has (.cls .simulatorState) (exEqState .simulatorState .none []) ∧
    ¬ SameParts (exEqState .simulatorState p []) (exEqState .simulatorState .none []) ∧
    pyEq (exEqState .simulatorState p []) (exEqState .simulatorState .none []) = .error .valueError ∧
    Has (.cls .planningState) (exEqState .planningState p [.seq [.none]]) ∧
    pyEq (exEqState .planningState p [.seq [.none]]) (exEqState .planningState .none [.seq [.none]]) = .ok false := by
  refine ⟨?_, ?_, ?_, rfl, ?_, rfl⟩
  · simp [exEqState, exFields, Has, HasL, fieldKinds, List.replicate]
  · simp [exEqState, exFields, Has, HasL, fieldKinds, List.replicate]
  · simp [exEqState, exFields, SameParts, SamePartsL, List.replicate]
  · simp [exEqState, exFields, Has, HasL, fieldKinds, List.replicate]

/-- An observation of two objects by one: comparing it with its copy raises. -/
example :
    let o : PyVal Int := .obj .observation [.obj .trajectory (exFields 11 3), .arr ⟨[1, 2], fun _ => 1⟩, .obj .pose (exFields 5 0),
      .obj .objectMetadata (exFields 7 1), .obj .roadgraphPoints (exFields 9 1), .obj .trafficLights (exFields 6 1), .none]
    Has (.cls .observation) o ∧ Same o o ∧ pyEq o o = .error .valueError := by
  refine ⟨?_, ?_, rfl⟩
  · simp [exFields, Has, HasL, fieldKinds, List.replicate]
  · simp [exFields, Same, SameL, SameArr, List.replicate]

end Waymax
