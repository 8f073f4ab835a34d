import Verif.Spec.Agents
import Verif.Props.Planning
/-
Lemmas about the IDM and way-point models.
-/

namespace Waymax

open Real

section
variable {n T : Nat}

theorem idmCollision_iff (cur : Fin n → Pt ℝ) (i : Fin n) (w : Pt ℝ) (j : Fin n) :
    idmCollision cur i w j = true ↔ Meets cur i w j := by
  unfold idmCollision Meets
  rw [show (rectInterior w.x w.y w.length w.width w.yaw ∩ rectInterior (cur j).x (cur j).y (cur j).length (cur j).width
    (cur j).yaw).Nonempty ↔ hasOverlap w.box (cur j).box from (C25_overlap_exact w.box (cur j).box).symm]
  by_cases hij : i = j
  · simp [hij]
  · by_cases hw : w.valid = true <;> by_cases hj : (cur j).valid = true <;> simp [hw, hj, hij, Ne.symm hij, ne_comm]

theorem any_collision_iff (cur : Fin n → Pt ℝ) (i : Fin n) (w : Pt ℝ) :
    (List.ofFn fun j => idmCollision cur i w j).any id = true ↔ ∃ j, Meets cur i w j := by
  simp only [List.any_eq_true, List.mem_ofFn, id]
  constructor
  · rintro ⟨b, ⟨j, rfl⟩, hb⟩; exact ⟨j, (idmCollision_iff cur i w j).1 hb⟩
  · rintro ⟨j, hj⟩; exact ⟨_, ⟨j, rfl⟩, (idmCollision_iff cur i w j).2 hj⟩

theorem Pt.speed_eq {p : Pt ℝ} (h : p.valid = true) : p.speed = speedOf p := by
  unfold Pt.speed speedOf norm2 hypot
  rw [if_pos h]

theorem speedOf_nonneg (p : Pt ℝ) : 0 ≤ speedOf p := Real.sqrt_nonneg _

/-- The masked cumulative sum of non-negative numbers has its minimum at the first finite entry. -/
theorem listMin_cumsum (xs : List (WithTop ℝ)) (acc : ℝ) (h0 : ∀ v : ℝ, (v : WithTop ℝ) ∈ xs → 0 ≤ v) :
    listMin (List.zipWith (fun v (c : ℝ) => if v = ⊤ then ⊤ else (c : WithTop ℝ)) xs (cumsumFrom acc (xs.map fun v => v.untopD 0))) =
      match xs.find? (fun v => decide (v ≠ ⊤)) with
      | none => ⊤
      | some v => ((acc + v.untopD 0 : ℝ) : WithTop ℝ) := by
  induction xs generalizing acc with
  | nil => rfl
  | cons x xs ih =>
    have ih' := fun acc => ih acc fun v hv => h0 v (List.mem_cons_of_mem _ hv)
    cases x with
    | top =>
      simp only [List.map_cons, cumsumFrom, List.zipWith_cons_cons, WithTop.untopD_top, add_zero, if_true, ne_eq, not_true,
        decide_false, Bool.false_eq_true, not_false_eq_true, List.find?_cons_of_neg]
      rw [← ih' acc]
      exact min_eq_right le_top
    | coe v =>
      have hv : 0 ≤ v := h0 v List.mem_cons_self
      simp only [List.map_cons, cumsumFrom, List.zipWith_cons_cons, WithTop.untopD_coe, WithTop.coe_ne_top, if_false, ne_eq,
        not_false_eq_true, decide_true, List.find?_cons_of_pos]
      change min _ (listMin _) = _
      rw [ih' (acc + v)]
      apply min_eq_left
      split
      · exact le_top
      · rename_i w hw
        rw [WithTop.coe_le_coe]
        have hmem := List.mem_of_find?_eq_some hw
        cases w with
        | top => have := List.find?_some hw; simp at this
        | coe w =>
          have := h0 w (List.mem_cons_of_mem _ hmem)
          simp only [WithTop.untopD_coe]
          linarith

/-- The velocity entry of one way point. -/
theorem velsT_entry (cur : Fin n → Pt ℝ) (i : Fin n) (w : Pt ℝ) :
    let v := listMin (List.ofFn fun j => if (cur j).valid then orInf (idmCollision cur i w j) (cur j).speed else (⊤ : WithTop ℝ))
    ((∀ j, ¬ Meets cur i w j) ∧ v = ⊤) ∨
      ∃ u : ℝ, v = u ∧ (∃ j, Meets cur i w j ∧ u = speedOf (cur j)) ∧ ∀ j, Meets cur i w j → u ≤ speedOf (cur j) := by
  intro v
  have hent : ∀ j, Meets cur i w j →
      (if (cur j).valid then orInf (idmCollision cur i w j) (cur j).speed else (⊤ : WithTop ℝ)) = (speedOf (cur j) : ℝ) := by
    intro j hj
    rw [if_pos hj.2.2.1, (idmCollision_iff cur i w j).2 hj, Pt.speed_eq hj.2.2.1]
    rfl
  have hent' : ∀ j, ¬ Meets cur i w j →
      (if (cur j).valid then orInf (idmCollision cur i w j) (cur j).speed else (⊤ : WithTop ℝ)) = ⊤ := by
    intro j hj
    rw [← idmCollision_iff, Bool.not_eq_true] at hj
    rw [hj]
    simp [orInf]
  rcases listMin_cases (List.ofFn fun j => if (cur j).valid then orInf (idmCollision cur i w j) (cur j).speed else (⊤ : WithTop ℝ))
    with ⟨h1, h2⟩ | ⟨u, h1, h2, h3⟩
  · left
    refine ⟨fun j hj => ?_, h1⟩
    have := h2 _ (List.mem_ofFn.2 ⟨j, rfl⟩)
    rw [hent j hj] at this
    exact absurd this WithTop.coe_ne_top
  · right
    refine ⟨u, h1, ?_, fun j hj => ?_⟩
    · obtain ⟨j, hj⟩ := List.mem_ofFn.1 h2
      by_cases hm : Meets cur i w j
      · rw [hent j hm] at hj
        exact ⟨j, hm, (WithTop.coe_injective hj).symm⟩
      · rw [hent' j hm] at hj
        exact absurd hj.symm WithTop.coe_ne_top
    · have := h3 _ (List.mem_ofFn.2 ⟨j, rfl⟩)
      rw [hent j hj, WithTop.coe_le_coe] at this
      exact this

/-- What `_compute_lead_velocity` returns. -/
theorem leadVelocity_spec (cur : Fin n → Pt ℝ) (i : Fin n) (ws : List (Pt ℝ)) :
    let v := computeLeadVelocity (fun j => (cur j).speed) (fun j => (cur j).valid) (ws.map fun w => idmCollision cur i w)
    (FreeRoad cur i ws ∧ v = -1) ∨ LeadSpeed cur i ws v := by
  intro v
  set f : Pt ℝ → WithTop ℝ := fun w =>
    listMin (List.ofFn fun j => if (cur j).valid then orInf (idmCollision cur i w j) (cur j).speed else (⊤ : WithTop ℝ)) with hf
  have hv : v = (listMin (List.zipWith (fun v (c : ℝ) => if v = ⊤ then ⊤ else (c : WithTop ℝ)) (ws.map f)
      (cumsumFrom 0 ((ws.map f).map fun v => v.untopD 0)))).untopD (-1) := by
    simp only [v, computeLeadVelocity, List.map_map, Function.comp_def, hf]
  rw [listMin_cumsum] at hv
  · have key : ∀ ws : List (Pt ℝ), (FreeRoad cur i ws ∧ (ws.map f).find? (fun v => decide (v ≠ ⊤)) = none) ∨
        ∃ u : ℝ, LeadSpeed cur i ws u ∧ (ws.map f).find? (fun v => decide (v ≠ ⊤)) = some (u : WithTop ℝ) := by
      intro ws
      induction ws with
      | nil => left; exact ⟨by intro w hw; simp at hw, rfl⟩
      | cons w ws ih =>
        rcases velsT_entry cur i w with ⟨h1, h2⟩ | ⟨u, h1, h2, h3⟩
        · have hft : f w = ⊤ := h2
          rcases ih with ⟨h4, h5⟩ | ⟨u, ⟨pre, w', post, rfl, h4, h5⟩, h6⟩
          · left
            refine ⟨fun x hx => ?_, ?_⟩
            · rcases List.mem_cons.1 hx with rfl | hx
              · exact h1
              · exact h4 x hx
            · rw [List.map_cons, List.find?_cons_of_neg (by simp [hft])]
              exact h5
          · right
            refine ⟨u, ⟨w :: pre, w', post, rfl, ?_, h5⟩, ?_⟩
            · intro x hx
              rcases List.mem_cons.1 hx with rfl | hx
              · exact h1
              · exact h4 x hx
            · rw [List.map_cons, List.find?_cons_of_neg (by simp [hft])]
              exact h6
        · right
          have hfu : f w = u := h1
          refine ⟨u, ⟨[], w, ws, rfl, by intro x hx; simp at hx, h2, h3⟩, ?_⟩
          rw [List.map_cons, List.find?_cons_of_pos (by simp [hfu]), hfu]
    rcases key ws with ⟨h1, h2⟩ | ⟨u, h1, h2⟩
    · left
      rw [h2] at hv
      exact ⟨h1, hv⟩
    · right
      rw [h2] at hv
      simp only [WithTop.untopD_coe, zero_add] at hv
      rw [hv]
      exact h1
  · intro u hu
    obtain ⟨w, -, hw⟩ := List.mem_map.1 hu
    rcases velsT_entry cur i w with ⟨-, h2⟩ | ⟨u', h1, ⟨j, -, h2⟩, -⟩
    · have h2 : f w = ⊤ := h2
      rw [hw] at h2
      exact absurd h2 WithTop.coe_ne_top
    · have h1 : f w = u' := h1
      rw [hw] at h1
      rw [WithTop.coe_injective h1, h2]
      exact speedOf_nonneg _

/-- What `_compute_lead_distance` returns. -/
theorem leadDistance_spec (cur : Fin n → Pt ℝ) (i : Fin n) (ws : List (Pt ℝ)) :
    let d := computeLeadDistance ws (fun w => (List.ofFn fun j => idmCollision cur i w j).any id) (cur i)
    (FreeRoad cur i ws ∧ d = -1) ∨ LeadGap cur i ws d := by
  intro d
  have hd : d = (listMin (ws.map fun w => orInf ((List.ofFn fun j => idmCollision cur i w j).any id) (dist3 (cur i) w))).untopD (-1) :=
    rfl
  have hent : ∀ w, (∃ j, Meets cur i w j) →
      orInf ((List.ofFn fun j => idmCollision cur i w j).any id) (dist3 (cur i) w) = (dist3 (cur i) w : ℝ) := by
    intro w hw
    rw [(any_collision_iff cur i w).2 hw]
    rfl
  have hent' : ∀ w, ¬ (∃ j, Meets cur i w j) →
      orInf ((List.ofFn fun j => idmCollision cur i w j).any id) (dist3 (cur i) w) = ⊤ := by
    intro w hw
    rw [← any_collision_iff, Bool.not_eq_true] at hw
    rw [hw]
    rfl
  rcases listMin_cases (ws.map fun w => orInf ((List.ofFn fun j => idmCollision cur i w j).any id) (dist3 (cur i) w)) with
    ⟨h1, h2⟩ | ⟨g, h1, h2, h3⟩
  · left
    refine ⟨fun w hw j hj => ?_, ?_⟩
    · have := h2 _ (List.mem_map.2 ⟨w, hw, rfl⟩)
      rw [hent w ⟨j, hj⟩] at this
      exact absurd this WithTop.coe_ne_top
    · rw [hd, h1]
      rfl
  · right
    have hdg : d = g := by rw [hd, h1]; rfl
    rw [hdg]
    refine ⟨?_, ?_⟩
    · obtain ⟨w, hw, he⟩ := List.mem_map.1 h2
      by_cases hm : ∃ j, Meets cur i w j
      · rw [hent w hm] at he
        exact ⟨w, hw, hm, (WithTop.coe_injective he).symm⟩
      · rw [hent' w hm] at he
        exact absurd he.symm WithTop.coe_ne_top
    · intro w hw hm
      have := h3 _ (List.mem_map.2 ⟨w, hw, rfl⟩)
      rw [hent w hm, WithTop.coe_le_coe] at this
      exact this

theorem LeadSpeed.not_free {cur : Fin n → Pt ℝ} {i : Fin n} {ws : List (Pt ℝ)} {u : ℝ} (h : LeadSpeed cur i ws u) :
    ¬ FreeRoad cur i ws := by
  obtain ⟨pre, w, post, rfl, -, ⟨j, hj, -⟩, -⟩ := h
  intro hf
  exact hf w (by simp) j hj

theorem LeadGap.not_free {cur : Fin n → Pt ℝ} {i : Fin n} {ws : List (Pt ℝ)} {g : ℝ} (h : LeadGap cur i ws g) :
    ¬ FreeRoad cur i ws := by
  obtain ⟨⟨w, hw, ⟨j, hj⟩, -⟩, -⟩ := h
  intro hf
  exact hf w hw j hj

theorem LeadSpeed.nonneg {cur : Fin n → Pt ℝ} {i : Fin n} {ws : List (Pt ℝ)} {u : ℝ} (h : LeadSpeed cur i ws u) : 0 ≤ u := by
  obtain ⟨pre, w, post, -, -, ⟨j, -, rfl⟩, -⟩ := h
  exact speedOf_nonneg _

theorem LeadGap.nonneg {cur : Fin n → Pt ℝ} {i : Fin n} {ws : List (Pt ℝ)} {g : ℝ} (h : LeadGap cur i ws g) : 0 ≤ g := by
  obtain ⟨⟨w, -, -, rfl⟩, -⟩ := h
  exact Real.sqrt_nonneg _

/-- The leader's speed is determined by the scene. -/
theorem LeadSpeed.unique {cur : Fin n → Pt ℝ} {i : Fin n} {ws : List (Pt ℝ)} {u u' : ℝ} (h : LeadSpeed cur i ws u)
    (h' : LeadSpeed cur i ws u') : u = u' := by
  obtain ⟨pre, w, post, rfl, hf, ⟨j, hj, rfl⟩, hmin⟩ := h
  obtain ⟨pre', w', post', he, hf', ⟨j', hj', rfl⟩, hmin'⟩ := h'
  rcases List.append_eq_append_iff.1 he with ⟨l, h1, h2⟩ | ⟨l, h1, h2⟩
  · cases l with
    | nil =>
      simp only [List.nil_append, List.cons.injEq] at h2
      obtain ⟨rfl, -⟩ := h2
      exact le_antisymm (hmin _ hj') (hmin' _ hj)
    | cons a l =>
      simp only [List.cons_append, List.cons.injEq] at h2
      obtain ⟨rfl, -⟩ := h2
      exact absurd hj (hf' w (by rw [h1]; simp) j)
  · cases l with
    | nil =>
      simp only [List.nil_append, List.cons.injEq] at h2
      obtain ⟨rfl, -⟩ := h2
      exact le_antisymm (hmin _ hj') (hmin' _ hj)
    | cons a l =>
      simp only [List.cons_append, List.cons.injEq] at h2
      obtain ⟨rfl, -⟩ := h2
      exact absurd hj' (hf w' (by rw [h1]; simp) j')

theorem LeadGap.unique {cur : Fin n → Pt ℝ} {i : Fin n} {ws : List (Pt ℝ)} {g g' : ℝ} (h : LeadGap cur i ws g)
    (h' : LeadGap cur i ws g') : g = g' := by
  obtain ⟨⟨w, hw, hm, he⟩, hmin⟩ := h
  obtain ⟨⟨w', hw', hm', he'⟩, hmin'⟩ := h'
  exact le_antisymm (by rw [he']; exact hmin w' hw' hm') (by rw [he]; exact hmin' w hw hm)

end

end Waymax
