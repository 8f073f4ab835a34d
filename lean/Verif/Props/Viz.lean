import Verif.Model.Viz
import Verif.Spec.Viz
import Verif.Props.Overlap
import Verif.Props.Metrics
/-
C97, C98: what the plotting functions show (real arithmetic; a figure is the list of marks put on it).
-/

namespace Waymax

open Real

/-! ### C97: a box is drawn as the object's rectangle -/

theorem boxOutline_eq (b : Box) : boxOutline b = rectPolygon b.x b.y b.length b.width b.yaw := by
  simp only [boxOutline, rectPolygon, pointAt, heading, leftOf, List.cons.injEq, Prod.mk.injEq, and_true]
  refine ⟨⟨?_, ?_⟩, ⟨?_, ?_⟩, ⟨?_, ?_⟩, ⟨?_, ?_⟩, ?_, ?_⟩ <;> ring

theorem boxArrow_eq (b : Box) : boxArrow b = headingTriangle b.x b.y b.length b.width b.yaw := by
  simp only [boxArrow, headingTriangle, pointAt, heading, leftOf, List.cons.injEq, Prod.mk.injEq, and_true]
  refine ⟨⟨?_, ?_⟩, ⟨?_, ?_⟩, ⟨?_, ?_⟩, ?_, ?_⟩ <;> ring

/-- The outline of a box is the closed polygon around its rectangle, whose corners span exactly the rectangle the overlap test uses;
the arrow is the triangle that points to the middle of the front. -/
theorem C97_outline (b : Box) (color : Rgb) :
    plotNumpyBoundingBoxes [b] color =
      [.outline (rectPolygon b.x b.y b.length b.width b.yaw) color, .arrow (headingTriangle b.x b.y b.length b.width b.yaw) color] ∧
    convexHull ℝ {p | p ∈ rectPolygon b.x b.y b.length b.width b.yaw} = rectClosed b.x b.y b.length b.width b.yaw := by
  refine ⟨by simp [plotNumpyBoundingBoxes, boxOutline_eq, boxArrow_eq], ?_⟩
  rw [C25_rectangle_is_hull]
  congr 1
  obtain ⟨h0, h1, h2, h3⟩ := C24_corners b
  ext p
  simp only [rectPolygon, Set.mem_setOf_eq, List.mem_cons, List.not_mem_nil, or_false, Set.mem_range]
  constructor
  · rintro (h | h | h | h | h)
    · exact ⟨1, by rw [h1, h]⟩
    · exact ⟨0, by rw [h0, h]⟩
    · exact ⟨3, by rw [h3, h]⟩
    · exact ⟨2, by rw [h2, h]⟩
    · exact ⟨1, by rw [h1, h]⟩
  · rintro ⟨k, rfl⟩
    fin_cases k
    · exact Or.inr (Or.inl h0)
    · exact Or.inl h1
    · exact Or.inr (Or.inr (Or.inr (Or.inl h2)))
    · exact Or.inr (Or.inr (Or.inl h3))

/-- Any number of boxes: the outlines are exactly those of the boxes. -/
theorem C97_all_boxes (bs : List Box) (color : Rgb) (pts : List (ℝ × ℝ)) (c : Rgb) :
    (Draw.outline pts c ∈ plotNumpyBoundingBoxes bs color ↔
      c = color ∧ ∃ b ∈ bs, pts = rectPolygon b.x b.y b.length b.width b.yaw) ∧
    (Draw.arrow pts c ∈ plotNumpyBoundingBoxes bs color ↔
      c = color ∧ ∃ b ∈ bs, pts = headingTriangle b.x b.y b.length b.width b.yaw) := by
  simp only [plotNumpyBoundingBoxes, boxOutline_eq, boxArrow_eq, Bool.false_eq_true, if_false, List.mem_append, List.mem_map,
    Draw.outline.injEq, Draw.arrow.injEq, reduceCtorEq, and_false, exists_false, or_false, false_or]
  constructor <;> constructor
  · rintro ⟨b, hb, rfl, rfl⟩; exact ⟨rfl, b, hb, rfl⟩
  · rintro ⟨rfl, b, hb, rfl⟩; exact ⟨b, hb, rfl, rfl⟩
  · rintro ⟨b, hb, rfl, rfl⟩; exact ⟨rfl, b, hb, rfl⟩
  · rintro ⟨rfl, b, hb, rfl⟩; exact ⟨b, hb, rfl, rfl⟩

/-! ### C98: every present object is drawn, in the colour of its role -/

section
variable {n T : Nat}

theorem mem_cells (c : Fin n × Fin T) : c ∈ cells n T := by
  simp only [cells, List.mem_flatMap, List.mem_finRange, List.mem_map, true_and]
  exact ⟨c.1, c.2, rfl⟩

theorem npIndex_nat (t : Fin T) : npIndex T (t : Int) = .ok t := by
  unfold npIndex
  have : (0 : Int) ≤ (t : Int) ∧ (t : Int) < T := ⟨by omega, by exact_mod_cast t.2⟩
  rw [dif_pos this]
  simp

theorem outline_center_false (pts : List (ℝ × ℝ)) (c color : Rgb) (bs : List Box) :
    ¬ Draw.outline pts c ∈ plotNumpyBoundingBoxes bs color true := by
  simp [plotNumpyBoundingBoxes]

theorem center_mem (p : ℝ × ℝ) (c color : Rgb) (bs : List Box) :
    (Draw.center p c ∈ plotNumpyBoundingBoxes bs color true ↔ c = color ∧ ∃ b ∈ bs, p = (b.x, b.y)) ∧
    ¬ Draw.center p c ∈ plotNumpyBoundingBoxes bs color := by
  constructor
  · simp only [plotNumpyBoundingBoxes, if_true, List.mem_map, Draw.center.injEq]
    constructor
    · rintro ⟨b, hb, rfl, rfl⟩; exact ⟨rfl, b, hb, rfl⟩
    · rintro ⟨rfl, b, hb, rfl⟩; exact ⟨b, hb, rfl, rfl⟩
  · simp [plotNumpyBoundingBoxes]

theorem label_not_mem (p : ℝ × ℝ) (k : Nat) (color : Rgb) (bs : List Box) (asC : Bool) :
    ¬ Draw.label p k ∈ plotNumpyBoundingBoxes bs color asC := by
  cases asC <;> simp [plotNumpyBoundingBoxes]

theorem lastStep_nat (t : Fin T) : lastStepIdx T (t : Int) = t := by
  unfold lastStepIdx; rw [if_neg (by omega)]

/-- What object `i` looks like in the picture of step `now` when drawn for step `t`: full size now, a tenth later. -/
noncomputable def pictured (traj : Traj ℝ n T) (now : Fin T) (i : Fin n) (t : Fin T) : List (ℝ × ℝ) :=
  let scale : ℝ := if t = now then 1 else 1 / 10
  rectPolygon (traj i t).x (traj i t).y ((traj i t).length * scale) ((traj i t).width * scale) (traj i t).yaw

/-- Objects `i` and `j` are both present at step `t` and their rectangles share an interior point. -/
def Touching (traj : Traj ℝ n T) (t : Fin T) (i j : Fin n) : Prop :=
  (traj i t).valid = true ∧ (traj j t).valid = true ∧
  (rectInterior (traj i t).x (traj i t).y (traj i t).length (traj i t).width (traj i t).yaw ∩
    rectInterior (traj j t).x (traj j t).y (traj j t).length (traj j t).width (traj j t).yaw).Nonempty

theorem shrunk_pictured (traj : Traj ℝ n T) (now t : Fin T) (i : Fin n) :
    rectPolygon (shrunk traj now i t).x (shrunk traj now i t).y (shrunk traj now i t).length (shrunk traj now i t).width
      (shrunk traj now i t).yaw = pictured traj now i t := by
  unfold shrunk pictured
  by_cases h : t = now
  · subst h; simp [Pt.box]
  · have : (t : Int) ≠ now := by
      intro e; apply h; ext; exact_mod_cast e
    simp only [this, ne_eq, not_false_eq_true, if_true, if_neg h, Pt.box]
    congr 1 <;> ring

theorem shrunk_now (traj : Traj ℝ n T) (now : Fin T) (i : Fin n) : shrunk traj now i now = (traj i now).box := by
  simp [shrunk]

theorem shrunk_xy (traj : Traj ℝ n T) (ti : Int) (t : Fin T) (i : Fin n) :
    ((shrunk traj ti i t).x, (shrunk traj ti i t).y) = ((traj i t).x, (traj i t).y) := by
  unfold shrunk; split <;> simp [Pt.box]

theorem pairwise_touching (traj : Traj ℝ n T) (now : Fin T) (i : Fin n) :
    ((∃ j, (traj j now).valid = true ∧ computePairwiseOverlaps (fun k => shrunk traj now k now) i j) ∧
      (traj i now).valid = true) ↔ ∃ j, j ≠ i ∧ Touching traj now i j := by
  constructor
  · rintro ⟨⟨j, hj, h⟩, hi⟩
    rw [(C26_pairwise _ i j).1, C25_overlap_exact] at h
    simp only [shrunk_now] at h
    exact ⟨j, h.1.symm, hi, hj, h.2⟩
  · rintro ⟨j, hne, hi, hj, h⟩
    refine ⟨⟨j, hj, ?_⟩, hi⟩
    rw [(C26_pairwise _ i j).1, C25_overlap_exact]
    simp only [shrunk_now]
    exact ⟨hne.symm, h⟩

/-- Plotting a trajectory at step `now` succeeds, and shows exactly this. Outlines: for every object present at `now` or at a later
step, its rectangle in blue when it is controlled and in grey otherwise, later steps at a tenth of the size; and once more in red
the objects present now whose rectangle meets that of another object present now. Dots: the centre of every object present at an
earlier step, in light grey. Labels: the index of every object present now, if asked for. -/
theorem C98_picture (traj : Traj ℝ n T) (isControlled : Fin n → Bool) (now : Fin T) (showIds : Bool) :
    ∃ marks, plotTrajectory traj isControlled (some (now : Int)) showIds = .ok marks ∧
      (∀ pts c, Draw.outline pts c ∈ marks ↔
        (∃ i t, now ≤ t ∧ (traj i t).valid = true ∧ pts = pictured traj now i t ∧
          c = if isControlled i then blue else grey) ∨
        (∃ i j, j ≠ i ∧ Touching traj now i j ∧ pts = pictured traj now i now ∧ c = red)) ∧
      (∀ p c, Draw.center p c ∈ marks ↔
        ∃ i t, t < now ∧ (traj i t).valid = true ∧ p = ((traj i t).x, (traj i t).y) ∧ c = lightGrey) ∧
      (∀ p k, Draw.label p k ∈ marks ↔
        showIds = true ∧ ∃ i : Fin n, (traj i now).valid = true ∧ k = i ∧ p = ((traj i now).x - 2, (traj i now).y + 2)) := by
  have hlt : ¬ ((now : Nat) : Int) ≥ (T : Int) := by have := now.2; omega
  have hcell : ∀ (q : Fin n × Fin T → Bool) (b : Box),
      (b ∈ ((cells n T).filter q).map fun c => shrunk traj now c.1 c.2) ↔ ∃ i t, q (i, t) = true ∧ b = shrunk traj now i t := by
    intro q b
    simp only [List.mem_map, List.mem_filter, mem_cells, true_and, Prod.exists]
    constructor
    · rintro ⟨i, t, h, rfl⟩; exact ⟨i, t, h, rfl⟩
    · rintro ⟨i, t, h, rfl⟩; exact ⟨i, t, h, rfl⟩
  unfold plotTrajectory
  simp only [lastStep_nat, if_neg hlt, npIndex_nat, plotBoundingBoxes]
  refine ⟨_, rfl, ?_, ?_, ?_⟩
  · intro pts c
    have hl : ¬ Draw.outline pts c ∈ (if showIds = true then plotLabels traj now else []) := by
      cases showIds <;> simp [plotLabels]
    simp only [List.mem_append, hl, false_or, outline_center_false, or_false, C97_all_boxes, hcell]
    constructor
    · rintro ((⟨rfl, b, ⟨i, t, hq, rfl⟩, rfl⟩ | ⟨rfl, b, ⟨i, t, hq, rfl⟩, rfl⟩) | ⟨rfl, b, hb, rfl⟩)
      · simp only [Bool.and_eq_true, decide_eq_true_eq] at hq
        exact Or.inl ⟨i, t, by exact_mod_cast hq.1, hq.2.2, shrunk_pictured traj now t i, by
          rw [if_pos hq.2.1]; rfl⟩
      · simp only [Bool.and_eq_true, decide_eq_true_eq, Bool.not_eq_true'] at hq
        exact Or.inl ⟨i, t, by exact_mod_cast hq.1, hq.2.2, shrunk_pictured traj now t i, by
          rw [hq.2.1]; rfl⟩
      · simp only [List.mem_map, List.mem_filter, List.mem_finRange, true_and, Bool.and_eq_true, decide_eq_true_eq] at hb
        obtain ⟨i, h, rfl⟩ := hb
        obtain ⟨j, hj⟩ := (pairwise_touching traj now i).1 h
        exact Or.inr ⟨i, j, hj.1, hj.2, shrunk_pictured traj now now i, rfl⟩
    · rintro (⟨i, t, hle, hv, rfl, rfl⟩ | ⟨i, j, hne, ht, rfl, rfl⟩)
      · cases hc : isControlled i
        · refine Or.inl (Or.inr ⟨rfl, _, ⟨i, t, ?_, rfl⟩, (shrunk_pictured traj now t i).symm⟩)
          simp only [hc, hv, Bool.not_false, Bool.and_self, Bool.and_true, decide_eq_true_eq]
          exact_mod_cast hle
        · refine Or.inl (Or.inl ⟨rfl, _, ⟨i, t, ?_, rfl⟩, (shrunk_pictured traj now t i).symm⟩)
          simp only [hc, hv, Bool.and_self, Bool.and_true, decide_eq_true_eq]
          exact_mod_cast hle
      · refine Or.inr ⟨rfl, _, ?_, (shrunk_pictured traj now now i).symm⟩
        simp only [List.mem_map, List.mem_filter, List.mem_finRange, true_and, Bool.and_eq_true, decide_eq_true_eq]
        exact ⟨i, (pairwise_touching traj now i).2 ⟨j, hne, ht⟩, rfl⟩
  · intro p c
    have hl : ¬ Draw.center p c ∈ (if showIds = true then plotLabels traj now else []) := by
      cases showIds <;> simp [plotLabels]
    simp only [List.mem_append, hl, false_or, or_false, (center_mem _ _ _ _).2, (center_mem _ _ _ _).1, hcell]
    constructor
    · rintro ⟨rfl, b, ⟨i, t, hq, rfl⟩, rfl⟩
      simp only [Bool.and_eq_true, decide_eq_true_eq] at hq
      exact ⟨i, t, by exact_mod_cast hq.1, hq.2, shrunk_xy _ _ _ _, rfl⟩
    · rintro ⟨i, t, hlt', hv, rfl, rfl⟩
      refine ⟨rfl, _, ⟨i, t, ?_, rfl⟩, (shrunk_xy _ _ _ _).symm⟩
      simp only [hv, Bool.and_true, decide_eq_true_eq]
      exact_mod_cast hlt'
  · intro p k
    simp only [List.mem_append, label_not_mem, or_false]
    cases showIds
    · simp
    · simp only [if_true, plotLabels, List.mem_map, List.mem_filter, List.mem_finRange, true_and, Draw.label.injEq]
      constructor
      · rintro ⟨i, hv, rfl, rfl⟩; exact ⟨i, hv, rfl, rfl⟩
      · rintro ⟨i, hv, rfl, rfl⟩; exact ⟨i, hv, rfl, rfl⟩

end

end Waymax
