import Verif.Spec.Size
import Verif.Props.Metrics
import Verif.Props.Offroad

/-! C177: A larger object overlaps at least as much; where being larger takes it off the road. -/

namespace Waymax
section
variable {n T : Nat} [NeZero T]

/-- The larger rectangle contains the smaller one. -/
theorem Larger.interior_subset {p q : Pt ℝ} (h : Larger p q) :
    rectInterior p.x p.y p.length p.width p.yaw ⊆ rectInterior q.x q.y q.length q.width q.yaw := by
  rintro z ⟨u, v, hu, hv, rfl⟩
  exact ⟨u, v, by linarith [h.length], by linarith [h.width], by rw [h.x, h.y, h.yaw]⟩

/-- Objects that are at least as large, and at least as many, never overlap less: an object that overlaps still does. -/
theorem C177_overlap {s s' : SimState ℝ n T} {t t' : Fin T} (h : LargerScene s s' t t') (i : Fin n) :
    (overlapMetric s i).value ≤ (overlapMetric s' i).value := by
  obtain ⟨a, b, -⟩ := C27_overlap_metric s h.now i
  obtain ⟨a', b', -⟩ := C27_overlap_metric s' h.now' i
  rcases b with b | b
  · rw [b]
    rcases b' with b' | b' <;> simp [b']
  · obtain ⟨j, hj, hv, hm⟩ := a.1 b
    rw [b, a'.2 ⟨j, hj, h.present j hv, hm.mono (Set.inter_subset_inter (h.box i).interior_subset (h.box j).interior_subset)⟩]

/-- The pairwise test behind it: growing either of two boxes keeps an overlap. -/
theorem C177_pair {p q p' q' : Pt ℝ} (hp : Larger p p') (hq : Larger q q') (h : hasOverlap p.box q.box) : hasOverlap p'.box q'.box := by
  rw [C25_overlap_exact] at h ⊢
  exact h.mono (Set.inter_subset_inter hp.interior_subset hq.interior_subset)

/-- Every corner of the smaller box lies in the hull of the corners of the larger one. -/
theorem Larger.corner_hull {p q : Pt ℝ} (h : Larger p q) {c : ℝ × ℝ} (hc : IsCorner p c) :
    c ∈ convexHull ℝ {c' | IsCorner q c'} := by
  have e : {c' | IsCorner q c'} = Set.range (cornersFromBbox q.box) := by
    ext c'
    exact isCorner_iff q c'
  rw [e, ← C25_rectangle_is_hull]
  obtain ⟨a, b, ha, hb, rfl⟩ := hc
  have ea : |a| = 1 := by rcases ha with rfl | rfl <;> simp
  have eb : |b| = 1 := by rcases hb with rfl | rfl <;> simp
  refine ⟨a * (p.length / 2), b * (p.width / 2), ?_, ?_, ?_⟩
  · rw [abs_mul, ea, abs_div, abs_two, one_mul]
    have := h.length
    simp only [Pt.box]
    linarith
  · rw [abs_mul, eb, abs_div, abs_two, one_mul]
    have := h.width
    simp only [Pt.box]
    linarith
  · simp only [Pt.box, h.x, h.y, h.yaw, mul_div_assoc]

/-- Off the road, being larger does not help either as long as the part of the plane that counts as road, at the height of the object, is
convex. -/
theorem C177_offroad_partial {s s' : SimState ℝ n T} {t t' : Fin T} (h : LargerScene s s' t t') {rg : List (RgPoint ℝ)}
    (hrg : s.roadgraphPoints = some rg) (he : ∃ p ∈ rg, IsEdge p) {i : Fin n}
    (hconv : Convex ℝ {c : ℝ × ℝ | ¬ OffroadSide rg c (s.simTrajectory i t).z}) :
    ∃ r r', offroadMetric s = .ok r ∧ offroadMetric s' = .ok r' ∧ (r i).value ≤ (r' i).value := by
  obtain ⟨r, hr, a⟩ := C40_offroad_partial s h.now hrg he
  obtain ⟨r', hr', a'⟩ := C40_offroad_partial s' h.now' (h.roads.trans hrg) he
  refine ⟨r, r', hr, hr', ?_⟩
  rcases (a i).2.1 with b | b
  · rw [b]
    rcases (a' i).2.1 with b' | b' <;> simp [b']
  · obtain ⟨c, hc, ho⟩ := (a i).1.1 b
    have : (r' i).value = 1 := by
      rw [(a' i).1]
      by_contra hno
      have hsub : {c' | IsCorner (s'.simTrajectory i t') c'} ⊆ {c : ℝ × ℝ | ¬ OffroadSide rg c (s.simTrajectory i t).z} := by
        intro c' hc' hside
        exact hno ⟨c', hc', by rw [(h.box i).z]; exact hside⟩
      exact convexHull_min hsub hconv ((h.box i).corner_hull hc) ho
    rw [b, this]

end

/-- An object of the given length at the origin, on a road with a stretch of road edge below it and road edges ahead and behind. -/
def longVehicle (len : ℝ) : SimState ℝ 1 1 :=
  { exRoad 15 with
    simTrajectory := fun _ _ => { parked 0 0 true with length := len }
    roadgraphPoints := some [⟨0, 0, 0, 0, 1, 0, 15, 7, true⟩, ⟨12, 0, 0, 0, 1, 0, 15, 8, true⟩, ⟨-12, 0, 0, 0, -1, 0, 15, 9, true⟩] }

theorem longVehicle_larger : LargerScene (longVehicle 2) (longVehicle 20) 0 0 where
  now := rfl
  now' := rfl
  box := fun _ => ⟨rfl, rfl, rfl, rfl, by norm_num [longVehicle, abs_of_pos], le_rfl⟩
  present := fun _ h => h
  roads := rfl

theorem longVehicle_edges : ∃ p ∈ ([⟨0, 0, 0, 0, 1, 0, 15, 7, true⟩, ⟨12, 0, 0, 0, 1, 0, 15, 8, true⟩,
    ⟨-12, 0, 0, 0, -1, 0, 15, 9, true⟩] : List (RgPoint ℝ)), IsEdge p := ⟨_, List.mem_cons_self, by simp [IsEdge]⟩

/-- A short object that stands on a road edge is off the road; made longer, it is reported on the road, since only the corners are looked
at and they are now nearest to other road edges. -/
theorem C177_offroad_violated : ¬ OffroadGrows 1 1 := by
  intro H
  obtain ⟨r, hr, a⟩ := C40_offroad_partial (longVehicle 2) (t := 0) rfl rfl longVehicle_edges
  obtain ⟨r', hr', a'⟩ := C40_offroad_partial (longVehicle 20) (t := 0) rfl rfl longVehicle_edges
  have h := H _ _ 0 0 longVehicle_larger r r' hr hr' 0
  have h1 : (r 0).value = 1 := by
    rw [(a 0).1]
    refine ⟨(1, 1), ⟨1, 1, by simp, by simp, by simp [pointAt, longVehicle, parked, heading, leftOf]⟩, 0, _, ⟨rfl, by simp [IsEdge], ?_⟩,
      by norm_num [RightOf], by intro j p' hj; omega⟩
    intro j p' hj _
    match j, hj with
    | 0, hj =>
      obtain rfl := Option.some.inj hj
      exact ⟨le_rfl, by omega⟩
    | 1, hj =>
      obtain rfl := Option.some.inj hj
      exact ⟨Real.sqrt_le_sqrt (by norm_num [longVehicle, parked]), by omega⟩
    | 2, hj =>
      obtain rfl := Option.some.inj hj
      exact ⟨Real.sqrt_le_sqrt (by norm_num [longVehicle, parked]), by omega⟩
    | j + 3, hj => simp at hj
  have h0 : (r' 0).value ≠ 1 := by
    rw [Ne, (a' 0).1]
    rintro ⟨q, ⟨u, v, hu, hv, rfl⟩, k, p, ⟨hk, hp, hn⟩, hright, -⟩
    have n1 := (hn 1 _ rfl (by simp [IsEdge])).1
    have n2 := (hn 2 _ rfl (by simp [IsEdge])).1
    have hpos : ∀ x y z : ℝ, 0 ≤ x ^ 2 + y ^ 2 + z ^ 2 := fun x y z => by positivity
    unfold stretchedDist at n1 n2
    rw [Real.sqrt_le_sqrt_iff (hpos _ _ _)] at n1 n2
    simp only [longVehicle, parked, pointAt, heading, leftOf, Real.cos_zero, Real.sin_zero] at n1 n2 hright
    match k, hk with
    | 0, hk =>
      obtain rfl := Option.some.inj hk
      rcases hu with rfl | rfl <;> (revert n1 n2; norm_num)
    | 1, hk =>
      obtain rfl := Option.some.inj hk
      rcases hu with rfl | rfl <;> (revert n1 n2 hright; norm_num [RightOf])
    | 2, hk =>
      obtain rfl := Option.some.inj hk
      rcases hu with rfl | rfl <;> (revert n1 n2 hright; norm_num [RightOf])
    | k + 3, hk => simp at hk
  rcases (a' 0).2.1 with e | e
  · rw [h1, e] at h
    norm_num at h
  · exact h0 e

/-- The object of `exRoad`, made 9 m long. -/
def exRoadLong : SimState ℝ 1 1 := { exRoad 15 with simTrajectory := fun _ _ => { parked 0 0 true with length := 9 } }

/-- The convexity in the partial theorem is met by a straight road edge: the road is the half-plane to its left. -/
example : ∃ r r', offroadMetric (exRoad 15) = .ok r ∧ offroadMetric exRoadLong = .ok r' ∧ (r 0).value ≤ (r' 0).value := by
  refine C177_offroad_partial (s := exRoad 15) (s' := exRoadLong) (t := 0) (t' := 0) ⟨rfl, rfl, fun _ => ⟨rfl, rfl, rfl, rfl, ?_, le_rfl⟩, fun _ h => h, rfl⟩ rfl
    ⟨_, List.mem_singleton.2 rfl, by simp [IsEdge]⟩ ?_
  · norm_num [exRoad, exRoadLong, parked, abs_of_pos]
  · have e : {c : ℝ × ℝ | ¬ OffroadSide [⟨0, 10, 0, 1, 0, 0, 15, 7, true⟩] c ((exRoad 15).simTrajectory 0 0).z} = {c | 10 ≤ c.2} := by
      ext c
      simp only [Set.mem_ofPred_eq]
      rw [← not_lt, not_iff_not]
      constructor
      · rintro ⟨k, p, ⟨hk, -⟩, hright, -⟩
        have := List.mem_of_getElem? hk
        simp only [List.mem_singleton] at this
        subst this
        simp only [RightOf] at hright
        linarith
      · intro hc
        refine ⟨0, _, ⟨rfl, by simp [IsEdge], ?_⟩, by simp only [RightOf]; linarith, by intro j p' hj; omega⟩
        intro j p' hj _
        have := List.mem_of_getElem? hj
        simp only [List.mem_singleton] at this
        subst this
        exact ⟨le_rfl, by omega⟩
    rw [e]
    intro a ha b hb u v hu hv huv
    simp only [Set.mem_ofPred_eq, Prod.snd_add, Prod.smul_snd, smul_eq_mul] at *
    nlinarith

/-- Two objects, 5 m apart. -/
def sizeScen (len : ℝ) : SimState ℝ 2 1 :=
  { simTrajectory := fun i _ => { parked (5 * (i.val : ℝ)) 0 true with length := len }
    logTrajectory := fun _ _ => parked 0 0 true, logTrafficLight := []
    objectMetadata := fun _ => ⟨0, 1, true, true, true, false, false⟩, timestep := 0, sdcPaths := none, roadgraphPoints := none }

/-- Both cases occur: objects of 4 m do not overlap at this distance, objects of 12 m do. -/
example : (overlapMetric (sizeScen 4) 0).value = 0 ∧ (overlapMetric (sizeScen 12) 0).value = 1 ∧
    (overlapMetric (sizeScen 4) 0).value ≤ (overlapMetric (sizeScen 12) 0).value := by
  refine ⟨?_, ?_, C177_overlap (s := sizeScen 4) (s' := sizeScen 12) (t := 0) (t' := 0) ⟨rfl, rfl, fun i => ⟨rfl, rfl, rfl, rfl, by norm_num [sizeScen, abs_of_pos], le_rfl⟩,
    fun _ h => h, rfl⟩ 0⟩
  · obtain ⟨a, b, -⟩ := C27_overlap_metric (sizeScen 4) (t := 0) rfl 0
    refine b.resolve_right fun h => ?_
    obtain ⟨j, hj, -, z, ⟨u, v, hu, -, hz⟩, ⟨u', v', hu', -, hz'⟩⟩ := a.1 h
    obtain rfl : j = 1 := by omega
    rw [hz] at hz'
    have := congrArg Prod.fst hz'
    simp [sizeScen, parked, pointAt, heading, leftOf] at this hu hu'
    rw [abs_lt] at hu hu'
    linarith [hu.2, hu'.1]
  · obtain ⟨a, -⟩ := C27_overlap_metric (sizeScen 12) (t := 0) rfl 0
    refine a.2 ⟨1, by decide, rfl, (3, 0), ⟨3, 0, ?_, ?_, ?_⟩, ⟨-2, 0, ?_, ?_, ?_⟩⟩ <;>
      norm_num [sizeScen, parked, pointAt, heading, leftOf, abs_of_pos]

end Waymax
