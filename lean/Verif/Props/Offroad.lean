import Verif.Props.Metrics
/-
C40: the off-road metric (real arithmetic).
-/

namespace Waymax

theorem ite_eq_one_iff (P : Prop) [Decidable P] : (if P then (1 : ℝ) else 0) = 1 ↔ P := by
  by_cases h : P <;> simp [h]

theorem isRoadEdge_iff (p : RgPoint ℝ) : (p.valid && isRoadEdge p.type) = true ↔ IsEdge p := by
  simp [isRoadEdge, IsEdge]

theorem sq_le_iff_stretched (p p' : RgPoint ℝ) (q : ℝ × ℝ) (z : ℝ) :
    ((p.x - q.1) ^ 2 + (p.y - q.2) ^ 2 + ((p.z - z) * 2) ^ 2 ≤ (p'.x - q.1) ^ 2 + (p'.y - q.2) ^ 2 + ((p'.z - z) * 2) ^ 2) ↔
      stretchedDist p q z ≤ stretchedDist p' q z := by
  unfold stretchedDist
  rw [Real.sqrt_le_sqrt_iff (by positivity), mul_comm 2 (p.z - z), mul_comm 2 (p'.z - z)]

/-- The positive-sign test in terms of sides. -/
theorem sign_pos_iff (pn pp : RgPoint ℝ) (q : ℝ × ℝ) (same : Prop) [Decidable same] :
    let cross := cross2 (q.1 - pn.x, q.2 - pn.y) (pn.dirX, pn.dirY)
    let crossPrior := cross2 (q.1 - pn.x, q.2 - pn.y) (pp.dirX, pp.dirY)
    let chosen := if same ∧ crossPrior < cross then crossPrior else cross
    let sign : ℝ := if chosen > 0 then 1 else if chosen < 0 then -1 else 0
    0 < hypot (pn.x - q.1) (pn.y - q.2) * sign ↔
      RightOf pn pn.dirX pn.dirY q ∧ (same → RightOf pn pp.dirX pp.dirY q) := by
  intro cross crossPrior chosen sign
  have hc : RightOf pn pn.dirX pn.dirY q ↔ 0 < cross := by
    unfold RightOf; simp only [cross, cross2]; constructor <;> intro h <;> linarith
  have hcp : RightOf pn pp.dirX pp.dirY q ↔ 0 < crossPrior := by
    unfold RightOf; simp only [crossPrior, cross2]; constructor <;> intro h <;> linarith
  have hchosen : 0 < chosen ↔ 0 < cross ∧ (same → 0 < crossPrior) := by
    simp only [chosen]
    split
    · rename_i h
      exact ⟨fun h' => ⟨lt_trans h' h.2, fun _ => h'⟩, fun h' => h'.2 h.1⟩
    · rename_i h
      refine ⟨fun h' => ⟨h', fun hs => ?_⟩, fun h' => h'.1⟩
      by_contra hc
      exact h ⟨hs, lt_of_le_of_lt (not_lt.1 hc) h'⟩
  rw [hc, hcp, ← hchosen]
  constructor
  · intro h
    by_contra hn
    have : sign ≤ 0 := by
      simp only [sign]; rw [if_neg hn]; split <;> norm_num
    have := mul_nonpos_of_nonneg_of_nonpos (hypot_nonneg (pn.x - q.1) (pn.y - q.2)) this
    linarith
  · intro h
    have hs : sign = 1 := by simp only [sign]; rw [if_pos h]
    rw [hs, mul_one]
    apply hypot_pos
    rintro ⟨h1, h2⟩
    have h1' : q.1 - pn.x = 0 := by linarith
    have h2' : q.2 - pn.y = 0 := by linarith
    have hz : cross = 0 := by simp only [cross, cross2, h1', h2']; ring
    have hzp : crossPrior = 0 := by simp only [crossPrior, cross2, h1', h2']; ring
    have : chosen = 0 := by simp only [chosen, hz, hzp]; split <;> rfl
    linarith

/-- With at least one usable road edge, a positive signed distance means: on the off-road side. -/
theorem signedDistance_pos_iff (rg : List (RgPoint ℝ)) (q : ℝ × ℝ) (z : ℝ) (he : ∃ p ∈ rg, IsEdge p) :
    (∃ d, signedDistanceToNearestRoadEdgePoint rg q.1 q.2 z = some d ∧ d > 0) ↔ OffroadSide rg q z := by
  obtain ⟨e, hemem, hee⟩ := he
  unfold signedDistanceToNearestRoadEdgePoint
  simp only
  set F := fun p : RgPoint ℝ => orInf (p.valid && isRoadEdge p.type)
    ((p.x - q.1) ^ 2 + (p.y - q.2) ^ 2 + ((p.z - z) * 2) ^ 2) with hF
  have hFe : ∀ p, IsEdge p → F p = (((p.x - q.1) ^ 2 + (p.y - q.2) ^ 2 + ((p.z - z) * 2) ^ 2 : ℝ) : WithTop ℝ) := by
    intro p hp; simp only [hF, orInf, (isRoadEdge_iff p).2 hp, if_true]
  have hne : rg.map F ≠ [] := by
    intro h; rw [List.map_eq_nil_iff] at h; rw [h] at hemem; simp at hemem
  obtain ⟨v, h1, h2, h3⟩ := argmin_spec hne
  set k := argmin (rg.map F) with hk
  rw [List.getElem?_map, Option.map_eq_some_iff] at h1
  obtain ⟨pn, hpn, hpv⟩ := h1
  have hklt : k < rg.length := (List.getElem?_eq_some_iff.1 hpn).1
  have hpe : IsEdge pn := by
    rw [← isRoadEdge_iff]
    by_contra hc
    have : v ≤ F e := h2 _ (List.mem_map.2 ⟨e, hemem, rfl⟩)
    rw [hFe e hee, ← hpv] at this
    simp only [hF, orInf, hc, if_false] at this
    exact absurd (top_le_iff.1 this) WithTop.coe_ne_top
  have hnear : IsNearestEdge rg q z k pn := by
    refine ⟨hpn, hpe, fun j p' hj hp' => ⟨?_, fun hjk => ?_⟩⟩
    · have := h2 _ (List.mem_map.2 ⟨p', List.mem_of_getElem? hj, rfl⟩)
      rw [← hpv, hFe _ hpe, hFe _ hp'] at this
      exact (sq_le_iff_stretched _ _ _ _).1 (WithTop.coe_le_coe.1 this)
    · have := h3 j hjk (F p') (by rw [List.getElem?_map, hj]; rfl)
      rw [← hpv, hFe _ hpe, hFe _ hp'] at this
      have := not_le.2 (WithTop.coe_lt_coe.1 this)
      rw [sq_le_iff_stretched] at this
      exact not_le.1 this
  have hunique : ∀ k' p', IsNearestEdge rg q z k' p' → k' = k ∧ p' = pn := by
    rintro k' p' ⟨g1, g2, g3⟩
    obtain ⟨f1, f2, f3⟩ := hnear
    have hkk : k' = k := by
      rcases lt_trichotomy k' k with h | h | h
      · exact absurd ((f3 k' p' g1 g2).2 h) (not_lt.2 (g3 k pn f1 f2).1)
      · exact h
      · exact absurd ((g3 k pn f1 f2).2 h) (not_lt.2 (f3 k' p' g1 g2).1)
    refine ⟨hkk, ?_⟩
    rw [hkk, hpn] at g1
    exact (Option.some.inj g1).symm
  have hpp : ∃ pp, rg[k - 1]? = some pp := ⟨rg[k - 1], List.getElem?_eq_getElem (by omega)⟩
  obtain ⟨pp, hpp⟩ := hpp
  rw [hpn, hpp]
  simp only [Option.some.injEq, exists_eq_left']
  refine (sign_pos_iff pn pp q (pn.id = pp.id)).trans ?_
  constructor
  · rintro ⟨a, b⟩
    refine ⟨k, pn, hnear, a, ?_⟩
    intro j p' hj hp' hid
    have : k - 1 = j := by omega
    rw [this, hp'] at hpp
    obtain rfl := Option.some.inj hpp
    exact b hid.symm
  · rintro ⟨k', p', hn, a, b⟩
    obtain ⟨rfl, rfl⟩ := hunique k' p' hn
    refine ⟨a, fun hid => ?_⟩
    by_cases h0 : k = 0
    · rw [h0] at hpp hpn
      simp only [Nat.zero_sub] at hpp
      rw [hpn] at hpp
      obtain rfl := Option.some.inj hpp
      exact a
    · exact b (k - 1) pp (by omega) hpp hid.symm

section
variable {n T : Nat} [NeZero T]

theorem isCorner_iff (p : Pt ℝ) (q : ℝ × ℝ) : IsCorner p q ↔ ∃ k : Fin 4, cornersFromBbox p.box k = q := by
  obtain ⟨h0, h1, h2, h3⟩ := C24_corners p.box
  constructor
  · rintro ⟨a, b, ha, hb, rfl⟩
    rcases ha with rfl | rfl <;> rcases hb with rfl | rfl
    · exact ⟨1, by rw [h1]; simp [Pt.box, pointAt]⟩
    · exact ⟨0, by rw [h0]; simp [Pt.box, pointAt]; constructor <;> ring⟩
    · exact ⟨2, by rw [h2]; simp [Pt.box, pointAt]; constructor <;> ring⟩
    · exact ⟨3, by rw [h3]; simp [Pt.box, pointAt]; constructor <;> ring⟩
  · rintro ⟨k, rfl⟩
    fin_cases k
    · refine ⟨1, -1, by simp, by simp, ?_⟩; refine h0.trans ?_; simp [Pt.box, pointAt]; constructor <;> ring
    · refine ⟨1, 1, by simp, by simp, ?_⟩; refine h1.trans ?_; simp [Pt.box, pointAt]
    · refine ⟨-1, 1, by simp, by simp, ?_⟩; refine h2.trans ?_; simp [Pt.box, pointAt]; constructor <;> ring
    · refine ⟨-1, -1, by simp, by simp, ?_⟩; refine h3.trans ?_; simp [Pt.box, pointAt]; constructor <;> ring

/-- The expectation: off-road is 1 iff some box corner is on the off-road side of its nearest valid road-edge point. -/
def OffroadExact (n T : Nat) [NeZero T] : Prop :=
  ∀ (s : SimState ℝ n T) (rg : List (RgPoint ℝ)) (t : Fin T), (t : Int) = s.timestep → s.roadgraphPoints = some rg → rg ≠ [] →
    ∃ r, offroadMetric s = .ok r ∧ ∀ i, ((r i).value = 1 ↔
      ∃ q, IsCorner (s.simTrajectory i t) q ∧ OffroadSide rg q (s.simTrajectory i t).z)

/-- It holds whenever the road graph contains at least one valid road-edge point; values are 0 or 1 and always marked valid.
Missing: road graphs without a valid edge point, see `C40_no_edges` and `C40_violated`. -/
theorem C40_offroad_partial (s : SimState ℝ n T) {rg : List (RgPoint ℝ)} {t : Fin T} (ht : (t : Int) = s.timestep)
    (hrg : s.roadgraphPoints = some rg) (he : ∃ p ∈ rg, IsEdge p) :
    ∃ r, offroadMetric s = .ok r ∧ ∀ i,
      ((r i).value = 1 ↔ ∃ q, IsCorner (s.simTrajectory i t) q ∧ OffroadSide rg q (s.simTrajectory i t).z) ∧
      ((r i).value = 0 ∨ (r i).value = 1) ∧ (r i).valid = true := by
  unfold offroadMetric
  rw [hrg]
  obtain ⟨p, ps, rfl⟩ : ∃ p ps, rg = p :: ps := by
    cases rg with
    | nil => simp at he
    | cons p ps => exact ⟨p, ps, rfl⟩
  refine ⟨_, rfl, fun i => ⟨?_, ?_, rfl⟩⟩
  · rw [dynIndex_of_eq _ ht]
    have hiff : isOffroad (p :: ps) (s.simTrajectory i t) ↔
        ∃ q, IsCorner (s.simTrajectory i t) q ∧ OffroadSide (p :: ps) q (s.simTrajectory i t).z := by
      unfold isOffroad
      constructor
      · rintro ⟨k, h⟩
        exact ⟨_, (isCorner_iff _ _).2 ⟨k, rfl⟩, (signedDistance_pos_iff _ _ _ he).1 h⟩
      · rintro ⟨q, hc, ho⟩
        obtain ⟨k, rfl⟩ := (isCorner_iff _ _).1 hc
        exact ⟨k, (signedDistance_pos_iff _ _ _ he).2 ho⟩
    rw [← hiff]
    exact @ite_eq_one_iff _ (Classical.propDecidable _)
  · simp only
    split
    · right; rfl
    · left; rfl

/-- Exact behaviour without any valid road edge: the side is taken with respect to the first road point, whatever its type or
validity. -/
theorem C40_no_edges (s : SimState ℝ n T) {p : RgPoint ℝ} {ps : List (RgPoint ℝ)} {t : Fin T} (ht : (t : Int) = s.timestep)
    (hrg : s.roadgraphPoints = some (p :: ps)) (he : ∀ p' ∈ p :: ps, ¬ IsEdge p') :
    ∃ r, offroadMetric s = .ok r ∧ ∀ i,
      ((r i).value = 1 ↔ ∃ q, IsCorner (s.simTrajectory i t) q ∧ RightOf p p.dirX p.dirY q) := by
  unfold offroadMetric
  rw [hrg]
  refine ⟨_, rfl, fun i => ?_⟩
  rw [dynIndex_of_eq _ ht]
  have hsd : ∀ q : ℝ × ℝ, (∃ d, signedDistanceToNearestRoadEdgePoint (p :: ps) q.1 q.2 (s.simTrajectory i t).z = some d ∧ d > 0) ↔
      RightOf p p.dirX p.dirY q := by
    intro q
    unfold signedDistanceToNearestRoadEdgePoint
    have harg : argmin ((p :: ps).map fun p' => orInf (p'.valid && isRoadEdge p'.type)
        ((p'.x - q.1) ^ 2 + (p'.y - q.2) ^ 2 + ((p'.z - (s.simTrajectory i t).z) * 2) ^ 2)) = 0 := by
      obtain ⟨v, h1, h2, h3⟩ := argmin_spec (xs := (p :: ps).map fun p' => orInf (p'.valid && isRoadEdge p'.type)
        ((p'.x - q.1) ^ 2 + (p'.y - q.2) ^ 2 + ((p'.z - (s.simTrajectory i t).z) * 2) ^ 2)) (by simp)
      by_contra h0
      have hlt := h3 0 (Nat.pos_of_ne_zero h0) _ (by rfl)
      have hmem := List.mem_of_getElem? h1
      obtain ⟨p', hp', hpv⟩ := List.mem_map.1 hmem
      have : v = ⊤ := by
        rw [← hpv]
        simp only [orInf]
        rw [if_neg]
        rw [isRoadEdge_iff]
        exact he p' hp'
      rw [this] at hlt
      exact absurd hlt not_top_lt
    simp only [harg]
    simp only [Nat.zero_sub, List.getElem?_cons_zero, Option.some.injEq, exists_eq_left']
    refine (sign_pos_iff p p q True).trans ?_
    tauto
  have hiff : isOffroad (p :: ps) (s.simTrajectory i t) ↔
      ∃ q, IsCorner (s.simTrajectory i t) q ∧ RightOf p p.dirX p.dirY q := by
    unfold isOffroad
    constructor
    · rintro ⟨k, h⟩
      exact ⟨_, (isCorner_iff _ _).2 ⟨k, rfl⟩, (hsd _).1 h⟩
    · rintro ⟨q, hc, ho⟩
      obtain ⟨k, rfl⟩ := (isCorner_iff _ _).1 hc
      exact ⟨k, (hsd _).2 ho⟩
  rw [← hiff]
  exact @ite_eq_one_iff _ (Classical.propDecidable _)

end

/-- One object at the origin and one road point at `(0, 10)` heading in x direction. -/
def exRoad (type : Int) : SimState ℝ 1 1 :=
  { simTrajectory := fun _ _ => parked 0 0 true, logTrajectory := fun _ _ => parked 0 0 true, logTrafficLight := []
    objectMetadata := fun _ => ⟨0, 1, true, true, true, false, false⟩, timestep := 0, sdcPaths := none
    roadgraphPoints := some [⟨0, 10, 0, 1, 0, 0, type, 7, true⟩] }

theorem exRoad_corner : IsCorner (parked 0 0 true) (2, 1) :=
  ⟨1, 1, by simp, by simp, by simp [pointAt, parked, heading, leftOf]; norm_num⟩

/-- A scene whose only road point is a lane centre (type 1) reports the object off-road, although there is no road edge. -/
theorem C40_violated : ¬ OffroadExact 1 1 := by
  intro h
  obtain ⟨r, hr, h1⟩ := h (exRoad 1) _ 0 rfl rfl (by simp)
  obtain ⟨r', hr', h2⟩ := C40_no_edges (exRoad 1) (t := 0) rfl rfl (by simp [IsEdge])
  rw [hr] at hr'
  obtain rfl := Except.ok.inj hr'
  have hone : (r 0).value = 1 := (h2 0).2 ⟨(2, 1), exRoad_corner, by norm_num [RightOf]⟩
  obtain ⟨q, -, k, p, ⟨hk, hp, -⟩, -⟩ := (h1 0).1 hone
  have := List.mem_of_getElem? hk
  simp only [List.mem_singleton] at this
  subst this
  simp [IsEdge] at hp

/-- With a road edge the partial theorem applies: the object right of the edge is off-road. -/
example : ∃ r, offroadMetric (exRoad 15) = .ok r ∧ (r 0).value = 1 := by
  obtain ⟨r, hr, h⟩ := C40_offroad_partial (exRoad 15) (t := 0) rfl rfl ⟨_, List.mem_singleton.2 rfl, by simp [IsEdge]⟩
  refine ⟨r, hr, (h 0).1.2 ⟨(2, 1), exRoad_corner, 0, _, ⟨rfl, by simp [IsEdge], ?_⟩, by norm_num [RightOf], ?_⟩⟩
  · intro j p' hj _
    have := List.mem_of_getElem? hj
    simp only [List.mem_singleton] at this
    subst this
    exact ⟨le_rfl, by omega⟩
  · intro j p' hj
    omega

end Waymax
