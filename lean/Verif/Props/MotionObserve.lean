import Verif.Props.MotionMetrics
import Verif.Props.Observation
/-
C145: the map frame has no influence on what an observer sees.
-/

namespace Waymax

open Real

section
variable {n T K : Nat} {g : Motion}

theorem topKIdx_cast {N N' : Nat} (h : N' = N) {A : Type} (key : Fin N → WithTop ℝ) (key' : Fin N' → WithTop ℝ)
    (hk : ∀ i, key' i = key (Fin.cast h i)) (F : Fin N → A) (F' : Fin N' → A) (hF : ∀ i, F' i = F (Fin.cast h i)) (k : Nat) :
    (topKIdx key' k).map F' = (topKIdx key k).map F := by
  subst h
  have h1 : key' = key := funext hk
  have h2 : F' = F := funext hF
  rw [h1, h2]

/-- The nearest road points of a moved reference point are the moved nearest road points. -/
theorem filterTopk_moved (rg : List (RgPoint ℝ)) (ref : ℝ × ℝ) (k : Nat) :
    filterTopk (rg.map g.road) (g.point ref) k = (filterTopk rg ref k).map (List.map g.road) := by
  unfold filterTopk
  have hl : (rg.map g.road).length = rg.length := List.length_map _
  by_cases h1 : k > rg.length
  · rw [if_pos h1, if_pos (by rw [hl]; exact h1)]; rfl
  · rw [if_neg h1, if_neg (by rw [hl]; exact h1)]
    by_cases h2 : k < rg.length
    · rw [if_pos h2, if_pos (by rw [hl]; exact h2)]
      simp only [Except.map, List.map_map]
      congr 1
      refine topKIdx_cast hl _ _ (fun i => ?_) _ _ (fun i => ?_) k
      · simp only [Fin.getElem_fin, List.getElem_map, Fin.val_cast]
        have := g.hypot_point ref ((rg[i.val]'(lt_of_lt_of_eq i.isLt hl)).x,
          (rg[i.val]'(lt_of_lt_of_eq i.isLt hl)).y)
        exact congrArg _ this
      · simp only [Fin.getElem_fin, List.getElem_map, Fin.val_cast, Function.comp]
        rfl
    · rw [if_neg h2, if_neg (by rw [hl]; exact h2)]; rfl

/-- A map-frame observation, moved. -/
structure ObsMoved (g : Motion) (o o' : Obs n K) : Prop where
  objects : ∀ i t, PtMoved g (o.trajectory i t) (o'.trajectory i t)
  roads : o'.roadgraph = o.roadgraph.map g.road
  lights : o'.trafficLights = o.trafficLights.map fun l t => g.light (l t)
  info : o'.metadata = o.metadata
  ego : o'.isEgo = o.isEgo
  pose : o.pose2d = Pose2D.fromCenterAndYaw (0, 0) 0 true
  pose' : o'.pose2d = Pose2D.fromCenterAndYaw (0, 0) 0 true

theorem globalObservation_moved {s s' : SimState ℝ n T} (h : Moved g s s') (K : Nat) :
    Both (ObsMoved g) (globalObservation s K) (globalObservation s' K) := by
  unfold globalObservation
  split
  · rw [h.roadgraph]
    cases s.roadgraphPoints with
    | none => exact .error
    | some rg =>
      refine .ok ⟨fun i t => ?_, rfl, ?_, h.objects, rfl, rfl, rfl⟩
      · simp only [h.clock]
        exact h.sim i _
      · simp only [h.clock, h.lights, List.map_map]
        rfl
  · exact .error

theorem withTopk_moved {o o' : Obs n K} (h : ObsMoved g o o') (e : Fin n → Bool) {ref ref' : ℝ × ℝ} (hr : ref' = g.point ref) (k : Nat) :
    Both (ObsMoved g) (o.withTopk e ref k) (o'.withTopk e ref' k) := by
  unfold Obs.withTopk
  rw [h.roads, hr, filterTopk_moved]
  cases filterTopk o.roadgraph ref k with
  | error e => exact .error
  | ok rg => exact .ok ⟨h.objects, rfl, h.lights, h.info, rfl, h.pose, h.pose'⟩

/-! ### Seen from a moved frame -/

theorem pointAt_frame {c c' : ℝ × ℝ} {yaw yaw' : ℝ} (hc : c' = g.point c) (hy : AnglesAgree yaw' (yaw + g.angle)) (u v : ℝ) :
    pointAt c'.1 c'.2 yaw' u v = g.point (pointAt c.1 c.2 yaw u v) := by
  subst hc
  simp only [pointAt, heading, leftOf, hy.cos, hy.sin, Real.cos_add, Real.sin_add, Motion.point, Motion.vec, Prod.mk.injEq]
  constructor <;> ring

theorem seenPoint_moved {c c' : ℝ × ℝ} {yaw yaw' : ℝ} (hc : c' = g.point c) (hy : AnglesAgree yaw' (yaw + g.angle)) {p l l' : ℝ × ℝ}
    (h : SeenPoint c yaw p l) (h' : SeenPoint c' yaw' (g.point p) l') : l' = l := by
  have h1 : SeenPoint c' yaw' (g.point p) l := by
    unfold SeenPoint at h ⊢
    rw [pointAt_frame hc hy, ← h]
  rw [seenPoint_iff] at h1 h'
  rw [← h1, ← h']

theorem seenDir_moved {yaw yaw' : ℝ} (hy : AnglesAgree yaw' (yaw + g.angle)) {p l l' : ℝ × ℝ}
    (h : SeenDir yaw p l) (h' : SeenDir yaw' (g.vec p) l') : l' = l := by
  have h1 : SeenDir yaw' (g.vec p) l := by
    unfold SeenDir at h ⊢
    rw [h]
    simp only [heading, leftOf, hy.cos, hy.sin, Real.cos_add, Real.sin_add, Motion.vec, Prod.mk.injEq]
    constructor <;> ring
  rw [seenDir_iff (0, 0)] at h1 h'
  rw [← h1, ← h']

/-- The same scene in two map frames, seen from the same observer. -/
theorem showsFrom_moved {c c' : ℝ × ℝ} {yaw yaw' : ℝ} (hc : c' = g.point c) (hy : AnglesAgree yaw' (yaw + g.angle)) {m m' o o' : Obs n K}
    (hm : ObsMoved g m m') (h : ShowsFrom c yaw true m o) (h' : ShowsFrom c' yaw' true m' o') : SameSight o o' := by
  refine ⟨fun i t => ?_, ?_, ?_, ?_, ?_⟩
  · have hp := hm.objects i t
    have a := h.objects i t
    have a' := h'.objects i t
    have hv : (o.trajectory i t).valid = true → (m.trajectory i t).valid = true := by
      intro hv; rw [a.valid, Bool.and_true] at hv; exact hv
    refine ⟨by rw [a'.valid, a.valid, hp.valid], by rw [a'.other.1, a.other.1, hp.z], by rw [a'.other.2.2.2.2, a.other.2.2.2.2, hp.time],
      by rw [a'.other.2.1, a.other.2.1, hp.length], by rw [a'.other.2.2.1, a.other.2.2.1, hp.width],
      by rw [a'.other.2.2.2.1, a.other.2.2.2.1, hp.height], fun ho => ?_, fun ho => ?_, fun ho => ?_⟩
    · have hq := a'.pos
      rw [hp.position (hv ho)] at hq
      rw [seenPoint_moved hc hy a.pos hq]
      simp [Motion.point, Motion.vec]
    · have hq := a'.vel
      rw [hp.velocity (hv ho)] at hq
      rw [seenDir_moved hy a.vel hq]
      simp [Motion.vec]
    · obtain ⟨k, hk⟩ := hp.yaw (hv ho)
      obtain ⟨l, hl⟩ := hy
      refine ⟨k - l, ?_⟩
      rw [a'.yaw, a.yaw, hk, hl]; push_cast; ring
  · have h2 := h'.roads
    rw [hm.roads, List.forall₂_map_left_iff] at h2
    have h1 := h.roads
    generalize m.roadgraph = M at h1 h2
    generalize o.roadgraph = O at h1
    generalize o'.roadgraph = O' at h2
    induction h1 generalizing O' with
    | nil => cases h2; rfl
    | @cons p q ps qs hpq _ ih =>
      cases h2 with
      | @cons _ q' _ qs' hpq' hrest =>
        rw [ih _ hrest]
        have e1 := seenPoint_moved hc hy hpq.pos hpq'.pos
        have e2 := seenDir_moved hy hpq.dir hpq'.dir
        have e3 : q'.valid = q.valid := by rw [hpq'.valid, hpq.valid]; rfl
        have e4 := hpq.other
        have e5 := hpq'.other
        obtain ⟨x, y, z, dx, dy, dz, ty, id, v⟩ := q
        obtain ⟨x', y', z', dx', dy', dz', ty', id', v'⟩ := q'
        simp only [Prod.mk.injEq] at e1 e2 e3 e4 e5
        obtain ⟨rfl, rfl⟩ := e1
        obtain ⟨rfl, rfl⟩ := e2
        subst e3
        obtain ⟨rfl, rfl, rfl, rfl⟩ := e4
        obtain ⟨rfl, rfl, rfl, rfl⟩ := e5
        rfl
  · have h2 := h'.lights
    rw [hm.lights, List.forall₂_map_left_iff] at h2
    have h1 := h.lights
    generalize m.trafficLights = M at h1 h2
    generalize o.trafficLights = O at h1
    generalize o'.trafficLights = O' at h2
    induction h1 generalizing O' with
    | nil => cases h2; rfl
    | @cons p q ps qs hpq _ ih =>
      cases h2 with
      | @cons _ q' _ qs' hpq' hrest =>
        rw [ih _ hrest]
        congr 1
        funext t
        have a := hpq t
        have a' := hpq' t
        have e1 := seenPoint_moved hc hy a.pos a'.pos
        have e3 : (q' t).valid = (q t).valid := by rw [a'.valid, a.valid]; rfl
        have e4 := a.other
        have e5 := a'.other
        generalize q t = q at *
        generalize q' t = q' at *
        obtain ⟨x, y, z, st, id, v⟩ := q
        obtain ⟨x', y', z', st', id', v'⟩ := q'
        simp only [Prod.mk.injEq] at e1 e3 e4 e5
        obtain ⟨rfl, rfl⟩ := e1
        subst e3
        obtain ⟨rfl, rfl, rfl⟩ := e4
        obtain ⟨rfl, rfl, rfl⟩ := e5
        rfl
  · rw [h'.objectInfo, h.objectInfo, hm.info]
  · rw [h'.ego, h.ego, hm.ego]

theorem transform_moved {c c' : ℝ × ℝ} {yaw yaw' : ℝ} (hc : c' = g.point c) (hy : AnglesAgree yaw' (yaw + g.angle)) {m m' : Obs n K}
    (hm : ObsMoved g m m') : SameSight (transformObservation m (Pose2D.fromCenterAndYaw c yaw true))
      (transformObservation m' (Pose2D.fromCenterAndYaw c' yaw' true)) :=
  showsFrom_moved hc hy hm (C52_transform_partial (0, 0) c 0 yaw true true hm.pose (showsFrom_self m)).1
    (C52_transform_partial (0, 0) c' 0 yaw' true true hm.pose' (showsFrom_self m')).1

section
variable [NeZero T] {s s' : SimState ℝ n T}

/-- The view of an observer that is present, from its own pose. -/
theorem C145_object (h : Moved g s s') (K topk : Nat) {i : Fin n} (hi : (s.currentSim i).valid = true) :
    Both SameSight (observationFromState s K topk .OBJECT i) (observationFromState s' K topk .OBJECT i) := by
  have hc : PtMoved g (s.currentSim i) (s'.currentSim i) := h.cur i
  unfold observationFromState
  refine (globalObservation_moved h K).bind fun o o' ho => ?_
  refine (withTopk_moved ho _ (hc.position hi) topk).bind fun m m' hm => ?_
  simp only
  rw [hc.valid, hi]
  exact .ok (transform_moved (hc.position hi) (hc.yaw hi) hm)

/-- The view of an observer that is present, from the pose of an SDC that is present. -/
theorem C145_sdc_frame (h : Moved g s s') (K topk : Nat) {i k : Fin n} (hi : (s.currentSim i).valid = true)
    (hk : ∀ j, (s.objectMetadata j).isSdc = true ↔ j = k) (hkv : (s.currentSim k).valid = true) :
    Both SameSight (observationFromState s K topk .SDC i) (observationFromState s' K topk .SDC i) := by
  have hc : PtMoved g (s.currentSim i) (s'.currentSim i) := h.cur i
  have hck : PtMoved g (s.currentSim k) (s'.currentSim k) := h.cur k
  unfold observationFromState
  refine (globalObservation_moved h K).bind fun o o' ho => ?_
  refine (withTopk_moved ho _ (hc.position hi) topk).bind fun m m' hm => ?_
  simp only
  rw [h.objects, sdcIndex_unique hk]
  simp only [bind, Except.bind]
  rw [hck.valid, hkv]
  exact .ok (transform_moved (hck.position hkv) (hck.yaw hkv) hm)

/-- The view of an SDC that is present. -/
theorem C145_sdc_observation (h : Moved g s s') (K topk : Nat) {k : Fin n}
    (hk : ∀ j, (s.objectMetadata j).isSdc = true ↔ j = k) (hkv : (s.currentSim k).valid = true) :
    Both SameSight (sdcObservationFromState s K topk .SDC) (sdcObservationFromState s' K topk .SDC) := by
  have hck : PtMoved g (s.currentSim k) (s'.currentSim k) := h.cur k
  unfold sdcObservationFromState
  rw [h.objects, sdcIndex_unique hk]
  have hb : ∀ {A B : Type} (a : A) (f : A → Except Err B), ((Except.ok a : Except Err A) >>= f) = f a := fun _ _ => rfl
  rw [hb, hb]
  refine (globalObservation_moved h K).bind fun o o' ho => ?_
  refine (withTopk_moved ho _ (hck.position hkv) topk).bind fun m m' hm => ?_
  simp only
  rw [hck.valid, hkv, h.paths]
  cases s.sdcPaths with
  | none => exact .ok (transform_moved (hck.position hkv) (hck.yaw hkv) hm)
  | some paths =>
    refine .ok (transform_moved (hck.position hkv) (hck.yaw hkv) ?_)
    exact ⟨hm.objects, hm.roads, hm.lights, hm.info, hm.ego, hm.pose, hm.pose'⟩

end

end

/-! ### Example -/

/-- The drive of `driveScen` beside a road edge, and the same turned and shifted: what the car sees. -/
example : Both SameSight
    (observationFromState { driveScen with roadgraphPoints := some [⟨0, 5, 0, 1, 0, 0, 15, 7, true⟩] } 1 1 .OBJECT 0)
    (observationFromState { turnedScen with roadgraphPoints := some [quarterTurn.road ⟨0, 5, 0, 1, 0, 0, 15, 7, true⟩] } 1 1 .OBJECT 0) :=
  C145_object (g := quarterTurn) (s := { driveScen with roadgraphPoints := some [⟨0, 5, 0, 1, 0, 0, 15, 7, true⟩] })
    (s' := { turnedScen with roadgraphPoints := some [quarterTurn.road ⟨0, 5, 0, 1, 0, 0, 15, 7, true⟩] })
    ⟨turned_moved.sim, turned_moved.log, rfl, rfl, rfl, rfl, rfl⟩ 1 1 (i := 0) rfl

end Waymax
