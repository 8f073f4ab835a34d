import Verif.Props.MirrorMetrics
import Verif.Props.MotionObserve
/-
C173: an observer in the mirror sees the mirror image.
-/

namespace Waymax

open Real

section
variable {n T K : Nat}

/-- The nearest road points of a mirrored reference point are the mirrored nearest road points. -/
theorem filterTopk_flipped (rg : List (RgPoint ℝ)) (ref : ℝ × ℝ) (k : Nat) :
    filterTopk (rg.map flipRoad) (flip2 ref) k = (filterTopk rg ref k).map (List.map flipRoad) := by
  unfold filterTopk
  have hl : (rg.map flipRoad).length = rg.length := List.length_map _
  by_cases h1 : k > rg.length
  · rw [if_pos h1, if_pos (by rw [hl]; exact h1)]; rfl
  · rw [if_neg h1, if_neg (by rw [hl]; exact h1)]
    by_cases h2 : k < rg.length
    · rw [if_pos h2, if_pos (by rw [hl]; exact h2)]
      simp only [Except.map, List.map_map]
      congr 1
      refine topKIdx_cast hl _ _ (fun i => ?_) _ _ (fun i => ?_) k
      · simp only [Fin.getElem_fin, List.getElem_map, Fin.val_cast]
        have := hypot_flip ref ((rg[i.val]'(lt_of_lt_of_eq i.isLt hl)).x,
          (rg[i.val]'(lt_of_lt_of_eq i.isLt hl)).y)
        exact congrArg _ this
      · simp only [Fin.getElem_fin, List.getElem_map, Fin.val_cast, Function.comp]
        rfl
    · rw [if_neg h2, if_neg (by rw [hl]; exact h2)]; rfl

/-- A map-frame observation in the mirror. -/
structure ObsFlipped (o o' : Obs n K) : Prop where
  objects : ∀ i t, PtFlipped (o.trajectory i t) (o'.trajectory i t)
  roads : o'.roadgraph = o.roadgraph.map flipRoad
  lights : o'.trafficLights = o.trafficLights.map fun l t => flipLight (l t)
  info : o'.metadata = o.metadata
  ego : o'.isEgo = o.isEgo
  pose : o.pose2d = Pose2D.fromCenterAndYaw (0, 0) 0 true
  pose' : o'.pose2d = Pose2D.fromCenterAndYaw (0, 0) 0 true

theorem globalObservation_flipped {s s' : SimState ℝ n T} (h : Flipped s s') (K : Nat) :
    Both (ObsFlipped) (globalObservation s K) (globalObservation s' K) := by
  unfold globalObservation
  split
  · rw [h.roadgraph]
    cases s.roadgraphPoints with
    | none => exact .error
    | some rg =>
      refine .ok ⟨fun i t => ?_, rfl, ?_, h.objects, rfl, rfl, rfl⟩
      · simp only [h.clock]
        exact h.sim i _
      · simp only [h.clock, h.lights, List.map_map]
        rfl
  · exact .error

theorem withTopk_flipped {o o' : Obs n K} (h : ObsFlipped o o') (e : Fin n → Bool) {ref ref' : ℝ × ℝ} (hr : ref' = flip2 ref) (k : Nat) :
    Both (ObsFlipped) (o.withTopk e ref k) (o'.withTopk e ref' k) := by
  unfold Obs.withTopk
  rw [h.roads, hr, filterTopk_flipped]
  cases filterTopk o.roadgraph ref k with
  | error e => exact .error
  | ok rg => exact .ok ⟨h.objects, rfl, h.lights, h.info, rfl, h.pose, h.pose'⟩

/-! ### Seen from a mirrored frame -/

theorem pointAt_mirror {c c' : ℝ × ℝ} {yaw yaw' : ℝ} (hc : c' = flip2 c) (hy : AnglesAgree yaw' (-yaw)) (u v : ℝ) :
    pointAt c'.1 c'.2 yaw' u (-v) = flip2 (pointAt c.1 c.2 yaw u v) := by
  subst hc
  obtain ⟨h1, h2⟩ := flip_heading hy
  simp only [pointAt, heading, leftOf, h1, h2, flip2, Prod.mk.injEq]
  constructor <;> ring

theorem seenPoint_flipped {c c' : ℝ × ℝ} {yaw yaw' : ℝ} (hc : c' = flip2 c) (hy : AnglesAgree yaw' (-yaw)) {p l l' : ℝ × ℝ}
    (h : SeenPoint c yaw p l) (h' : SeenPoint c' yaw' (flip2 p) l') : l' = flip2 l := by
  have h1 : SeenPoint c' yaw' (flip2 p) (flip2 l) := by
    unfold SeenPoint at h ⊢
    rw [show (flip2 l).2 = -l.2 from rfl, show (flip2 l).1 = l.1 from rfl, pointAt_mirror hc hy, ← h]
  rw [seenPoint_iff] at h1 h'
  rw [← h1, ← h']

theorem seenDir_flipped {yaw yaw' : ℝ} (hy : AnglesAgree yaw' (-yaw)) {p l l' : ℝ × ℝ}
    (h : SeenDir yaw p l) (h' : SeenDir yaw' (flip2 p) l') : l' = flip2 l := by
  obtain ⟨e1, e2⟩ := flip_heading hy
  have h1 : SeenDir yaw' (flip2 p) (flip2 l) := by
    unfold SeenDir at h ⊢
    rw [h]
    simp only [heading, leftOf, e1, e2, flip2, Prod.mk.injEq]
    constructor <;> ring
  rw [seenDir_iff (0, 0)] at h1 h'
  rw [← h1, ← h']

theorem seenReversed_flipped {yaw yaw' : ℝ} (hy : AnglesAgree yaw' (-yaw)) {p l l' : ℝ × ℝ}
    (h : SeenDir yaw p l) (h' : SeenDir yaw' (-p.1, p.2) l') : l' = (-l.1, l.2) := by
  obtain ⟨e1, e2⟩ := flip_heading hy
  have h1 : SeenDir yaw' (-p.1, p.2) (-l.1, l.2) := by
    unfold SeenDir at h ⊢
    rw [h]
    simp only [heading, leftOf, e1, e2, Prod.mk.injEq]
    constructor <;> ring
  rw [seenDir_iff (0, 0)] at h1 h'
  rw [← h1, ← h']

/-- A scene and its mirror image, seen from the same observer. -/
theorem showsFrom_flipped {c c' : ℝ × ℝ} {yaw yaw' : ℝ} (hc : c' = flip2 c) (hy : AnglesAgree yaw' (-yaw)) {m m' o o' : Obs n K}
    (hm : ObsFlipped m m') (h : ShowsFrom c yaw true m o) (h' : ShowsFrom c' yaw' true m' o') : FlippedSight o o' := by
  refine ⟨fun i t => ?_, ?_, ?_, ?_, ?_⟩
  · have hp := hm.objects i t
    have a := h.objects i t
    have a' := h'.objects i t
    have hv : (o.trajectory i t).valid = true → (m.trajectory i t).valid = true := by
      intro hv; rw [a.valid, Bool.and_true] at hv; exact hv
    refine ⟨by rw [a'.valid, a.valid, hp.valid], by rw [a'.other.1, a.other.1, hp.z], by rw [a'.other.2.2.2.2, a.other.2.2.2.2, hp.time],
      by rw [a'.other.2.1, a.other.2.1, hp.length], by rw [a'.other.2.2.1, a.other.2.2.1, hp.width],
      by rw [a'.other.2.2.2.1, a.other.2.2.2.1, hp.height], fun ho => ?_, fun ho => ?_, fun ho => ?_⟩
    · have hq := a'.pos
      rw [hp.position (hv ho)] at hq
      exact seenPoint_flipped hc hy a.pos hq
    · have hq := a'.vel
      rw [hp.velocity (hv ho)] at hq
      exact seenDir_flipped hy a.vel hq
    · obtain ⟨k, hk⟩ := hp.yaw (hv ho)
      obtain ⟨l, hl⟩ := hy
      refine ⟨k - l, ?_⟩
      rw [a'.yaw, a.yaw, hk, hl]; push_cast; ring
  · have h2 := h'.roads
    rw [hm.roads, List.forall₂_map_left_iff] at h2
    have h1 := h.roads
    generalize m.roadgraph = M at h1 h2
    generalize o.roadgraph = O at h1
    generalize o'.roadgraph = O' at h2
    induction h1 generalizing O' with
    | nil => cases h2; rfl
    | @cons p q ps qs hpq _ ih =>
      cases h2 with
      | @cons _ q' _ qs' hpq' hrest =>
        rw [ih _ hrest]
        have e1 := seenPoint_flipped hc hy hpq.pos hpq'.pos
        have e2 := seenReversed_flipped hy hpq.dir hpq'.dir
        have e3 : q'.valid = q.valid := by rw [hpq'.valid, hpq.valid]; rfl
        have e4 := hpq.other
        have e5 := hpq'.other
        obtain ⟨x, y, z, dx, dy, dz, ty, id, v⟩ := q
        obtain ⟨x', y', z', dx', dy', dz', ty', id', v'⟩ := q'
        simp only [Prod.mk.injEq, flip2, flipRoad] at e1 e2 e3 e4 e5
        obtain ⟨rfl, rfl⟩ := e1
        obtain ⟨rfl, rfl⟩ := e2
        subst e3
        obtain ⟨rfl, rfl, rfl, rfl⟩ := e4
        obtain ⟨rfl, rfl, rfl, rfl⟩ := e5
        rfl
  · have h2 := h'.lights
    rw [hm.lights, List.forall₂_map_left_iff] at h2
    have h1 := h.lights
    generalize m.trafficLights = M at h1 h2
    generalize o.trafficLights = O at h1
    generalize o'.trafficLights = O' at h2
    induction h1 generalizing O' with
    | nil => cases h2; rfl
    | @cons p q ps qs hpq _ ih =>
      cases h2 with
      | @cons _ q' _ qs' hpq' hrest =>
        rw [ih _ hrest]
        congr 1
        funext t
        change q' t = flipLight (q t)
        have a := hpq t
        have a' := hpq' t
        have e1 := seenPoint_flipped hc hy a.pos a'.pos
        have e3 : (q' t).valid = (q t).valid := by rw [a'.valid, a.valid]; rfl
        have e4 := a.other
        have e5 := a'.other
        generalize q t = q at *
        generalize q' t = q' at *
        obtain ⟨x, y, z, st, id, v⟩ := q
        obtain ⟨x', y', z', st', id', v'⟩ := q'
        simp only [Prod.mk.injEq, flip2, flipLight] at e1 e3 e4 e5
        obtain ⟨rfl, rfl⟩ := e1
        subst e3
        obtain ⟨rfl, rfl, rfl⟩ := e4
        obtain ⟨rfl, rfl, rfl⟩ := e5
        rfl
  · rw [h'.objectInfo, h.objectInfo, hm.info]
  · rw [h'.ego, h.ego, hm.ego]

theorem transform_flipped {c c' : ℝ × ℝ} {yaw yaw' : ℝ} (hc : c' = flip2 c) (hy : AnglesAgree yaw' (-yaw)) {m m' : Obs n K}
    (hm : ObsFlipped m m') : FlippedSight (transformObservation m (Pose2D.fromCenterAndYaw c yaw true))
      (transformObservation m' (Pose2D.fromCenterAndYaw c' yaw' true)) :=
  showsFrom_flipped hc hy hm (C52_transform_partial (0, 0) c 0 yaw true true hm.pose (showsFrom_self m)).1
    (C52_transform_partial (0, 0) c' 0 yaw' true true hm.pose' (showsFrom_self m')).1

section
variable [NeZero T] {s s' : SimState ℝ n T}

/-- The view of an observer that is present, from its own pose. -/
theorem C173_object (h : Flipped s s') (K topk : Nat) {i : Fin n} (hi : (s.currentSim i).valid = true) :
    Both FlippedSight (observationFromState s K topk .OBJECT i) (observationFromState s' K topk .OBJECT i) := by
  have hc : PtFlipped (s.currentSim i) (s'.currentSim i) := h.cur i
  unfold observationFromState
  refine (globalObservation_flipped h K).bind fun o o' ho => ?_
  refine (withTopk_flipped ho _ (hc.position hi) topk).bind fun m m' hm => ?_
  simp only
  rw [hc.valid, hi]
  exact .ok (transform_flipped (hc.position hi) (hc.yaw hi) hm)

/-- The view of an observer that is present, from the pose of an SDC that is present. -/
theorem C173_sdc_frame (h : Flipped s s') (K topk : Nat) {i k : Fin n} (hi : (s.currentSim i).valid = true)
    (hk : ∀ j, (s.objectMetadata j).isSdc = true ↔ j = k) (hkv : (s.currentSim k).valid = true) :
    Both FlippedSight (observationFromState s K topk .SDC i) (observationFromState s' K topk .SDC i) := by
  have hc : PtFlipped (s.currentSim i) (s'.currentSim i) := h.cur i
  have hck : PtFlipped (s.currentSim k) (s'.currentSim k) := h.cur k
  unfold observationFromState
  refine (globalObservation_flipped h K).bind fun o o' ho => ?_
  refine (withTopk_flipped ho _ (hc.position hi) topk).bind fun m m' hm => ?_
  simp only
  rw [h.objects, sdcIndex_unique hk]
  simp only [bind, Except.bind]
  rw [hck.valid, hkv]
  exact .ok (transform_flipped (hck.position hkv) (hck.yaw hkv) hm)

/-- The view of an SDC that is present. -/
theorem C173_sdc_observation (h : Flipped s s') (K topk : Nat) {k : Fin n}
    (hk : ∀ j, (s.objectMetadata j).isSdc = true ↔ j = k) (hkv : (s.currentSim k).valid = true) :
    Both FlippedSight (sdcObservationFromState s K topk .SDC) (sdcObservationFromState s' K topk .SDC) := by
  have hck : PtFlipped (s.currentSim k) (s'.currentSim k) := h.cur k
  unfold sdcObservationFromState
  rw [h.objects, sdcIndex_unique hk]
  have hb : ∀ {A B : Type} (a : A) (f : A → Except Err B), ((Except.ok a : Except Err A) >>= f) = f a := fun _ _ => rfl
  rw [hb, hb]
  refine (globalObservation_flipped h K).bind fun o o' ho => ?_
  refine (withTopk_flipped ho _ (hck.position hkv) topk).bind fun m m' hm => ?_
  simp only
  rw [hck.valid, hkv, h.paths]
  cases s.sdcPaths with
  | none => exact .ok (transform_flipped (hck.position hkv) (hck.yaw hkv) hm)
  | some paths =>
    refine .ok (transform_flipped (hck.position hkv) (hck.yaw hkv) ?_)
    exact ⟨hm.objects, hm.roads, hm.lights, hm.info, hm.ego, hm.pose, hm.pose'⟩

end

end

/-! ### Example -/

/-- The drive of `driveScen` beside a road edge and its mirror image: what the car sees. -/
example : Both FlippedSight
    (observationFromState { driveScen with roadgraphPoints := some [⟨0, 5, 0, 1, 0, 0, 15, 7, true⟩] } 1 1 .OBJECT 0)
    (observationFromState { mirrorScen with roadgraphPoints := some [flipRoad ⟨0, 5, 0, 1, 0, 0, 15, 7, true⟩] } 1 1 .OBJECT 0) :=
  C173_object (s := { driveScen with roadgraphPoints := some [⟨0, 5, 0, 1, 0, 0, 15, 7, true⟩] })
    (s' := { mirrorScen with roadgraphPoints := some [flipRoad ⟨0, 5, 0, 1, 0, 0, 15, 7, true⟩] })
    ⟨mirror_flipped.sim, mirror_flipped.log, rfl, rfl, rfl, rfl, rfl⟩ 1 1 (i := 0) rfl

end Waymax
