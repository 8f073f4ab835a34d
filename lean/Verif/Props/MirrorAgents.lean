import Verif.Props.MirrorMetrics
import Verif.Props.MotionAgents
/-
C172: the sim agents treat left and right alike.
-/

namespace Waymax

open Real

section
variable {n T : Nat}

theorem PtFlipped.speed_eq {p p' : Pt ℝ} (h : PtFlipped p p') : p'.speed = p.speed := by
  unfold Pt.speed
  rw [h.valid]
  cases hv : p.valid
  · rfl
  · exact h.speed hv

theorem flipHeading {a a' : ℝ} (h : AnglesAgree a' (-a)) (r : ℝ) : flip2 (r * cos a, r * sin a) = (r * cos a', r * sin a') := by
  obtain ⟨hc, hs⟩ := flip_heading h
  simp only [flip2, hc, hs, mul_neg]

/-- The projection onto the log of an object that the log holds at some time. -/
theorem project_flipped [NeZero T] {log log' : Fin T → Pt ℝ} (h : ∀ t, PtFlipped (log t) (log' t)) (hv : ∃ t, (log t).valid = true)
    (q : ℝ × ℝ) (ext : Bool) :
    let r := projectToTrajectory q.1 q.2 log ext
    let r' := projectToTrajectory (flip2 q).1 (flip2 q).2 log' ext
    (r'.x, r'.y) = flip2 (r.x, r.y) ∧ AnglesAgree r'.yaw (-r.yaw) ∧ r'.reachedLastPoint = r.reachedLastPoint := by
  obtain ⟨t, ht, hn⟩ := nearest_index log q hv
  obtain ⟨l, hl, hlast⟩ := last_index log hv
  have hdist : (fun t => orInf (log' t).valid (hypot ((log' t).x - (flip2 q).1) ((log' t).y - (flip2 q).2))) =
      fun t => orInf (log t).valid (hypot ((log t).x - q.1) ((log t).y - q.2)) := by
    funext t
    rw [(h t).valid]
    cases hvt : (log t).valid
    · simp only [orInf, Bool.false_eq_true, if_false]
    · have e := (h t).position hvt
      rw [Prod.ext_iff] at e
      simp only at e
      rw [e.1, e.2]
      exact congrArg _ (hypot_flip (_, _) q)
  have hend : (fun t : Fin T => if (log' t).valid then t.val else 0) = fun t : Fin T => if (log t).valid then t.val else 0 := by
    funext t; rw [(h t).valid]
  have hsrc : ∀ {β : Type} (f : Fin T → β), dynIndex f ((argminFin fun t =>
      orInf (log t).valid (hypot ((log t).x - q.1) ((log t).y - q.2)) : Nat) : Int) = f t := fun f =>
    dynIndex_of_eq _ (by rw [ht])
  have hle : ∀ {β : Type} (f : Fin T → β), dynIndex f ((argmaxFin fun t : Fin T => if (log t).valid then t.val else 0 : Nat) : Int) = f l :=
    fun f => dynIndex_of_eq _ (by rw [hl])
  have ets := (h t).position hn.1
  have els := (h l).position hlast.1
  have hy := (h t).yaw hn.1
  have hlen : hypot ((log' l).x - (log' t).x) ((log' l).y - (log' t).y) = hypot ((log l).x - (log t).x) ((log l).y - (log t).y) := by
    rw [Prod.ext_iff] at ets els
    simp only at ets els
    rw [ets.1, ets.2, els.1, els.2]
    exact hypot_flip (_, _) (_, _)
  intro r r'
  have hreach : r'.reachedLastPoint = r.reachedLastPoint := by
    simp only [r, r', projectToTrajectory]
    rw [hdist, hend, hsrc, hsrc, hsrc, hle, hle, hlen]
  refine ⟨?_, ?_, hreach⟩
  · have f1 := project_fields q.1 q.2 log ext
    have f2 := project_fields (flip2 q).1 (flip2 q).2 log' ext
    simp only at f1 f2
    rw [hsrc] at f1
    rw [hdist, hsrc] at f2
    change r'.reachedLastPoint = r.reachedLastPoint at hreach
    change r.x = _ ∧ r.y = _ ∧ _ at f1
    change r'.x = _ ∧ r'.y = _ ∧ _ at f2
    rw [f1.1, f1.2.1, f2.1, f2.2.1]
    change _ = flip2 ((if (!ext && r.reachedLastPoint) = true then ((0 : ℝ), (0 : ℝ)) else _).1 * _ + _, _)
    clear f1 f2
    change ((if (!ext && r'.reachedLastPoint) = true then ((0 : ℝ), (0 : ℝ)) else _).1 * _ + _, _) = _
    rw [hreach]
    obtain ⟨hc, hs⟩ := flip_heading hy
    rw [Prod.ext_iff] at ets
    simp only at ets
    cases hb : (!ext && r.reachedLastPoint)
    · simp only [Bool.false_eq_true, if_false]
      have hal : cos (log' t).yaw * ((flip2 q).1 - (log' t).x) + sin (log' t).yaw * ((flip2 q).2 - (log' t).y) =
          cos (log t).yaw * (q.1 - (log t).x) + sin (log t).yaw * (q.2 - (log t).y) := by
        rw [ets.1, ets.2, hc, hs]
        simp only [flip2]
        ring
      rw [hal]
      generalize cos (log t).yaw * (q.1 - (log t).x) + sin (log t).yaw * (q.2 - (log t).y) = a
      rw [ets.1, ets.2, hc, hs]
      simp only [flip2, Prod.mk.injEq]
      exact ⟨trivial, by ring⟩
    · simp only [if_true, zero_mul, zero_add, ets.1, ets.2]
  · simp only [r, r', projectToTrajectory]
    rw [hdist, hsrc, hsrc]
    exact hy

theorem next_flipped [NeZero T] (inv : Bool) {log log' : Fin T → Pt ℝ} (h : ∀ t, PtFlipped (log t) (log' t)) (hv : ∃ t, (log t).valid = true)
    {cur cur' : Pt ℝ} (hc : PtFlipped cur cur') (hcv : cur.valid = true) (sp : ℝ) (spv : Bool) (dt : ℝ) :
    PtFlipped (nextByProjection inv log cur sp spv dt) (nextByProjection inv log' cur' sp spv dt) := by
  have hy := hc.yaw hcv
  have hhead := fun r => flipHeading hy r
  have hpos := hc.position hcv
  have hvel := hc.velocity hcv
  unfold nextByProjection
  simp only [hc.speed_eq]
  generalize (if spv = true then sp else cur.speed) = ns
  have hq : (cur'.x + (ns + cur.speed) / 2 * dt * cos cur'.yaw, cur'.y + (ns + cur.speed) / 2 * dt * sin cur'.yaw) =
      flip2 (cur.x + (ns + cur.speed) / 2 * dt * cos cur.yaw, cur.y + (ns + cur.speed) / 2 * dt * sin cur.yaw) := by
    have e := hhead ((ns + cur.speed) / 2 * dt)
    rw [Prod.ext_iff] at e hpos
    simp only at e hpos
    rw [hpos.1, hpos.2, ← e.1, ← e.2]
    simp only [flip2, Prod.mk.injEq]
    exact ⟨trivial, by ring⟩
  rw [Prod.ext_iff] at hq
  simp only at hq
  rw [hq.1, hq.2]
  obtain ⟨p1, p2, p3⟩ := project_flipped h hv (cur.x + (ns + cur.speed) / 2 * dt * cos cur.yaw, cur.y + (ns + cur.speed) / 2 * dt * sin cur.yaw) (!inv)
  simp only at p1 p2 p3
  generalize projectToTrajectory _ _ log (!inv) = r at *
  generalize projectToTrajectory _ _ log' (!inv) = r' at *
  simp only [p3, hc.valid]
  have hbase : ∀ vx vy vx' vy' : ℝ, (vx', vy') = flip2 (vx, vy) → ∀ b : Bool,
      PtFlipped (if b = true then ⟨r.x, r.y, cur.z, vx, vy, r.yaw, true, cur.timestampMicros, cur.length, cur.width, cur.height⟩ else invalidPt)
        (if b = true then ⟨r'.x, r'.y, cur'.z, vx', vy', r'.yaw, true, cur'.timestampMicros, cur'.length, cur'.width, cur'.height⟩ else invalidPt) := by
    intro vx vy vx' vy' hvv b
    cases b
    · exact invalid_flipped
    · exact ⟨rfl, hc.z, hc.time, hc.length, hc.width, hc.height, fun _ => p1, fun _ => hvv, fun _ => p2⟩
  have hz : ((0 : ℝ), (0 : ℝ)) = flip2 (0, 0) := by simp [flip2]
  cases hr : r.reachedLastPoint <;> cases inv <;> simp only [Bool.false_eq_true, if_false, if_true]
  · exact hbase _ _ _ _ (hhead ns).symm _
  · exact hbase _ _ _ _ (hhead ns).symm _
  · exact hbase _ _ _ _ hvel _
  · exact hbase _ _ _ _ hz _

/-! ### IDM -/

theorem dist3_flipped {p p' q q' : Pt ℝ} (hp : PtFlipped p p') (hq : PtFlipped q q') (vp : p.valid = true) (vq : q.valid = true) :
    dist3 p' q' = dist3 p q := by
  have e1 := hp.position vp
  have e2 := hq.position vq
  rw [Prod.ext_iff] at e1 e2
  simp only [flip2] at e1 e2
  unfold dist3
  rw [e1.1, e1.2, e2.1, e2.2, hp.z, hq.z]
  congr 1
  ring

theorem findReference_flipped {cur cur' : Pt ℝ} (hc : PtFlipped cur cur') (hcv : cur.valid = true) {traj traj' : Fin T → Pt ℝ}
    (h : ∀ t, PtFlipped (traj t) (traj' t)) (k : Nat) :
    Both (List.Forall₂ (PtFlipped)) (findReference cur traj k) (findReference cur' traj' k) := by
  have hd : (fun t => orInf (traj' t).valid (dist3 cur' (traj' t))) = fun t => orInf (traj t).valid (dist3 cur (traj t)) := by
    funext t
    rw [(h t).valid]
    cases hv : (traj t).valid
    · simp only [orInf, Bool.false_eq_true, if_false]
    · rw [dist3_flipped hc (h t) hcv hv]
  unfold findReference
  simp only [hd]
  split
  · refine .ok ?_
    rw [List.forall₂_iff_get]
    refine ⟨by simp, fun i h1 h2 => ?_⟩
    simp only [List.get_eq_getElem, List.getElem_ofFn]
    exact h _
  · exact .error

theorem addHeadway_flipped {l l' : List (Pt ℝ)} (h : List.Forall₂ (PtFlipped) l l') (d : ℝ) (k : Nat) :
    Both (List.Forall₂ (PtFlipped)) (addHeadwayWaypoints l d k) (addHeadwayWaypoints l' d k) := by
  unfold addHeadwayWaypoints
  have hlast : (l.getLast? = none ∧ l'.getLast? = none) ∨
      ∃ p p', l.getLast? = some p ∧ l'.getLast? = some p' ∧ PtFlipped p p' := by
    have hl := h.length_eq
    cases hl1 : l.getLast? with
    | none =>
      rw [List.getLast?_eq_none_iff] at hl1
      subst hl1
      cases h
      exact Or.inl ⟨rfl, rfl⟩
    | some p =>
      right
      rw [List.getLast?_eq_getElem?, List.getElem?_eq_some_iff] at hl1
      obtain ⟨hlt, hp⟩ := hl1
      refine ⟨p, l'[l.length - 1]'(by omega), rfl, ?_, ?_⟩
      · rw [List.getLast?_eq_getElem?, List.getElem?_eq_some_iff]
        exact ⟨by omega, by simp only [hl]⟩
      · have := (List.forall₂_iff_get.1 h).2 (l.length - 1) hlt (by omega)
        simp only [List.get_eq_getElem] at this
        rw [← hp]; exact this
  rcases hlast with ⟨h1, h2⟩ | ⟨p, p', h1, h2, hp⟩
  · rw [h1, h2]; exact .error
  · rw [h1, h2]
    refine .ok (List.rel_append h ?_)
    rw [List.forall₂_map_left_iff, List.forall₂_map_right_iff, List.forall₂_same]
    intro j _
    refine ⟨hp.valid, hp.z, hp.time, hp.length, hp.width, hp.height, fun hv => ?_, hp.velocity, hp.yaw⟩
    have e := flipHeading (hp.yaw hv) (d * (j + 1 : Nat) / k)
    have e2 := hp.position hv
    rw [Prod.ext_iff] at e e2
    simp only at e e2
    simp only [e2.1, e2.2, mul_comm (cos p'.yaw), mul_comm (sin p'.yaw), ← e.1, ← e.2]
    simp only [flip2, Prod.mk.injEq]
    constructor <;> ring

theorem lookahead_flipped [NeZero T] (P : IdmParams) {log log' : Fin T → Pt ℝ} (h : ∀ t, PtFlipped (log t) (log' t)) {cur cur' : Pt ℝ}
    (hc : PtFlipped cur cur') (hcv : cur.valid = true) :
    Both (List.Forall₂ (PtFlipped)) (idmLookahead P log cur) (idmLookahead P log' cur') := by
  have hjp : ∀ l l', List.Forall₂ (PtFlipped) l l' →
      Both (List.Forall₂ (PtFlipped)) (if P.additionalLookaheadPoints > 0 then
          addHeadwayWaypoints l P.additionalLookaheadDistance P.additionalLookaheadPoints else Except.ok l)
        (if P.additionalLookaheadPoints > 0 then
          addHeadwayWaypoints l' P.additionalLookaheadDistance P.additionalLookaheadPoints else Except.ok l') := by
    intro l l' hl
    split
    · exact addHeadway_flipped hl _ _
    · exact .ok hl
  unfold idmLookahead
  simp only
  split
  · exact Both.bind (findReference_flipped hc hcv (fun _ => hc) 1) hjp
  · exact Both.bind (findReference_flipped hc hcv h _) hjp

theorem collision_flipped {c c' : Fin n → Pt ℝ} (h : ∀ j, PtFlipped (c j) (c' j)) (i : Fin n) {w w' : Pt ℝ} (hw : PtFlipped w w') (j : Fin n) :
    idmCollision c' i w' j = idmCollision c i w j := by
  unfold idmCollision
  rw [hw.valid, (h j).valid]
  cases hv : w.valid
  · rfl
  · cases hj : (c j).valid
    · rfl
    · simp only [Bool.true_and]
      cases (!decide (i = j))
      · rfl
      · simp only [if_true]
        exact decide_eq_decide.2 (hasOverlap_flipped hw (h j) hv hj)

theorem accel_flipped [NeZero T] (P : IdmParams) {log log' : Fin n → Fin T → Pt ℝ} (h : ∀ i t, PtFlipped (log i t) (log' i t))
    {c c' : Fin n → Pt ℝ} (hc : ∀ j, PtFlipped (c j) (c' j)) {i : Fin n} (hi : (c i).valid = true) :
    idmAccel P log' c' i = idmAccel P log c i := by
  have hlook := lookahead_flipped P (h i) (hc i) hi
  unfold idmAccel
  generalize idmLookahead P (log i) (c i) = x at hlook
  generalize idmLookahead P (log' i) (c' i) = x' at hlook
  cases hlook with
  | error => simp only [bind, Except.bind]
  | @ok l l' hl =>
    have hvel : l'.map (fun w => idmCollision c' i w) = l.map fun w => idmCollision c i w := by
      induction hl with
      | nil => rfl
      | cons hp _ ih => rw [List.map_cons, List.map_cons, ih, funext fun j => collision_flipped hc i hp j]
    have hdist : l'.map (fun w => orInf ((List.ofFn fun j => idmCollision c' i w j).any id) (dist3 (c' i) w)) =
        l.map fun w => orInf ((List.ofFn fun j => idmCollision c i w j).any id) (dist3 (c i) w) := by
      clear hvel
      induction hl with
      | nil => rfl
      | @cons p p' _ _ hp _ ih =>
        rw [List.map_cons, List.map_cons, ih]
        congr 1
        rw [funext fun j => collision_flipped hc i hp j]
        cases hb : (List.ofFn fun j => idmCollision c i p j).any id
        · simp only [orInf, Bool.false_eq_true, if_false]
        · rw [List.any_eq_true] at hb
          obtain ⟨b, hb, hb'⟩ := hb
          rw [List.mem_ofFn] at hb
          obtain ⟨j, rfl⟩ := hb
          rw [dist3_flipped (hc i) hp hi (collision_present hb')]
    simp only [bind, Except.bind, hl.length_eq, computeLeadDistance, hvel, hdist, (hc _).speed_eq, (hc _).valid]

section
variable [NeZero T] {s s' : SimState ℝ n T}

/-- The IDM agent's new speed for an object that is present. -/
theorem C172_idm_speed (P : IdmParams) (h : Flipped s s') {i : Fin n} (hi : (dynIndex (s.simTrajectory i) s.timestep).valid = true) (dt : ℝ) :
    idmUpdateSpeed P s' i dt = idmUpdateSpeed P s i dt := by
  unfold idmUpdateSpeed
  simp only
  rw [accel_flipped P h.log (c := fun j => dynIndex (s.simTrajectory j) s.timestep) h.cur hi, (h.cur i).speed_eq]

/-- Following the logged way points at given speeds: the pose to go to. An object that is absent gets an invalid update in both
frames. An object that is present must occur in its log, as it does after a reset. -/
theorem C172_following (inv : Bool) {us : UpdateSpeed n T} (h : Flipped s s') {i : Fin n}
    (hus : (dynIndex (s.simTrajectory i) s.timestep).valid = true → us s' i = us s i)
    (hl : (dynIndex (s.simTrajectory i) s.timestep).valid = true → ∃ t, (s.logTrajectory i t).valid = true) :
    AgentFlipped (waypointUpdate inv us s i) (waypointUpdate inv us s' i) := by
  cases hi : (dynIndex (s.simTrajectory i) s.timestep).valid
  · have hi' : (dynIndex (s'.simTrajectory i) s'.timestep).valid = false := by rw [(h.cur i).valid, hi]
    unfold waypointUpdate nextByProjection
    simp only [hi, hi', Bool.and_false, Bool.false_eq_true, if_false, AgentFlipped, invalidPt, true_and, false_imp_iff]
  · have hn := next_flipped inv (h.log i) (hl hi) (h.cur i) hi (us s i).1 (us s i).2 0.1
    unfold waypointUpdate
    rw [hus hi]
    exact ⟨hn.valid, fun hv => ⟨hn.position hv, hn.velocity hv, hn.yaw hv, hn.valid⟩⟩

/-- The IDM agent. -/
theorem C172_idm (P : IdmParams) (h : Flipped s s') {i : Fin n}
    (hl : (dynIndex (s.simTrajectory i) s.timestep).valid = true → ∃ t, (s.logTrajectory i t).valid = true) :
    AgentFlipped (waypointUpdate P.invalidateOnEnd (idmSpeeds P) s i) (waypointUpdate P.invalidateOnEnd (idmSpeeds P) s' i) := by
  refine C172_following _ h (fun hi => ?_) hl
  unfold idmSpeeds
  rw [C172_idm_speed P h hi]

/-- The constant speed agent. -/
theorem C172_constant_speed (v : ℝ) (h : Flipped s s') {i : Fin n}
    (hl : (dynIndex (s.simTrajectory i) s.timestep).valid = true → ∃ t, (s.logTrajectory i t).valid = true) :
    AgentFlipped (waypointUpdate true (constantSpeedUpdate v) s i) (waypointUpdate true (constantSpeedUpdate v) s' i) :=
  C172_following _ h (fun _ => rfl) hl

/-- The frozen agent, for every object. -/
theorem C172_frozen (h : Flipped s s') (i : Fin n) : AgentFlipped (frozenUpdate s i) (frozenUpdate s' i) := by
  have hc := h.cur i
  exact ⟨hc.valid, fun hv => ⟨hc.position hv, hc.velocity hv, hc.yaw hv, hc.valid⟩⟩

omit [NeZero T] in
/-- Which objects the agents claim. -/
theorem C172_claims (h : Flipped s s') : defaultControlFunc s' = defaultControlFunc s := by
  unfold defaultControlFunc
  rw [h.objects]

end

end

/-- The IDM agent on the drive of `driveScen` and its mirror image. -/
example : AgentFlipped (waypointUpdate false (idmSpeeds {}) driveScen 0) (waypointUpdate false (idmSpeeds {}) mirrorScen 0) :=
  C172_idm {} mirror_flipped fun _ => ⟨0, rfl⟩

end Waymax
