import Verif.Model.BatchWaypoint
import Verif.Props.BatchPlanningMetrics
import Verif.Props.BatchObserve
/-
C131: the agents that follow logged way points drive every object of every scenario of a batch as they drive it when the scenario is alone.
This file: projection on the log and constant speed. The intelligent driver model is in Props/BatchIdm.lean.
-/

namespace Waymax

open Real

section
variable {q : List Nat} {T : Nat}

theorem where3_const {β : Type} {c : Nd Bool} {a : Nd β} {s : List Nat} (hc : c.shape = s) (ha : a.shape = s) (v : β) :
    ∃ r, Nd.where3 c a (Nd.scalar v) = .ok r ∧ r.shape = s ∧
      ∀ idx, InRange s idx → r.get idx = if c.get idx = true then a.get idx else v := by
  obtain ⟨ab, h1, h2, h3⟩ := zip_scalar (fun (u v : β) => (u, v)) ha (y := Nd.scalar v) rfl
  obtain ⟨r, h4, h5, h6⟩ := zip_shaped (fun (c : Bool) (uv : β × β) => if c then uv.1 else uv.2) hc h2
  refine ⟨r, ?_, h5, fun idx hidx => ?_⟩
  · simp only [Nd.where3, h1, exc_ok_bind, h4]
  · rw [h6 idx hidx, h3 idx hidx]
    rfl

theorem speed_shaped {t : TrajNd ℝ} {s : List Nat} (ht : t.HasShape s) :
    ∃ v, t.speed = .ok v ∧ v.shape = s ∧ ∀ idx, InRange s idx → v.get idx = (t.at_ idx).speed := by
  unfold TrajNd.speed
  rw [stackLast2_shaped ht.velX ht.velY, exc_ok_bind]
  obtain ⟨r, e, h1, h2⟩ := where3_const (s := s) (c := t.valid)
    (a := ({ shape := s ++ [2]
             get := fun idx => if idx.getLastD 0 = 0 then t.velX.get idx.dropLast else t.velY.get idx.dropLast } : Nd ℝ).normLast2)
    ht.valid (by simp [Nd.normLast2]) (-1)
  refine ⟨r, e, h1, fun idx hidx => ?_⟩
  rw [h2 idx hidx]
  by_cases hv : t.valid.get idx = true <;> simp [Nd.normLast2, Pt.speed, TrajNd.at_, hv]

theorem xyz_shaped {t : TrajNd ℝ} {s : List Nat} (ht : t.HasShape s) :
    t.xyz = .ok { shape := s, get := fun idx => (t.x.get idx, t.y.get idx, t.z.get idx) } := by
  unfold TrajNd.xyz
  rw [assertThat_ok ⟨by rw [ht.x, ht.y], by rw [ht.x, ht.z]⟩, ht.x]
  rfl

theorem validate_shaped {t : TrajNd ℝ} {s : List Nat} (ht : t.HasShape s) : t.validate = .ok () :=
  assertThat_ok (by simp [ht.x, ht.y, ht.z, ht.velX, ht.velY, ht.yaw, ht.valid, ht.timestampMicros, ht.length, ht.width, ht.height])

theorem numTimesteps_shaped {t : TrajNd ℝ} (ht : t.HasShape (q ++ [T])) : t.numTimesteps = T := by
  unfold TrajNd.numTimesteps TrajNd.shape
  rw [ht.x, List.getLastD_concat]

theorem projectRow_eq [NeZero T] (xy : ℝ × ℝ) (row : Nat → Pt ℝ) (e : Bool) :
    projectRow T xy row e = projectToTrajectory xy.1 xy.2 (fun t : Fin T => row t.val) e := by
  cases T with
  | zero => exact absurd rfl (NeZero.ne 0)
  | succ T => rfl

theorem projectNd_shaped [NeZero T] {x y : Nd ℝ} {t : TrajNd ℝ} (hx : x.shape = q ++ [1]) (hy : y.shape = q ++ [1])
    (ht : t.HasShape (q ++ [T])) (e : Bool) :
    ∃ r, projectNd x y t e = .ok r ∧ r.shape = q ++ [1] ∧
      ∀ p, r.get (p ++ [0]) = projectToTrajectory (x.get (p ++ [0])) (y.get (p ++ [0])) (fun k : Fin T => t.at_ (p ++ [k.val])) e := by
  unfold projectNd
  rw [assertThat_ok (by rw [hx, hy]), exc_ok_bind, assertThat_ok ⟨by rw [ht.x, ht.y], by rw [ht.x, ht.yaw], by rw [ht.x, ht.valid]⟩, exc_ok_bind,
    numTimesteps_shaped ht, assertThat_ok (by rw [hx, TrajNd.shape, ht.x, List.dropLast_concat, List.dropLast_concat]), exc_ok_bind,
    assertThat_ok (by rw [hx, List.getLastD_concat]), exc_ok_bind, assertThat_ok (Nat.pos_of_ne_zero (NeZero.ne T)), exc_ok_bind]
  refine ⟨_, rfl, hx, fun p => ?_⟩
  simp only [List.dropLast_concat, projectRow_eq]

theorem endValid_shaped (inv : Bool) {v r : Nd Bool} {sp : Nd ℝ} {s : List Nat} (hv : v.shape = s) (hr : r.shape = s) (hs : sp.shape = s) :
    ∃ w, endValidNd inv v r sp = .ok w ∧ w.shape = s ∧ ∀ idx, InRange s idx →
      w.get idx = if inv then v.get idx && !(r.get idx && decide (sp.get idx > 1)) else v.get idx := by
  cases inv with
  | false => exact ⟨v, rfl, hv, fun idx _ => by simp⟩
  | true =>
    obtain ⟨m, e1, s1, g1⟩ := zip_shaped (fun r (v : ℝ) => r && decide (v > 1)) hr hs
    obtain ⟨w, e2, s2, g2⟩ := zip_shaped (fun a b : Bool => a && !b) hv s1
    refine ⟨w, ?_, s2, fun idx hidx => ?_⟩
    · simp only [endValidNd, if_true]
      rw [e1, exc_ok_bind, e2]
    · rw [g2 idx hidx, g1 idx hidx]
      simp

theorem defaultVel_shape (inv : Bool) {v : Nd ℝ} {s : List Nat} (h : v.shape = s) : (defaultVelNd inv v).shape = s := by
  cases inv <;> simpa [defaultVelNd, Nd.map] using h

theorem defaultVel_get (inv : Bool) (v : Nd ℝ) (idx : List Nat) : (defaultVelNd inv v).get idx = if inv then 0 else v.get idx := by
  cases inv <;> simp [defaultVelNd, Nd.map]

/-- Each row of `_get_next_trajectory_by_projection` is the row's own. -/
theorem nextByProjection_batch [NeZero T] (inv : Bool) {log cur : TrajNd ℝ} {sp : Nd ℝ} {sv : Nd Bool} (hl : log.HasShape (q ++ [T]))
    (hc : cur.HasShape (q ++ [1])) (hsp : sp.shape = q) (hsv : sv.shape = q) :
    ∃ r, nextByProjectionNd inv log cur sp sv = .ok r ∧ r.HasShape (q ++ [1]) ∧ ∀ p, InRange q p →
      r.at_ (p ++ [0]) = nextByProjection inv (fun k : Fin T => log.at_ (p ++ [k.val])) (cur.at_ (p ++ [0])) (sp.get p) (sv.get p) := by
  obtain ⟨cs, e1, s1, g1⟩ := speed_shaped hc
  have hsv' : sv.expandLast.shape = q ++ [1] := by simp [Nd.expandLast, hsv]
  have hsp' : sp.expandLast.shape = q ++ [1] := by simp [Nd.expandLast, hsp]
  obtain ⟨ns, e2, s2, g2⟩ := where3_shaped hsv' hsp' s1
  obtain ⟨dt, e3, s3, g3⟩ := zip_shaped (fun a b : ℝ => (a + b) / 2 * 0.1) s2 s1
  obtain ⟨dx, e4, s4, g4⟩ := zip_shaped (fun d a : ℝ => d * cos a) s3 hc.yaw
  obtain ⟨dy, e5, s5, g5⟩ := zip_shaped (fun d a : ℝ => d * sin a) s3 hc.yaw
  obtain ⟨nx, e6, s6, g6⟩ := zip_shaped (fun a b : ℝ => a + b) hc.x s4
  obtain ⟨ny, e7, s7, g7⟩ := zip_shaped (fun a b : ℝ => a + b) hc.y s5
  obtain ⟨pr, e8, s8, g8⟩ := projectNd_shaped s6 s7 hl (!inv)
  obtain ⟨vx, e9, s9, g9⟩ := zip_shaped (fun v a : ℝ => v * cos a) s2 hc.yaw
  obtain ⟨vy, e10, s10, g10⟩ := zip_shaped (fun v a : ℝ => v * sin a) s2 hc.yaw
  have hre : (pr.map fun o => o.reachedLastPoint).shape = q ++ [1] := s8
  obtain ⟨wx, e11, s11, g11⟩ := where3_shaped hre (defaultVel_shape inv hc.velX) s9
  obtain ⟨wy, e12, s12, g12⟩ := where3_shaped hre (defaultVel_shape inv hc.velY) s10
  obtain ⟨ev, e13, s13, g13⟩ := endValid_shaped inv hsv' hre s2
  obtain ⟨vv, e14, s14, g14⟩ := zip_shaped (fun a b : Bool => a && b) s13 hc.valid
  set next : TrajNd ℝ :=
    { cur with x := pr.map fun o => o.x, y := pr.map fun o => o.y, yaw := pr.map fun o => o.yaw, velX := wx, velY := wy, valid := vv } with hnext
  have hn : next.HasShape (q ++ [1]) := ⟨s8, s8, hc.z, s11, s12, s8, s14, hc.timestampMicros, hc.length, hc.width, hc.height⟩
  obtain ⟨r, e15, s15, g15⟩ := zipLeaves_select (t := next) (u := next.fillInvalid) hn (fillInvalid_shape hn)
    (f := fun _ x y => Nd.where3 next.valid x y) (c := fun idx => ¬ next.valid.get idx = true) (φ := id) (P := InRange (q ++ [1]))
    (fun β x y hx hy => by
      obtain ⟨r, e, h1, h2⟩ := where3_shaped hn.valid hx hy
      refine ⟨r, e, h1, fun idx hidx => ?_⟩
      rw [h2 idx hidx]
      by_cases h : next.valid.get idx = true <;> simp [h])
  refine ⟨r, ?_, s15, fun p hp => ?_⟩
  · unfold nextByProjectionNd
    rw [e1, exc_ok_bind]
    dsimp only
    rw [e2, exc_ok_bind, e3, exc_ok_bind, e4, exc_ok_bind, e5, exc_ok_bind, e6, exc_ok_bind, e7, exc_ok_bind, e8, exc_ok_bind]
    rw [e9, exc_ok_bind, e10, exc_ok_bind, e11, exc_ok_bind, e12, exc_ok_bind, e13, exc_ok_bind, e14, exc_ok_bind, ← hnext, validate_shaped hn,
      exc_ok_bind]
    exact e15
  · have hi : InRange (q ++ [1]) (p ++ [0]) := hp.snoc (by omega)
    have hns : ns.get (p ++ [0]) = if sv.get p = true then sp.get p else (cur.at_ (p ++ [0])).speed := by
      rw [g2 _ hi, g1 _ hi]
      simp [Nd.expandLast]
    have hpr : pr.get (p ++ [0]) = projectToTrajectory
        ((cur.at_ (p ++ [0])).x + (ns.get (p ++ [0]) + (cur.at_ (p ++ [0])).speed) / 2 * 0.1 * cos (cur.at_ (p ++ [0])).yaw)
        ((cur.at_ (p ++ [0])).y + (ns.get (p ++ [0]) + (cur.at_ (p ++ [0])).speed) / 2 * 0.1 * sin (cur.at_ (p ++ [0])).yaw)
        (fun k : Fin T => log.at_ (p ++ [k.val])) !inv := by
      rw [g8 p, g6 _ hi, g7 _ hi, g4 _ hi, g5 _ hi, g3 _ hi, g1 _ hi]
      rfl
    have hev : next.valid.get (p ++ [0]) = ((if inv then sv.get p && !((pr.get (p ++ [0])).reachedLastPoint && decide (ns.get (p ++ [0]) > 1))
        else sv.get p) && (cur.at_ (p ++ [0])).valid) := by
      show vv.get (p ++ [0]) = _
      rw [g14 _ hi, g13 _ hi]
      simp [Nd.expandLast, Nd.map, TrajNd.at_]
    rw [g15 _ hi]
    unfold nextByProjection
    dsimp only
    rw [← hns, ← hpr, ← hev]
    by_cases h : next.valid.get (p ++ [0]) = true
    · rw [if_neg (not_not.2 h), if_pos h]
      have hx := g11 _ hi
      have hy := g12 _ hi
      rw [g9 _ hi] at hx
      rw [g10 _ hi] at hy
      simp only [defaultVel_get] at hx hy
      have h' : vv.get (p ++ [0]) = true := h
      simp only [TrajNd.at_, hnext, hx, hy, h']
      rfl
    · rw [if_pos h, if_neg h]
      rfl

end

section
variable {pre : List Nat} {n T : Nat} [NeZero T]

/-- What `update_speed` gives for a batch is what it gives for each scenario. -/
def UpdateSpeedNd.Refines (u : UpdateSpeedNd) (single : UpdateSpeed n T) (pre : List Nat) : Prop :=
  ∀ S : StateNd ℝ, S.Shaped pre n T → S.timestep.shape = [] ∨ S.timestep.shape = pre →
    ∃ v, u S = .ok v ∧ v.1.shape = pre ++ [n] ∧ v.2.shape = pre ++ [n] ∧
      ∀ p, InRange pre p → ∀ i : Fin n, (v.1.get (p ++ [i.val]), v.2.get (p ++ [i.val])) = single (S.scenario n T p) i

/-- `update_trajectory` on a batch whose scenarios share the time step or have their own. -/
theorem waypointUpdate_batch (inv : Bool) {u : UpdateSpeedNd} {single : UpdateSpeed n T} (hu : u.Refines single pre) {S : StateNd ℝ}
    (h : S.Shaped pre n T) (ht : S.timestep.shape = [] ∨ S.timestep.shape = pre) :
    ∃ r, waypointUpdateNd inv u S = .ok r ∧ r.HasShape (pre ++ [n, 1]) ∧ ∀ p, InRange pre p → ∀ i : Fin n,
      r.at_ (p ++ [i.val, 0]) = waypointUpdate inv single (S.scenario n T p) i := by
  obtain ⟨v, e1, s1, s2, g1⟩ := hu S h ht
  obtain ⟨cur, log, e2, -, s3, -, g2⟩ := C106_current h ht
  have hl := h.log
  rw [snoc2] at hl s3
  obtain ⟨r, e3, s4, g3⟩ := nextByProjection_batch inv hl s3 s1 s2
  unfold waypointUpdateNd
  rw [e1, exc_ok_bind, e2, exc_ok_bind, e3, exc_ok_bind]
  rw [← snoc2] at s4
  refine ⟨_, rfl, ⟨s4.x, s4.y, s4.yaw, s4.velX, s4.velY, s4.valid⟩, fun p hp i => ?_⟩
  have hc := (g2 p hp i).1
  have hv := g1 p hp i
  have hr := g3 (p ++ [i.val]) (hp.snoc i.isLt)
  unfold waypointUpdate
  dsimp only
  rw [← hv]
  have hcur : dynIndex ((S.scenario n T p).simTrajectory i) (S.scenario n T p).timestep = cur.at_ (p ++ [i.val] ++ [0]) := by
    rw [← snoc2]; exact hc.symm
  have hlog : (S.scenario n T p).logTrajectory i = fun k : Fin T => S.logTrajectory.at_ (p ++ [i.val] ++ [k.val]) := by
    funext k
    rw [← snoc2]
    rfl
  rw [hcur, hlog, ← hr, snoc2]
  rfl

omit [NeZero T] in
theorem constantSpeed_batch (v : ℝ) : (constantSpeedUpdateNd v).Refines (constantSpeedUpdate v : UpdateSpeed n T) pre := fun S h _ => by
  unfold constantSpeedUpdateNd
  rw [numObjects_shaped h.sim, exc_ok_bind, h.shape_eq]
  exact ⟨_, rfl, rfl, rfl, fun p _ i => rfl⟩

omit [NeZero T] in
theorem defaultControl_batch {S : StateNd ℝ} (h : S.Shaped pre n T) : (defaultControlNd S).shape = pre ++ [n] ∧
    ∀ p, InRange pre p → ∀ i : Fin n, (defaultControlNd S).get (p ++ [i.val]) = defaultControlFunc (S.scenario n T p) i :=
  ⟨h.metadata.isSdc, fun _ _ _ => rfl⟩

/-- C131: an agent that follows the logged way points with any rule for the speed that works on batches. -/
theorem C131_waypoint {K P : Type} (params : P) (inv : Bool) {u : UpdateSpeedNd} {single : UpdateSpeed n T} (hu : u.Refines single pre)
    {ctl : StateNd ℝ → Nd Bool} {ctl' : SimState ℝ n T → Fin n → Bool}
    (hc : ∀ S : StateNd ℝ, S.Shaped pre n T → S.timestep.shape = [] → (ctl S).shape = pre ++ [n] ∧
      ∀ p, InRange pre p → ∀ i : Fin n, (ctl S).get (p ++ [i.val]) = ctl' (S.scenario n T p) i) :
    SimAgentNd.Refines (simAgentNd ctl (waypointUpdateNd inv u) : SimAgentNd Unit K P) (fun _ => simAgent ctl' (waypointUpdate inv single))
      params pre fun _ _ _ => True :=
  C121_sim_agent params hc fun _ hS ht => waypointUpdate_batch inv hu hS (.inl ht)

/-- `ConstantSpeedPolicy` on batches. -/
theorem C131_constant_speed {K P : Type} (params : P) (v : ℝ) :
    SimAgentNd.Refines (constantSpeedPolicyNd v : SimAgentNd Unit K P) (fun _ => (constantSpeedPolicy v : SimAgent Unit K P n T)) params pre
      fun _ _ _ => True :=
  C131_waypoint params true (constantSpeed_batch v) fun _ hS _ => defaultControl_batch hS

/-- `create_constant_speed_actor` on batches, with any dynamics whose inverse works on batches. -/
theorem C131_constant_speed_actor {D : Type} {inv : InverseNd ℝ} {dim : Nat} {row : (Nat → ℝ) → D} {d : DynamicsModel ℝ D n}
    (hi : inv.Refines n dim row d) {ctl : StateNd ℝ → Nd Bool} {ctl' : SimState ℝ n T → Fin n → Bool} (speed : Option ℝ) {S : StateNd ℝ}
    (h : S.Shaped pre n T) (ht : S.timestep.shape = [] ∨ S.timestep.shape = pre)
    (hc : (ctl S).shape = pre ++ [n] ∧ ∀ p, InRange pre p → ∀ i : Fin n, (ctl S).get (p ++ [i.val]) = ctl' (S.scenario n T p) i) :
    ∃ a, constantSpeedActionNd inv ctl speed S = .ok a ∧ a.Shaped pre n dim ∧ ∀ p, InRange pre p →
      a.scenario row n p = constantSpeedAction d ctl' speed (S.scenario n T p) := by
  obtain ⟨t0, log, e1, -, s1, -, g1⟩ := C106_current h ht
  have hvx : (constantVelNd speed cos t0.velX t0.yaw).shape = pre ++ [n, 1] := by
    cases speed with
    | none => exact s1.velX
    | some v => exact s1.yaw
  have hvy : (constantVelNd speed sin t0.velY t0.yaw).shape = pre ++ [n, 1] := by
    cases speed with
    | none => exact s1.velY
    | some v => exact s1.yaw
  obtain ⟨x, e2, s2, g2⟩ := zip_shaped (fun a v : ℝ => a + v * 0.1) s1.x hvx
  obtain ⟨y, e3, s3, g3⟩ := zip_shaped (fun a v : ℝ => a + v * 0.1) s1.y hvy
  obtain ⟨w, e4, s4, g4⟩ := zip_shaped (fun a b : Bool => a && b) (x := (ctl S).expandLast) (by simp [Nd.expandLast, hc.1]) s1.valid
  set t1 : TrajNd ℝ := { t0 with x, y, velX := constantVelNd speed cos t0.velX t0.yaw, velY := constantVelNd speed sin t0.velY t0.yaw, valid := w,
                                 timestampMicros := t0.timestampMicros.map fun t => t + 100000 } with ht1
  have hs1 : t1.HasShape (pre ++ [n, 1]) := ⟨s2, s3, s1.z, hvx, hvy, s1.yaw, s4, s1.timestampMicros, s1.length, s1.width, s1.height⟩
  obtain ⟨c, e5, s5, g5⟩ := zipLeaves_concat (q := pre ++ [n]) (by rw [← snoc2]; exact s1) (by rw [← snoc2]; exact hs1)
  rw [← snoc2] at s5
  obtain ⟨a, e6, s6, g6⟩ := hi pre 2 c S.objectMetadata 0 (le_refl _) s5
  refine ⟨a, ?_, s6, fun p hp => ?_⟩
  · unfold constantSpeedActionNd
    rw [e1, exc_ok_bind]
    dsimp only
    rw [e2, exc_ok_bind, e3, exc_ok_bind, e4, exc_ok_bind, ← ht1, e5, exc_ok_bind]
    exact e6
  · rw [g6 p hp]
    unfold constantSpeedAction
    dsimp only
    refine congrArg (fun f => d.inverse (T := 2) f (S.scenario n T p).objectMetadata 0) (funext fun i => funext fun k => ?_)
    have hcur : dynIndex ((S.scenario n T p).simTrajectory i) (S.scenario n T p).timestep = t0.at_ (p ++ [i.val, 0]) := ((g1 p hp i).1).symm
    have hin : InRange (pre ++ [n, 1]) (p ++ [i.val, 0]) := hp.snoc2 i.isLt (by omega)
    rw [hcur, snoc2, g5, ← snoc2]
    fin_cases k
    · simp
    · simp only [Fin.mk_one, lt_irrefl, if_false, Nat.sub_self, Matrix.cons_val_one, Matrix.cons_val_fin_one]
      rw [← snoc2]
      have hx := g2 _ hin
      have hy := g3 _ hin
      have hw := g4 _ hin
      have hctl : (ctl S).expandLast.get (p ++ [i.val, 0]) = ctl' (S.scenario n T p) i := by
        rw [← hc.2 p hp i]
        show (ctl S).get ((p ++ [i.val, 0]).dropLast) = _
        rw [snoc2, List.dropLast_concat]
      rw [hctl] at hw
      simp only [TrajNd.at_, ht1, hx, hy, hw, constantSpeedNext]
      cases speed <;> rfl

end

end Waymax
