import Verif.Lemmas.Continuous
import Verif.Props.Rollout
/-
C28 and C29: delta dynamics and their inverse.

`AnglesAgree` is equality of headings up to full turns. `t'` is always the step after `t`.
-/

namespace Waymax

open Real

theorem AnglesAgree.wrap {a b : ℝ} (h : AnglesAgree a b) : wrapYaws a = wrapYaws b := by
  obtain ⟨k, rfl⟩ := h; exact C21_wrap_periodic _ _

theorem wrap_agrees (y : ℝ) : AnglesAgree (wrapYaws y) y := by
  obtain ⟨k, hk⟩ := ((C21_wrap_unique y _).1 rfl).2.2
  exact ⟨-k, by rw [hk]; push_cast; ring⟩

section
variable {n T : Nat} [NeZero T]

/-- Sanity check of the vocabulary: agreeing angles give the same unit vector, and conversely. -/
theorem AnglesAgree.heading_iff (a b : ℝ) : AnglesAgree a b ↔ heading a = heading b := by
  constructor
  · rintro h
    rw [← C21_wrap_same_heading a, ← C21_wrap_same_heading b, h.wrap]
  · intro h
    simp only [heading, Prod.mk.injEq] at h
    have h2 : (a : Real.Angle) = (b : Real.Angle) := Real.Angle.cos_sin_inj h.1 h.2
    obtain ⟨k, hk⟩ := Real.Angle.angle_eq_iff_two_pi_dvd_sub.1 h2
    exact ⟨k, by linarith⟩

/-- C28: replaying the inverse action from the first step gives the second step exactly, for every bound and every pair of
steps whose displacement is within the bounds. -/
theorem C28_round_trip (P : DeltaParams) (traj : Traj ℝ n T) (md : Fin n → ObjMeta) {t t' : Fin T}
    (ht : (t' : Nat) = t + 1) (i : Fin n) (hv : (traj i t).valid = true) (hv' : (traj i t').valid = true)
    (hx : |(traj i t').x - (traj i t).x| ≤ P.maxDx) (hy : |(traj i t').y - (traj i t).y| ≤ P.maxDy) :
    let u := (deltaGlobal P).computeUpdate ((deltaGlobal P).inverse traj md t) (fun j => traj j t) i
    u.x = (traj i t').x ∧ u.y = (traj i t').y ∧ AnglesAgree u.yaw (traj i t').yaw ∧ u.valid = true := by
  simp only [deltaGlobal, DynamicsModel.ofSingle, deltaGlobalUpdate, deltaGlobalInverse, window2_eq _ ht, hv, hv',
    Bool.and_self, if_true, deltaClip, clip_id_abs hx, clip_id_abs hy]
  refine ⟨by ring, by ring, ?_, trivial⟩
  obtain ⟨k, hk⟩ := wrap_agrees ((traj i t').yaw - (traj i t).yaw)
  exact ⟨k, by rw [hk]; ring⟩

/-- C28: conversely an action inside the spec, with its heading change in [-π, π), is recovered exactly from the transition it
produces (whatever multiple of 2π the recorded heading carries). -/
theorem C28_recovers (P : DeltaParams) (traj : Traj ℝ n T) (md : Fin n → ObjMeta) {t t' : Fin T}
    (ht : (t' : Nat) = t + 1) (i : Fin n) (hv : (traj i t).valid = true) (hv' : (traj i t').valid = true)
    (a : Fin n → Act Delta3) (ha : P.inSpec (a i).data) (hw : -π ≤ (a i).data.dyaw ∧ (a i).data.dyaw < π)
    (hx : (traj i t').x = ((deltaGlobal P).computeUpdate a (fun j => traj j t) i).x)
    (hy : (traj i t').y = ((deltaGlobal P).computeUpdate a (fun j => traj j t) i).y)
    (hyaw : AnglesAgree (traj i t').yaw ((deltaGlobal P).computeUpdate a (fun j => traj j t) i).yaw) :
    (deltaGlobal P).inverse traj md t i = { data := (a i).data, valid := true } := by
  obtain ⟨⟨h1, h2⟩, ⟨h3, h4⟩, -⟩ := ha
  simp only [deltaGlobal, DynamicsModel.ofSingle, deltaGlobalUpdate] at hx hy hyaw ⊢
  simp only [deltaGlobalInverse, window2_eq _ ht, hv, hv', Bool.and_self, if_true, deltaClip, hx, hy, add_sub_cancel_left]
  rw [clip_id h1 h2, clip_id h3 h4]
  obtain ⟨k, hk⟩ := hyaw
  have : (traj i t').yaw - (traj i t).yaw = (a i).data.dyaw + k * (2 * π) := by rw [hk]; ring
  rw [this, C21_wrap_periodic, C21_wrap_id hw.1 hw.2]

/-- C28: when either step is invalid the inverse action is zero and invalid; it is valid exactly when both steps are. -/
theorem C28_invalid (P : DeltaParams) (traj : Traj ℝ n T) (md : Fin n → ObjMeta) {t t' : Fin T}
    (ht : (t' : Nat) = t + 1) (i : Fin n) (hx : 0 ≤ P.maxDx) (hy : 0 ≤ P.maxDy) :
    let a := (deltaGlobal P).inverse traj md t i
    (a.valid = true ↔ (traj i t).valid = true ∧ (traj i t').valid = true) ∧
    (a.valid = false → a.data = { dx := 0, dy := 0, dyaw := 0 }) := by
  simp only [deltaGlobal, DynamicsModel.ofSingle, deltaGlobalInverse, window2_eq _ ht]
  refine ⟨Bool.and_eq_true_iff, fun h => ?_⟩
  simp only [h, Bool.false_eq_true, if_false, deltaClip]
  rw [clip_id (by linarith) hx, clip_id (by linarith) hy, C21_wrap_id (by linarith [pi_pos]) pi_pos]

/-- C28: the inverse action is always within the x and y bounds and its heading change within a half turn, at every time
index (also out of range) and for every validity. -/
theorem C28_bounds (P : DeltaParams) (traj : Traj ℝ n T) (md : Fin n → ObjMeta) (t : Int) (i : Fin n)
    (hx : 0 ≤ P.maxDx) (hy : 0 ≤ P.maxDy) :
    let a := (deltaGlobal P).inverse traj md t i
    |a.data.dx| ≤ P.maxDx ∧ |a.data.dy| ≤ P.maxDy ∧ -π ≤ a.data.dyaw ∧ a.data.dyaw < π :=
  ⟨clip_abs hx, clip_abs hy, C21_wrap_range _⟩

/-- C28, full expectation about the spec: the inverse action lies in the action spec, for every non-negative bound. -/
def C28_inSpec_full : Prop :=
  ∀ (P : DeltaParams), 0 ≤ P.maxDx → 0 ≤ P.maxDy → 0 ≤ P.maxDyaw →
    ∀ (n T : Nat) [NeZero T] (traj : Traj ℝ n T) (md : Fin n → ObjMeta) (t t' : Fin T), (t' : Nat) = t + 1 →
      ∀ i, P.inSpec ((deltaGlobal P).inverse traj md t i).data

/-- C28: for the default heading bound π, and any larger one, the inverse action is in the action spec. Missing for the full
statement: heading bounds below π, where it fails. -/
theorem C28_inSpec_partial (P : DeltaParams) (hx : 0 ≤ P.maxDx) (hy : 0 ≤ P.maxDy) (hyaw : π ≤ P.maxDyaw)
    (traj : Traj ℝ n T) (md : Fin n → ObjMeta) (t : Int) (i : Fin n) :
    P.inSpec ((deltaGlobal P).inverse traj md t i).data := by
  obtain ⟨h1, h2, h3, h4⟩ := C28_bounds P traj md t i hx hy
  exact ⟨abs_le.1 h1, abs_le.1 h2, by linarith, by linarith⟩

/-- A valid point at the given pose. -/
def ptAt (x y yaw velX velY : ℝ) : Pt ℝ :=
  { x := x, y := y, z := 0, velX := velX, velY := velY, yaw := yaw, valid := true, timestampMicros := 0,
    length := 4, width := 2, height := 1.5 }

def soloMeta {n : Nat} : Fin n → ObjMeta := fun _ =>
  { id := 0, objectType := 1, isSdc := true, isModeled := true, isValid := true, objectsOfInterest := false,
    isControlled := true }

/-- Two steps of one object. -/
def twoSteps (p q : Pt ℝ) : Traj ℝ 1 2 := fun _ t => if t = 0 then p else q

/-- C28: with a heading bound of 0.1 rad a turn of 1 rad gives an inverse action outside the spec: the heading is wrapped but
never clipped. -/
theorem C28_inSpec_violated : ¬ C28_inSpec_full := by
  intro h
  have := h { maxDyaw := 0.1 } (by norm_num) (by norm_num) (by norm_num) 1 2 (twoSteps (ptAt 0 0 0 0 0) (ptAt 0 0 1 0 0))
    soloMeta 0 1 rfl 0
  obtain ⟨-, -, -, h3⟩ := this
  have hw := window2_eq (twoSteps (ptAt 0 0 0 0 0) (ptAt 0 0 1 0 0) 0) (t := 0) (t' := 1) rfl
  simp only [deltaGlobal, DynamicsModel.ofSingle, deltaGlobalInverse, hw] at h3
  simp only [twoSteps, ptAt, deltaClip, Bool.and_self, if_true, if_false, one_ne_zero, sub_zero] at h3
  rw [C21_wrap_id (by linarith [pi_pos]) (by linarith [Real.one_le_pi_div_two])] at h3
  norm_num at h3

/-- Non-vacuity of the round trip: a 1 m / 2 m move with a quarter turn is within the default bounds. -/
example :
    let traj := twoSteps (ptAt 0 0 3 0 0) (ptAt 1 2 4 0 0)
    let u := (deltaGlobal {}).computeUpdate ((deltaGlobal {}).inverse traj soloMeta (0 : Fin 2)) (fun j => traj j 0) 0
    u.x = 1 ∧ u.y = 2 ∧ AnglesAgree u.yaw 4 := by
  have h := C28_round_trip {} (twoSteps (ptAt 0 0 3 0 0) (ptAt 1 2 4 0 0)) soloMeta (t := 0) (t' := 1) rfl 0
    rfl rfl (by norm_num [twoSteps, ptAt]) (by norm_num [twoSteps, ptAt])
  exact ⟨h.1, h.2.1, h.2.2.1⟩

/-! ### Local frame -/

/-- C29: exact behaviour: with the global displacement within bounds, the round trip is exact as soon as the displacement seen
from the object (along and left of its heading) is within bounds too. -/
theorem C29_round_trip_partial (P : DeltaParams) (traj : Traj ℝ n T) (md : Fin n → ObjMeta) {t t' : Fin T}
    (ht : (t' : Nat) = t + 1) (i : Fin n) (hv : (traj i t).valid = true) (hv' : (traj i t').valid = true)
    (hx : |(traj i t').x - (traj i t).x| ≤ P.maxDx) (hy : |(traj i t').y - (traj i t).y| ≤ P.maxDy)
    (a b : ℝ) (ha : |a| ≤ P.maxDx) (hb : |b| ≤ P.maxDy)
    (hab : ((traj i t').x, (traj i t').y) = pointAt (traj i t).x (traj i t).y (traj i t).yaw a b) :
    let u := (deltaLocal P).computeUpdate ((deltaLocal P).inverse traj md t) (fun j => traj j t) i
    let act := (deltaLocal P).inverse traj md t i
    u.x = (traj i t').x ∧ u.y = (traj i t').y ∧ AnglesAgree u.yaw (traj i t').yaw ∧ u.valid = true ∧
      act.data.dx = a ∧ act.data.dy = b ∧ act.valid = true := by
  set p := traj i t with hp
  set q := traj i t' with hq
  have hrot : rotatePoints (rotationMatrix2d (-p.yaw)) (q.x - p.x, q.y - p.y) = (a, b) := by
    simp only [pointAt, heading, leftOf, Prod.mk.injEq] at hab
    rw [hab.1, hab.2]
    have h := sin_sq_add_cos_sq p.yaw
    simp only [rotatePoints, rotationMatrix2d, Matrix.of_apply, Matrix.cons_val', Matrix.cons_val_zero,
      Matrix.cons_val_one, Matrix.cons_val_fin_one, cos_neg, sin_neg]
    ext
    · simp only []; linear_combination a * h
    · simp only []; linear_combination b * h
  have hinv : (deltaLocal P).inverse traj md t i =
      { data := { dx := a, dy := b, dyaw := wrapYaws (q.yaw - p.yaw) }, valid := true } := by
    simp only [deltaLocal, DynamicsModel.ofSingle, deltaLocalInverse, deltaGlobalInverse, window2_eq _ ht,
      dynIndex_of_eq _ (t := t) rfl, ← hp, ← hq, hv, hv', Bool.and_self, if_true, deltaClip, clip_id_abs hx, clip_id_abs hy,
      hrot, C21_wrap_idempotent, clip_id_abs ha, clip_id_abs hb]
  have hback := rotate_back p.yaw (q.x - p.x, q.y - p.y)
  rw [hrot] at hback
  intro u act
  have hu : u = deltaLocalUpdate P ((deltaLocal P).inverse traj md t i) p := rfl
  have hact : act = (deltaLocal P).inverse traj md t i := rfl
  rw [hinv] at hu hact
  rw [hu, hact]
  simp only [deltaLocalUpdate, deltaGlobalUpdate, hback, hv, Bool.and_self, and_true]
  refine ⟨by ring, by ring, ?_⟩
  obtain ⟨k, hk⟩ := wrap_agrees (q.yaw - p.yaw)
  exact ⟨k, by rw [hk]; ring⟩

/-- C29: a displacement no longer than both bounds is replayed exactly, in any direction and for any heading. Missing for the
full statement: longer displacements that are still inside the box of bounds. -/
theorem C29_short_round_trip_partial (P : DeltaParams) (traj : Traj ℝ n T) (md : Fin n → ObjMeta) {t t' : Fin T}
    (ht : (t' : Nat) = t + 1) (i : Fin n) (hv : (traj i t).valid = true) (hv' : (traj i t').valid = true)
    (hx : dist2 ((traj i t').x, (traj i t').y) ((traj i t).x, (traj i t).y) ≤ P.maxDx)
    (hy : dist2 ((traj i t').x, (traj i t').y) ((traj i t).x, (traj i t).y) ≤ P.maxDy) :
    let u := (deltaLocal P).computeUpdate ((deltaLocal P).inverse traj md t) (fun j => traj j t) i
    u.x = (traj i t').x ∧ u.y = (traj i t').y ∧ AnglesAgree u.yaw (traj i t').yaw ∧ u.valid = true := by
  set p := traj i t with hp
  set q := traj i t' with hq
  have hd0 : 0 ≤ dist2 (q.x, q.y) (p.x, p.y) := sqrt_nonneg _
  have hsq : dist2 (q.x, q.y) (p.x, p.y) ^ 2 = (q.x - p.x) ^ 2 + (q.y - p.y) ^ 2 := sq_sqrt (by positivity)
  have key : ∀ a b : ℝ, a ^ 2 + b ^ 2 = (q.x - p.x) ^ 2 + (q.y - p.y) ^ 2 → |a| ≤ P.maxDx ∧ |b| ≤ P.maxDy := by
    intro a b hab
    have h1 := abs_le_of_normSq hd0 (a := a) (b := b) (by rw [hsq, hab])
    exact ⟨h1.1.trans hx, h1.2.trans hy⟩
  let r := rotatePoints (rotationMatrix2d (-p.yaw)) (q.x - p.x, q.y - p.y)
  have hr := key r.1 r.2 (rotate_normSq _ _)
  have h0 := key _ _ rfl
  have hab : (q.x, q.y) = pointAt p.x p.y p.yaw r.1 r.2 := by
    have := rotate_back p.yaw (q.x - p.x, q.y - p.y)
    change rotatePoints (rotationMatrix2d p.yaw) r = _ at this
    simp only [rotatePoints, rotationMatrix2d, Matrix.of_apply, Matrix.cons_val', Matrix.cons_val_zero,
      Matrix.cons_val_one, Matrix.cons_val_fin_one, Prod.mk.injEq] at this
    simp only [pointAt, heading, leftOf, Prod.mk.injEq]
    exact ⟨by linarith [this.1], by linarith [this.2]⟩
  have := C29_round_trip_partial P traj md ht i hv hv' h0.1 h0.2 r.1 r.2 hr.1 hr.2 hab
  exact ⟨this.1, this.2.1, this.2.2.1, this.2.2.2.1⟩

/-- C29, full expectation: every in-spec local action is recovered from the transition it produces. -/
def C29_recovers_full : Prop :=
  ∀ (P : DeltaParams) (n T : Nat) [NeZero T] (traj : Traj ℝ n T) (md : Fin n → ObjMeta) (t t' : Fin T),
    (t' : Nat) = t + 1 → ∀ (i : Fin n) (a : Fin n → Act Delta3), (traj i t).valid = true → (traj i t').valid = true →
    P.inSpec (a i).data → -π ≤ (a i).data.dyaw → (a i).data.dyaw < π →
    (traj i t').x = ((deltaLocal P).computeUpdate a (fun j => traj j t) i).x →
    (traj i t').y = ((deltaLocal P).computeUpdate a (fun j => traj j t) i).y →
    (traj i t').yaw = ((deltaLocal P).computeUpdate a (fun j => traj j t) i).yaw →
    (deltaLocal P).inverse traj md t i = { data := (a i).data, valid := true }

/-- C29: what holds: an action whose length is within both bounds is recovered. Missing: in-spec actions near the corners of
the box of bounds, see `C29_violated`. -/
theorem C29_recovers_partial (P : DeltaParams) (traj : Traj ℝ n T) (md : Fin n → ObjMeta) {t t' : Fin T}
    (ht : (t' : Nat) = t + 1) (i : Fin n) (hv : (traj i t).valid = true) (hv' : (traj i t').valid = true)
    (a : Fin n → Act Delta3) (hdx : norm2 ((a i).data.dx, (a i).data.dy) ≤ P.maxDx)
    (hdy : norm2 ((a i).data.dx, (a i).data.dy) ≤ P.maxDy)
    (hw : -π ≤ (a i).data.dyaw ∧ (a i).data.dyaw < π)
    (hx : (traj i t').x = ((deltaLocal P).computeUpdate a (fun j => traj j t) i).x)
    (hy : (traj i t').y = ((deltaLocal P).computeUpdate a (fun j => traj j t) i).y)
    (hyaw : (traj i t').yaw = ((deltaLocal P).computeUpdate a (fun j => traj j t) i).yaw) :
    (deltaLocal P).inverse traj md t i = { data := (a i).data, valid := true } := by
  simp only [deltaLocal, DynamicsModel.ofSingle, deltaLocalUpdate, deltaGlobalUpdate] at hx hy hyaw
  have hd0 : 0 ≤ norm2 ((a i).data.dx, (a i).data.dy) := sqrt_nonneg _
  have hsq : norm2 ((a i).data.dx, (a i).data.dy) ^ 2 = (a i).data.dx ^ 2 + (a i).data.dy ^ 2 := sq_sqrt (by positivity)
  have key : ∀ u v : ℝ, u ^ 2 + v ^ 2 = (a i).data.dx ^ 2 + (a i).data.dy ^ 2 → |u| ≤ P.maxDx ∧ |v| ≤ P.maxDy := by
    intro u v hab
    have h1 := abs_le_of_normSq hd0 (a := u) (b := v) (by rw [hsq, hab])
    exact ⟨h1.1.trans hdx, h1.2.trans hdy⟩
  have h1 := key _ _ (rotate_normSq (traj i t).yaw ((a i).data.dx, (a i).data.dy))
  have h2 := key _ _ rfl
  simp only [deltaLocal, DynamicsModel.ofSingle, deltaLocalInverse, deltaGlobalInverse, window2_eq _ ht,
    dynIndex_of_eq _ (t := t) rfl, hv, hv', Bool.and_self, if_true, deltaClip, hx, hy, hyaw, add_sub_cancel_left,
    clip_id_abs h1.1, clip_id_abs h1.2, Prod.mk.eta, rotate_forth, clip_id_abs h2.1, clip_id_abs h2.2,
    C21_wrap_idempotent, C21_wrap_id hw.1 hw.2]

/-- C29: the in-spec action "6 m ahead and 6 m to the left" of an object heading at 45 degrees moves it by 6√2 m along y; the
inverse first clips that to 6 m in the global frame and does not return the action. -/
theorem C29_violated : ¬ C29_recovers_full := by
  intro h
  let p := ptAt 0 0 (π / 4) 0 0
  let act : Act Delta3 := { data := { dx := 6, dy := 6, dyaw := 0 }, valid := true }
  let u := deltaLocalUpdate {} act p
  let q := ptAt u.x u.y u.yaw 0 0
  have := h {} 1 2 (twoSteps p q) soloMeta 0 1 rfl 0 (fun _ => act) rfl rfl
    ⟨by norm_num [act], by norm_num [act], by simp [act, pi_pos.le]⟩ (by simp [act, pi_pos.le]) pi_pos rfl rfl rfl
  have hdx := congrArg (fun r => r.data.dx) this
  have hs : (√2 : ℝ) ^ 2 = 2 := sq_sqrt (by norm_num)
  have hs1 : (1.4 : ℝ) < √2 := by apply lt_sqrt_of_sq_lt; norm_num
  have hux : u.x = 0 := by
    simp [u, deltaLocalUpdate, deltaGlobalUpdate, p, ptAt, act, rotatePoints, rotationMatrix2d]
  have huy : u.y = 6 * √2 := by
    simp [u, deltaLocalUpdate, deltaGlobalUpdate, p, ptAt, act, rotatePoints, rotationMatrix2d]; ring
  have hw := window2_eq (twoSteps p q 0) (t := 0) (t' := 1) rfl
  have hi : dynIndex (twoSteps p q 0) (((0 : Fin 2) : Nat) : Int) = twoSteps p q 0 0 := dynIndex_of_eq _ (t := 0) rfl
  simp only [deltaLocal, DynamicsModel.ofSingle, deltaLocalInverse, deltaGlobalInverse, hw, hi] at hdx
  have e0 : twoSteps p q 0 0 = p := rfl
  have e1 : twoSteps p q 0 1 = q := rfl
  have hq : q.x = 0 ∧ q.y = 6 * √2 ∧ q.valid = true := ⟨hux, huy, rfl⟩
  have hp : p.x = 0 ∧ p.y = 0 ∧ p.yaw = π / 4 ∧ p.valid = true := ⟨rfl, rfl, rfl, rfl⟩
  simp only [e0, e1, hq.1, hq.2.1, hq.2.2, hp.1, hp.2.1, hp.2.2.1, hp.2.2.2, Bool.and_self, if_true, deltaClip, sub_zero] at hdx
  have hc1 : clip 0 (-6) 6 = 0 := clip_id (by norm_num) (by norm_num)
  have hc2 : clip (6 * √2) (-6) 6 = 6 := by
    unfold clip; rw [max_eq_left (by linarith), min_eq_right (by linarith)]
  rw [hc1, hc2] at hdx
  simp only [rotatePoints, rotationMatrix2d, Matrix.of_apply, Matrix.cons_val', Matrix.cons_val_zero,
      Matrix.cons_val_one, Matrix.cons_val_fin_one, cos_neg, sin_neg, cos_pi_div_four, sin_pi_div_four, act] at hdx
  have hlt : (√2 : ℝ) < 1.5 := by
    rw [sqrt_lt' (by norm_num)]; norm_num
  have : clip (√2 / 2 * 0 + - -(√2 / 2) * 6) (-6) 6 = 3 * √2 := by
    rw [clip_id (by linarith) (by linarith)]; ring
  rw [this] at hdx
  linarith

/-- C29: the local inverse is within the x/y bounds and valid exactly when both steps are. -/
theorem C29_bounds (P : DeltaParams) (traj : Traj ℝ n T) (md : Fin n → ObjMeta) {t t' : Fin T}
    (ht : (t' : Nat) = t + 1) (i : Fin n) (hx : 0 ≤ P.maxDx) (hy : 0 ≤ P.maxDy) :
    let a := (deltaLocal P).inverse traj md t i
    |a.data.dx| ≤ P.maxDx ∧ |a.data.dy| ≤ P.maxDy ∧ -π ≤ a.data.dyaw ∧ a.data.dyaw < π ∧
    (a.valid = true ↔ (traj i t).valid = true ∧ (traj i t').valid = true) := by
  refine ⟨clip_abs hx, clip_abs hy, (C21_wrap_range _).1, (C21_wrap_range _).2, ?_⟩
  simp only [deltaLocal, DynamicsModel.ofSingle, deltaLocalInverse, deltaGlobalInverse, window2_eq _ ht,
    dynIndex_of_eq _ (t := t) rfl, Bool.and_eq_true]
  tauto

/-- Non-vacuity: a 3 m / 4 m move at heading 1 has length 5, within the default bounds. -/
example :
    let traj := twoSteps (ptAt 0 0 1 0 0) (ptAt 3 4 2 0 0)
    let u := (deltaLocal {}).computeUpdate ((deltaLocal {}).inverse traj soloMeta (0 : Fin 2)) (fun j => traj j 0) 0
    u.x = 3 ∧ u.y = 4 ∧ AnglesAgree u.yaw 2 := by
  have hd : dist2 (3, 4) (0, 0) ≤ 6 := by
    unfold dist2
    rw [sqrt_le_left (by norm_num)]; norm_num
  have h := C29_short_round_trip_partial {} (twoSteps (ptAt 0 0 1 0 0) (ptAt 3 4 2 0 0)) soloMeta (t := 0) (t' := 1) rfl 0
    rfl rfl (by simpa [twoSteps, ptAt] using hd) (by simpa [twoSteps, ptAt] using hd)
  exact ⟨h.1, h.2.1, h.2.2.1⟩

/-- Non-vacuity of `C28_recovers`: the action (1, 2, 1) from the origin. -/
example :
    let traj := twoSteps (ptAt 0 0 3 0 0) (ptAt 1 2 4 0 0)
    (deltaGlobal {}).inverse traj soloMeta (0 : Fin 2) 0 = { data := { dx := 1, dy := 2, dyaw := 1 }, valid := true } := by
  have hpi := Real.one_le_pi_div_two
  refine C28_recovers {} (twoSteps (ptAt 0 0 3 0 0) (ptAt 1 2 4 0 0)) soloMeta (t := 0) (t' := 1) rfl 0 rfl rfl
    (fun _ => { data := { dx := 1, dy := 2, dyaw := 1 }, valid := true }) ?_ ?_ ?_ ?_ ?_
  · refine ⟨by norm_num, by norm_num, ?_, ?_⟩ <;> simp only <;> linarith
  · constructor <;> simp only <;> linarith
  · simp [deltaGlobal, DynamicsModel.ofSingle, deltaGlobalUpdate, twoSteps, ptAt]
  · simp [deltaGlobal, DynamicsModel.ofSingle, deltaGlobalUpdate, twoSteps, ptAt]
  · exact ⟨0, by norm_num [deltaGlobal, DynamicsModel.ofSingle, deltaGlobalUpdate, twoSteps, ptAt]⟩

end

/-! ### C64: expert rollouts with delta dynamics -/

/-- Same position and same heading up to full turns. -/
def SamePose (p q : Pt ℝ) : Prop := p.x = q.x ∧ p.y = q.y ∧ AnglesAgree p.yaw q.yaw

section
variable {D M R K Q : Type} {n T : Nat} [NeZero T]

/-- If, from every current pose equal to the logged one, the expert action (inferred from the current pose and the next logged
step) carries object `i` to its next logged pose, then the whole expert rollout stays on the log. -/
theorem expert_tracks {d : DynamicsModel ℝ D n} {cfg : EnvConfig} {metrics : SimState ℝ n T → Except Err M}
    {reward : SimState ℝ n T → (Fin n → Act D) → Except Err R}
    {mask : SimState ℝ n T → Fin n → Bool} {split : K → K × K} {params : Q}
    {zerosLike : (Fin n → Act D) → (Fin n → Act D)} {scen : SimState ℝ n T} {rng : K} {N : Nat}
    {out : List (RolloutEntry (SimState ℝ n T) (Fin n → Act D) (SimState ℝ n T) M R)}
    (h : rollout (baseEnv d cfg metrics reward) (expertActor d mask) split params zerosLike scen rng N = .ok out)
    (hw : 1 ≤ cfg.initSteps) (hfit : cfg.initSteps + N ≤ T) (i : Fin n)
    (hlv : ∀ t : Fin T, cfg.initSteps ≤ (t : Nat) + 1 → (scen.logTrajectory i t).valid = true)
    (htrack : ∀ (t t' : Fin T) (cur : Fin n → Pt ℝ), (t' : Nat) = t + 1 → cfg.initSteps ≤ (t' : Nat) →
      (cur i).valid = true → SamePose (cur i) (scen.logTrajectory i t) → ∀ md,
      let u := d.computeUpdate
        (d.inverse (T := 2) (fun j s => if s.val = 0 then cur j else scen.logTrajectory j t') md 0) cur i
      u.x = (scen.logTrajectory i t').x ∧ u.y = (scen.logTrajectory i t').y ∧
        AnglesAgree u.yaw (scen.logTrajectory i t').yaw)
    (k : Nat) (hk : k < out.length) (t : Fin T) (ht : (t : Int) ≤ out[k].state.timestep) :
    SamePose (out[k].state.simTrajectory i t) (scen.logTrajectory i t) := by
  obtain ⟨hN, hlen, hreset, hstep, -, ⟨xs, -, hact⟩, -⟩ := C14_rollout_spec h
  have hact' : ∀ j (hj : j < N), out[j].action = inferExpertAction out[j].state d := fun j hj =>
    ((hact j hj).1).symm
  have key : ∀ j (hj : j ≤ N), out[j].state.logTrajectory = scen.logTrajectory ∧
      out[j].state.timestep = (cfg.initSteps : Int) - 1 + j ∧
      ∀ (t : Fin T), (t : Int) ≤ out[j].state.timestep →
        SamePose (out[j].state.simTrajectory i t) (scen.logTrajectory i t) ∧
        (cfg.initSteps ≤ (t : Nat) + 1 → (out[j].state.simTrajectory i t).valid = true) := by
    intro j
    induction j with
    | zero =>
      intro _
      have hr := C01_reset_spec hreset
      refine ⟨hr.2.2.2.log, by simpa using hr.1, ?_⟩
      intro t ht
      have : t.val < cfg.initSteps := by rw [hr.1] at ht; omega
      rw [hr.2.1 i t this]
      exact ⟨⟨rfl, rfl, 0, by simp⟩, fun h => hlv t h⟩
    | succ j ih =>
      intro hj
      obtain ⟨hlog, hts, ih⟩ := ih (by omega)
      have hst : step d cfg out[j].state out[j].action = .ok out[j + 1].state := hstep j (by omega)
      obtain ⟨m, hm, heq⟩ := step_ok hst
      rw [heq]
      refine ⟨hlog, by simp only [hts]; omega, ?_⟩
      intro t ht
      simp only at ht ⊢
      have h1 : ((⟨cfg.initSteps - 1 + j, by omega⟩ : Fin T) : Int) = out[j].state.timestep := by
        rw [hts]; simp only; omega
      have h2 : ((⟨cfg.initSteps + j, by omega⟩ : Fin T) : Int) = out[j].state.timestep + 1 := by
        rw [hts]; simp only; omega
      rw [forward_apply d _ _ _ m _ h1 h2]
      by_cases htt : t = ⟨cfg.initSteps + j, by omega⟩
      · rw [if_pos htt, hact' j (by omega)]
        obtain ⟨ihp, ihv⟩ := ih _ (le_of_eq h1)
        have ihv := ihv (by simp only; omega)
        have := htrack ⟨cfg.initSteps - 1 + j, by omega⟩ ⟨cfg.initSteps + j, by omega⟩
          (fun q => out[j].state.simTrajectory q ⟨cfg.initSteps - 1 + j, by omega⟩) (by simp only; omega) (by simp)
          ihv ihp out[j].state.objectMetadata
        have he : inferExpertAction out[j].state d = d.inverse (T := 2)
            (fun q s => if s.val = 0 then out[j].state.simTrajectory q ⟨cfg.initSteps - 1 + j, by omega⟩
              else scen.logTrajectory q ⟨cfg.initSteps + j, by omega⟩) out[j].state.objectMetadata 0 := by
          unfold inferExpertAction
          simp only [dynIndex_of_eq _ h1, dynIndex_of_eq _ h2, hlog]
        rw [← he] at this
        have hv2 := hlv ⟨cfg.initSteps + j, by omega⟩ (by simp only; omega)
        rw [hlog, htt]
        refine ⟨?_, fun _ => ?_⟩
        · cases m i
          · exact ⟨rfl, rfl, 0, by simp [updatedPt, newField]⟩
          · exact this
        · simp only [updatedPt, nextValid, ihv, hv2]
          cases m i <;> cases cfg.allowNewObjectsAfterWarmup <;> rfl
      · rw [if_neg htt]
        apply ih
        have : t.val ≠ cfg.initSteps + j := fun hh => htt (Fin.ext hh)
        omega
  exact ((key k (by omega)).2.2 t ht).1

/-- C64: with `DeltaGlobal`, an expert rollout keeps an object at its logged position and heading at every step, whatever set
of objects is controlled, provided its log is valid and moves by at most the bounds per simulated step. -/
theorem C64_expert_delta_global {P : DeltaParams} {cfg : EnvConfig} {metrics : SimState ℝ n T → Except Err M}
    {reward : SimState ℝ n T → (Fin n → Act Delta3) → Except Err R}
    {mask : SimState ℝ n T → Fin n → Bool} {split : K → K × K} {params : Q}
    {zerosLike : (Fin n → Act Delta3) → (Fin n → Act Delta3)} {scen : SimState ℝ n T} {rng : K} {N : Nat}
    {out : List (RolloutEntry (SimState ℝ n T) (Fin n → Act Delta3) (SimState ℝ n T) M R)}
    (h : rollout (baseEnv (deltaGlobal P) cfg metrics reward) (expertActor (deltaGlobal P) mask) split params zerosLike
      scen rng N = .ok out)
    (hw : 1 ≤ cfg.initSteps) (hfit : cfg.initSteps + N ≤ T) (i : Fin n)
    (hlv : ∀ t : Fin T, cfg.initSteps ≤ (t : Nat) + 1 → (scen.logTrajectory i t).valid = true)
    (hlog : ∀ t t' : Fin T, (t' : Nat) = t + 1 → cfg.initSteps ≤ (t' : Nat) →
      |(scen.logTrajectory i t').x - (scen.logTrajectory i t).x| ≤ P.maxDx ∧
      |(scen.logTrajectory i t').y - (scen.logTrajectory i t).y| ≤ P.maxDy)
    (k : Nat) (hk : k < out.length) (t : Fin T) (ht : (t : Int) ≤ out[k].state.timestep) :
    SamePose (out[k].state.simTrajectory i t) (scen.logTrajectory i t) := by
  refine expert_tracks h hw hfit i hlv ?_ k hk t ht
  intro t t' cur htt hi hv hpose md
  obtain ⟨hdx, hdy⟩ := hlog t t' htt hi
  rw [← hpose.1] at hdx
  rw [← hpose.2.1] at hdy
  have := C28_round_trip P (T := 2) (fun j s => if s.val = 0 then cur j else scen.logTrajectory j t') md
    (t := 0) (t' := 1) rfl i hv (hlv t' (by omega)) hdx hdy
  exact ⟨this.1, this.2.1, this.2.2.1⟩

/-- C64: the same with `DeltaLocal`, provided the logged displacement per simulated step is no longer than both bounds. -/
theorem C64_expert_delta_local {P : DeltaParams} {cfg : EnvConfig} {metrics : SimState ℝ n T → Except Err M}
    {reward : SimState ℝ n T → (Fin n → Act Delta3) → Except Err R}
    {mask : SimState ℝ n T → Fin n → Bool} {split : K → K × K} {params : Q}
    {zerosLike : (Fin n → Act Delta3) → (Fin n → Act Delta3)} {scen : SimState ℝ n T} {rng : K} {N : Nat}
    {out : List (RolloutEntry (SimState ℝ n T) (Fin n → Act Delta3) (SimState ℝ n T) M R)}
    (h : rollout (baseEnv (deltaLocal P) cfg metrics reward) (expertActor (deltaLocal P) mask) split params zerosLike
      scen rng N = .ok out)
    (hw : 1 ≤ cfg.initSteps) (hfit : cfg.initSteps + N ≤ T) (i : Fin n)
    (hlv : ∀ t : Fin T, cfg.initSteps ≤ (t : Nat) + 1 → (scen.logTrajectory i t).valid = true)
    (hlog : ∀ t t' : Fin T, (t' : Nat) = t + 1 → cfg.initSteps ≤ (t' : Nat) →
      dist2 ((scen.logTrajectory i t').x, (scen.logTrajectory i t').y)
        ((scen.logTrajectory i t).x, (scen.logTrajectory i t).y) ≤ P.maxDx ∧
      dist2 ((scen.logTrajectory i t').x, (scen.logTrajectory i t').y)
        ((scen.logTrajectory i t).x, (scen.logTrajectory i t).y) ≤ P.maxDy)
    (k : Nat) (hk : k < out.length) (t : Fin T) (ht : (t : Int) ≤ out[k].state.timestep) :
    SamePose (out[k].state.simTrajectory i t) (scen.logTrajectory i t) := by
  refine expert_tracks h hw hfit i hlv ?_ k hk t ht
  intro t t' cur htt hi hv hpose md
  obtain ⟨hdx, hdy⟩ := hlog t t' htt hi
  rw [← hpose.1, ← hpose.2.1] at hdx hdy
  have := C29_short_round_trip_partial P (T := 2) (fun j s => if s.val = 0 then cur j else scen.logTrajectory j t') md
    (t := 0) (t' := 1) rfl i hv (hlv t' (by omega)) hdx hdy
  exact ⟨this.1, this.2.1, this.2.2.1⟩

/-- One object that drives 1 m per step along x for four steps while its heading turns. -/
def driveScen : SimState ℝ 1 4 :=
  { simTrajectory := fun _ _ => ptAt 0 0 0 0 0
    logTrajectory := fun _ t => ptAt t 0 (3 * t) 10 0
    logTrafficLight := []
    objectMetadata := soloMeta
    timestep := 0
    sdcPaths := none
    roadgraphPoints := none }

def driveCfg : EnvConfig :=
  { maxNumObjects := 1, initSteps := 1, controlledObject := .SDC, allowNewObjectsAfterWarmup := false }

/-- Non-vacuity: this scenario meets the hypotheses of both C64 theorems, and the rollouts exist. -/
example (P : DeltaParams) (hx : 1 ≤ P.maxDx) (hy : 1 ≤ P.maxDy) : ∃ out,
    rollout (K := Nat) (P := Unit) (baseEnv (deltaLocal P) driveCfg (fun _ => .ok ()) (fun _ _ => .ok (0 : Int)))
      (expertActor (deltaLocal P) (fun s i => (s.objectMetadata i).isSdc)) (fun k => (k, k + 1)) () id driveScen 0 3 = .ok out ∧
    ∀ k (hk : k < out.length) (t : Fin 4), (t : Int) ≤ out[k].state.timestep →
      SamePose (out[k].state.simTrajectory 0 t) (driveScen.logTrajectory 0 t) := by
  obtain ⟨out, ho⟩ := C14_rollout_succeeds (K := Nat) (P := Unit)
    (baseEnv (deltaLocal P) driveCfg (fun _ => .ok ()) (fun _ _ => .ok (0 : Int)))
    (expertActor (deltaLocal P) (fun s i => (s.objectMetadata i).isSdc)) (fun k => (k, k + 1)) () id driveScen 0 (n := 3)
    (by decide) ⟨_, rfl⟩ (fun s a => step_exists _ _ s a (by decide)) (fun _ => ⟨_, rfl⟩) (fun _ _ => ⟨_, rfl⟩)
  refine ⟨out, ho, ?_⟩
  intro k hk t ht
  refine C64_expert_delta_local ho (by decide) (by decide) 0 (fun _ _ => rfl) ?_ k hk t ht
  intro t t' htt _
  have hd : dist2 ((driveScen.logTrajectory 0 t').x, (driveScen.logTrajectory 0 t').y)
        ((driveScen.logTrajectory 0 t).x, (driveScen.logTrajectory 0 t).y) = 1 := by
    simp [dist2, driveScen, ptAt, htt]
  exact ⟨hd ▸ hx, hd ▸ hy⟩

end

end Waymax
