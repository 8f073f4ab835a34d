import Verif.Spec.BrokenSpeed
import Verif.Props.Overflow
import Verif.Props.ProgressionIeee
/-
C180: what an agent that keeps its distance (IDM) does about an object with broken numbers.
-/

namespace Waymax

section
variable {F : IeeeFormat} {L : Libm F.fmt} {pw : Ieee F → Ieee F} {n T : Nat} [NeZero T]

theorem speed_nan {p : Pt (Ieee F)} (hv : p.valid = true) (h : BrokenVelocity p) : p.speedIe L = .nan := by
  unfold Pt.speedIe
  rw [if_pos hv]
  rcases h with h | h <;> rw [h] <;> simp

/-- What object `k` contributes at a way point. -/
noncomputable def velAt (L : Libm F.fmt) (cur : Fin n → Pt (Ieee F)) (i : Fin n) (w : Pt (Ieee F)) (k : Fin n) : Ieee F :=
  if (cur k).valid then (if idmCollisionIe L cur i w k then (cur k).speedIe L else .inf false) else .inf false

theorem leadVel_eq (cur : Fin n → Pt (Ieee F)) (i : Fin n) (traj : List (Pt (Ieee F))) :
    computeLeadVelocityIe (fun j => (cur j).speedIe L) (fun j => (cur j).valid) (traj.map fun w => idmCollisionIe L cur i w) =
      let velsT := traj.map fun w => Ieee.minList (List.ofFn (velAt L cur i w))
      let cumsumT := cumsumFromIe (Ieee.ofReal F 0) (velsT.map fun v => if v.isFinite then v else Ieee.ofReal F 0)
      let leadVel := Ieee.minList (List.zipWith (fun (v c : Ieee F) => if v.isFinite then c else .inf false) velsT cumsumT)
      if leadVel.isFinite then leadVel else Ieee.ofReal F (-1) := by
  unfold computeLeadVelocityIe
  rw [List.map_map]
  rfl

/-- The acceleration depends on the agent itself and on what the others contribute at its way points. -/
theorem accel_congr {P : IdmParams} {log log' : Fin n → Fin T → Pt (Ieee F)} {cur cur' : Fin n → Pt (Ieee F)} {i : Fin n}
    (hl : log' i = log i) (hi : cur' i = cur i) (hv : ∀ w k, velAt L cur' i w k = velAt L cur i w k)
    (hc : ∀ w k, idmCollisionIe L cur' i w k = idmCollisionIe L cur i w k) :
    idmAccelIe L pw P log' cur' i = idmAccelIe L pw P log cur i := by
  unfold idmAccelIe
  simp only [leadVel_eq, hl, hi, hc]
  have : ∀ w, velAt L cur' i w = velAt L cur i w := fun w => funext (hv w)
  simp only [this]

theorem updateSpeed_eq (P : IdmParams) (s : SimState (Ieee F) n T) (i : Fin n) :
    idmUpdateSpeedIe L pw P s i = (do
      let accel ← idmAccelIe L pw P s.logTrajectory (currentPt s) i
      let speed := ((currentPt s i).speedIe L).add ((Ieee.ofReal F (float64.fl 0.1)).mul accel)
      return if speed.lt (Ieee.ofReal F 0) then Ieee.ofReal F 0 else speed) := rfl

theorem collision_ne {cur : Fin n → Pt (Ieee F)} {i : Fin n} {w : Pt (Ieee F)} : idmCollisionIe L cur i w i = false := by
  simp [idmCollisionIe]

theorem collision_invalid {cur : Fin n → Pt (Ieee F)} {i k : Fin n} {w : Pt (Ieee F)} (h : (cur k).valid = false) :
    idmCollisionIe L cur i w k = false := by
  simp [idmCollisionIe, h]

theorem collision_pose {cur : Fin n → Pt (Ieee F)} {i k : Fin n} {w : Pt (Ieee F)} (h : BrokenPose (cur k)) :
    idmCollisionIe L cur i w k = false := by
  unfold idmCollisionIe
  rw [(C158_no_overlap L h w).2]
  simp

/-! ### An object that is nowhere -/

/-- An object without a usable pose, or that is not there at all, makes no difference to the speed another agent chooses, whatever its
other numbers are. -/
theorem C180_pose_partial (P : IdmParams) {s s' : SimState (Ieee F) n T} {i j : Fin n} (hij : i ≠ j)
    (hb : BrokenPose (currentPt s j) ∨ (currentPt s j).valid = false) (h : Removed j s s') :
    idmUpdateSpeedIe L pw P s i = idmUpdateSpeedIe L pw P s' i := by
  have hk : ∀ k, k ≠ j → currentPt s' k = currentPt s k := fun k hk => by
    unfold currentPt
    rw [(h.others k hk).sim, (h.others k hk).clock]
  have hc : ∀ w k, idmCollisionIe L (currentPt s) i w k = idmCollisionIe L (currentPt s') i w k := fun w k => by
    by_cases hkj : k = j
    · subst hkj
      rw [collision_invalid h.gone]
      exact hb.elim collision_pose collision_invalid
    · simp only [idmCollisionIe, hk k hkj]
  rw [updateSpeed_eq, updateSpeed_eq, hk i hij]
  refine congrArg (· >>= _) (accel_congr (h.others i hij).log.symm (hk i hij).symm (fun w k => ?_) hc)
  unfold velAt
  rw [hc]
  by_cases hkj : k = j
  · subst hkj
    rw [collision_invalid h.gone]
    simp
  · rw [hk k hkj]

/-! ### An object of unknown speed -/

theorem leadVel_unknown {cur : Fin n → Pt (Ieee F)} {i : Fin n} {traj : List (Pt (Ieee F))}
    (h : ∀ w, (Ieee.minList (List.ofFn (velAt L cur i w))).isFinite = false) :
    computeLeadVelocityIe (fun j => (cur j).speedIe L) (fun j => (cur j).valid) (traj.map fun w => idmCollisionIe L cur i w) =
      Ieee.ofReal F (-1) := by
  rw [leadVel_eq]
  simp only
  rw [Ieee.minList_top, if_neg (by simp [Ieee.isFinite])]
  intro a ha
  obtain ⟨k, hk, rfl⟩ := List.mem_iff_getElem.1 ha
  rw [List.getElem_zipWith, List.getElem_map, h, if_neg (by simp)]

theorem leadDist_finite (traj : List (Pt (Ieee F))) (c : Pt (Ieee F) → Bool) (cur : Pt (Ieee F)) :
    (computeLeadDistanceIe L traj c cur).isFinite = true := by
  unfold computeLeadDistanceIe
  simp only
  split
  · assumption
  · obtain ⟨x, hx, e, -⟩ : HasVal (Ieee.ofReal F (-1)) (F.fmt.fl (-1)) := by
      refine hasVal_round ?_
      rw [Format.fl_neg, Format.fl_of_rep (Ieee.rep_one' _)]
      have := Ieee.two_pow_top F
      norm_num
      linarith
    rw [e]
    rfl

theorem tenth_ne_zero (hF : F.fmt.emin ≤ -4) : ∃ x h, Ieee.ofReal F (float64.fl 0.1) = .fin x h ∧ x.val ≠ 0 := by
  have r : ∀ φ : Format, φ.emin ≤ -4 → φ.Rep (2 ^ (-4 : ℤ)) := fun φ hφ => by
    refine ⟨1, -4, ?_, hφ, by simp⟩
    rw [abs_one]
    exact one_lt_pow₀ (by norm_num) (by have := φ.two_le; omega)
  have h64 : (2 : ℝ) ^ (-4 : ℤ) ≤ float64.fl 0.1 := by
    rw [← Format.fl_of_rep (r float64 (by decide))]
    exact Format.fl_mono (by norm_num)
  have h641 : float64.fl 0.1 ≤ 1 := by
    rw [← Format.fl_of_rep (Ieee.rep_one' float64)]
    exact Format.fl_mono (by norm_num)
  have h1 : (2 : ℝ) ^ (-4 : ℤ) ≤ F.fmt.fl (float64.fl 0.1) := by
    rw [← Format.fl_of_rep (r F.fmt hF)]
    exact Format.fl_mono h64
  have h2 : F.fmt.fl (float64.fl 0.1) ≤ 1 := by
    rw [← Format.fl_of_rep (Ieee.rep_one' F.fmt)]
    exact Format.fl_mono h641
  have h0 : (0 : ℝ) < 2 ^ (-4 : ℤ) := by positivity
  obtain ⟨x, hx, e, ex⟩ := hasVal_round (F := F) (r := float64.fl 0.1) (by
    rw [abs_of_nonneg (by linarith)]
    linarith [Ieee.two_pow_top F])
  exact ⟨x, hx, e, by rw [ex]; linarith⟩

theorem zero_div {x : Flt F.fmt} {h : |x.val| < 2 ^ F.top} (h0 : x.val ≠ 0) : (Ieee.zero F).div (.fin x h) = Ieee.zero F := by
  unfold Ieee.zero
  change (if x.val = 0 then _ else Ieee.ofFlt F _) = _
  rw [if_neg h0]
  have : (Flt.div ⟨0, Format.Rep.zero⟩ x : Flt F.fmt) = ⟨0, Format.Rep.zero⟩ := by
    unfold Flt.div
    simp only [_root_.zero_div]
    exact Ieee.round_rep Format.Rep.zero
  rw [this]
  exact Ieee.ofFlt_small _

/-- With the speed of the leader unknown the formula is that of the free road, wherever the leader is. -/
theorem formula_unknown (hF : F.fmt.emin ≤ -4) (P : IdmParams) (v : Ieee F) {d : Ieee F} (hd : d.isFinite = true) :
    idmFormulaIe L pw P v (Ieee.ofReal F (-1)) d = (Ieee.ofReal F P.maxAccel).mul
      (((Ieee.ofReal F 1).sub (pw (v.div (Ieee.ofReal F P.desiredVel)))).sub ((Ieee.ofReal F 0).mul (Ieee.ofReal F 0))) := by
  have hn : Ieee.ofReal F (-1) ≠ .nan := by
    obtain ⟨x, hx, e, -⟩ : HasVal (Ieee.ofReal F (-1)) (F.fmt.fl (-1)) := by
      refine hasVal_round ?_
      rw [Format.fl_neg, Format.fl_of_rep (Ieee.rep_one' _)]
      have := Ieee.two_pow_top F
      norm_num
      linarith
    rw [e]
    nofun
  unfold idmFormulaIe
  simp only [Ieee.eq_self hn, Bool.or_true, if_true]
  have : (Ieee.ofReal F 0).div (if d.eq (Ieee.ofReal F 0) then Ieee.ofReal F (float64.fl 0.1) else d) = Ieee.ofReal F 0 := by
    rw [Ieee.ofReal_zero]
    split
    · obtain ⟨x, hx, e, h0⟩ := tenth_ne_zero hF
      rw [e]
      exact zero_div h0
    · rename_i hne
      obtain ⟨x, hx, rfl⟩ := Ieee.finite_iff.1 hd
      exact zero_div fun h0 => hne (by simp [Ieee.eq, Ieee.zero, h0])
  rw [this]

/-- If whatever stands around an agent has an unknown speed, or shares its place with an object of unknown speed, the agent drives as if
it were alone on the road. -/
theorem C180_hidden_exact (hF : F.fmt.emin ≤ -4) (P : IdmParams) {s s' : SimState (Ieee F) n T} {i : Fin n}
    (h : ∀ k, k ≠ i → (currentPt s k).valid = true → ∃ j, j ≠ i ∧ (currentPt s j).valid = true ∧ BrokenVelocity (currentPt s j) ∧
      (currentPt s j).boxIe = (currentPt s k).boxIe) (ha : AloneIn i s s') :
    idmUpdateSpeedIe L pw P s i = idmUpdateSpeedIe L pw P s' i := by
  have hi : currentPt s' i = currentPt s i := by
    unfold currentPt
    rw [ha.same.sim, ha.same.clock]
  have hc' : ∀ w k, idmCollisionIe L (currentPt s') i w k = false := fun w k => by
    by_cases hk : k = i
    · subst hk
      exact collision_ne
    · exact collision_invalid (ha.gone k hk)
  have h1 : ∀ w, (Ieee.minList (List.ofFn (velAt L (currentPt s) i w))).isFinite = false := fun w => by
    by_cases hw : ∃ k, idmCollisionIe L (currentPt s) i w k = true
    · obtain ⟨k, hk⟩ := hw
      have hki : k ≠ i := by
        rintro rfl
        rw [collision_ne] at hk
        exact absurd hk (by simp)
      have hkv : (currentPt s k).valid = true := by
        by_contra hv
        rw [collision_invalid (Bool.eq_false_iff.2 hv)] at hk
        exact absurd hk (by simp)
      obtain ⟨j, hji, hjv, hjb, hbox⟩ := h k hki hkv
      have hj : idmCollisionIe L (currentPt s) i w j = true := by
        unfold idmCollisionIe at hk ⊢
        simp only [hkv, hjv, hbox, decide_eq_false (Ne.symm hki), decide_eq_false (Ne.symm hji)] at hk ⊢
        exact hk
      rw [Ieee.minList_mem_nan]
      · rfl
      · refine List.mem_ofFn.2 ⟨j, ?_⟩
        unfold velAt
        rw [if_pos hjv, if_pos hj, speed_nan hjv hjb]
    · rw [Ieee.minList_top]
      · rfl
      · intro a hm
        obtain ⟨k, rfl⟩ := List.mem_ofFn.1 hm
        unfold velAt
        rw [if_neg fun hk => hw ⟨k, hk⟩]
        simp
  have h2 : ∀ w, (Ieee.minList (List.ofFn (velAt L (currentPt s') i w))).isFinite = false := fun w => by
    rw [Ieee.minList_top]
    · rfl
    · intro a hm
      obtain ⟨k, rfl⟩ := List.mem_ofFn.1 hm
      unfold velAt
      rw [hc']
      simp
  rw [updateSpeed_eq, updateSpeed_eq, hi]
  refine congrArg (· >>= _) ?_
  unfold idmAccelIe
  simp only [leadVel_unknown h1, leadVel_unknown h2, formula_unknown hF P _ (leadDist_finite _ _ _), hi, ha.same.log]

/-- An agent whose own velocity is NaN gets NaN for its new speed. -/
theorem C180_own_exact (P : IdmParams) {s : SimState (Ieee F) n T} {i : Fin n} (hv : (currentPt s i).valid = true)
    (hb : BrokenVelocity (currentPt s i)) {v : Ieee F} (h : idmUpdateSpeedIe L pw P s i = .ok v) : v = .nan := by
  rw [updateSpeed_eq, speed_nan hv hb] at h
  cases ha : idmAccelIe L pw P s.logTrajectory (currentPt s) i with
  | error e =>
    rw [ha] at h
    exact nomatch h
  | ok a =>
    rw [ha] at h
    injection h with h
    simpa using h.symm

end

/-! ### A stopped car hidden by one of unknown speed -/

section

/-- A 4 m x 2 m car at `(x, 0)`, in single precision, with this velocity along the axis. -/
noncomputable def carIe (x : ℤ) (hx : |x| < 2 ^ 24) (v : Ieee binary32) (valid : Bool) : Pt (Ieee binary32) :=
  { x := Ieee.ofFlt binary32 (carFl x hx).x, y := Ieee.ofFlt binary32 (carFl x hx).y, z := Ieee.zero _, velX := v, velY := Ieee.zero _,
    yaw := Ieee.ofFlt binary32 (carFl x hx).yaw, valid := valid, timestampMicros := 0,
    length := Ieee.ofFlt binary32 (carFl x hx).length, width := Ieee.ofFlt binary32 (carFl x hx).width, height := Ieee.zero _ }

/-- Three cars: an agent that stands still, a car that stands 3 m ahead, and a third in the same place, of unknown speed. -/
noncomputable def hiddenScen (blocker third : Bool) : SimState (Ieee binary32) 3 1 where
  simTrajectory := fun i _ => if i = 0 then carIe 0 (by norm_num) (Ieee.zero _) true
    else if i = 1 then carIe 3 (by norm_num) (Ieee.zero _) blocker else carIe 3 (by norm_num) .nan third
  logTrajectory := fun _ _ => carIe 0 (by norm_num) (Ieee.zero _) true
  logTrafficLight := []
  objectMetadata := fun i => { id := i.val, objectType := 1, isSdc := decide (i = 0), isModeled := true, isValid := true, objectsOfInterest := false, isControlled := true }
  timestep := 0
  sdcPaths := none
  roadgraphPoints := none

/-- IDM that looks at its own place only. -/
noncomputable def nearIdm : IdmParams := { additionalLookaheadPoints := 0 }

theorem car_overlap (v w : Ieee binary32) (a b : Bool) :
    hasOverlapIe (exactLibm _) (carIe 0 (by norm_num) v a).boxIe (carIe 3 (by norm_num) w b).boxIe = true := by
  let p : (x : ℤ) → |x| < 2 ^ 24 → Pt (Flt float32) := fun x hx =>
    { x := (carFl x hx).x, y := (carFl x hx).y, z := ⟨0, Format.Rep.zero⟩, velX := ⟨0, Format.Rep.zero⟩, velY := ⟨0, Format.Rep.zero⟩,
      yaw := (carFl x hx).yaw, valid := true, timestampMicros := 0, length := (carFl x hx).length, width := (carFl x hx).width,
      height := ⟨0, Format.Rep.zero⟩ }
  have hb : ∀ x hx, |x| ≤ 8 → BoxWithin 3 (p x hx) := fun x hx h => by
    have h8 : |(x : ℝ)| ≤ 8 := by exact_mod_cast h
    refine ⟨?_, ?_, ?_, ?_, ?_⟩ <;> simp only [p, carFl] <;> norm_num
    exact h8
  have hT : SaneTrig (exactLibm float32) := fun x => by
    have key : ∀ r : ℝ, |r| ≤ 1 → |float32.fl r| ≤ 1 := fun r hr => by
      have h1 := Format.fl_of_rep (Ieee.rep_one' float32)
      rw [abs_le] at hr ⊢
      constructor
      · rw [← h1, ← Format.fl_neg]
        exact Format.fl_mono hr.1
      · rw [← h1]
        exact Format.fl_mono hr.2
    exact ⟨key _ (Real.abs_sin_le_one _), key _ (Real.abs_cos_le_one _)⟩
  have := (C160_overlap (F := binary32) (L := exactLibm _) hT (B := 3) (by decide) (hb 0 (by norm_num) (by norm_num))
    (hb 3 (by norm_num) (by norm_num))).2 (by
      have hu : float32.u = 2 ^ (-(24 : ℤ)) := rfl
      refine C135_no_miss (K := Kernel.rounded float32) (p := (3 / 2, 0)) (ua := 3 / 2) (va := 0) (ub := -(3 / 2)) (vb := 0) (Kernel.rounded_accurate float32_u) ?_ ?_ ?_ ?_ ?_ ?_
      · simp [p, Pt.boxFl, carFl, pointAt, heading]
      · simp only [overlapMargin, BoxFl.size, p, Pt.boxFl, carFl, hu]
        norm_num
      · simp only [overlapMargin, BoxFl.size, p, Pt.boxFl, carFl, hu]
        norm_num
      · simp [p, Pt.boxFl, carFl, pointAt, heading]
        norm_num
      · simp only [overlapMargin, BoxFl.size, p, Pt.boxFl, carFl, hu]
        norm_num
      · simp only [overlapMargin, BoxFl.size, p, Pt.boxFl, carFl, hu]
        norm_num)
  exact this

/-- A machine number between two bounds. -/
def Bt (a : Ieee binary32) (lo hi : ℝ) : Prop := ∃ r, HasVal a r ∧ lo ≤ r ∧ r ≤ hi

theorem fl_bt {r lo hi : ℝ} (hl : float32.Rep lo) (hh : float32.Rep hi) (h1 : lo ≤ r) (h2 : r ≤ hi) (b1 : -4096 ≤ lo) (b2 : hi ≤ 4096) :
    (lo ≤ float32.fl r ∧ float32.fl r ≤ hi) ∧ |float32.fl r| < 2 ^ binary32.top := by
  have h3 : lo ≤ float32.fl r := by
    rw [← Format.fl_of_rep hl]
    exact Format.fl_mono h1
  have h4 : float32.fl r ≤ hi := by
    rw [← Format.fl_of_rep hh]
    exact Format.fl_mono h2
  refine ⟨⟨h3, h4⟩, ?_⟩
  have : (4096 : ℝ) < 2 ^ binary32.top := by
    show (4096 : ℝ) < 2 ^ 128
    norm_num
  rw [abs_lt]
  constructor <;> linarith

theorem rep32 (k : ℤ) (hk : -149 ≤ k) : float32.Rep ((2 : ℝ) ^ k) := ⟨1, k, by norm_num [float32], hk, by simp⟩

theorem bt_zero : Bt (Ieee.zero binary32) 0 0 := ⟨0, ⟨_, _, rfl, rfl⟩, le_refl _, le_refl _⟩

theorem Bt.eq_zero {a : Ieee binary32} (h : Bt a 0 0) : a = Ieee.zero binary32 := by
  obtain ⟨r, ⟨x, hx, rfl, e⟩, h1, h2⟩ := h
  exact Ieee.fin_congr (Subtype.ext (by rw [e]; exact le_antisymm h2 h1))

theorem bt_ofReal {r lo hi : ℝ} (h1 : lo ≤ r) (h2 : r ≤ hi) (hl : float32.Rep lo) (hh : float32.Rep hi) (b1 : -4096 ≤ lo) (b2 : hi ≤ 4096) :
    Bt (Ieee.ofReal binary32 r) lo hi := by
  obtain ⟨h3, h4⟩ := fl_bt hl hh h1 h2 b1 b2
  exact ⟨_, hasVal_round h4, h3⟩

theorem Bt.add {a b : Ieee binary32} {l h l' h' lo hi : ℝ} (ha : Bt a l h) (hb : Bt b l' h') (h1 : lo ≤ l + l') (h2 : h + h' ≤ hi)
    (hl : float32.Rep lo) (hh : float32.Rep hi) (b1 : -4096 ≤ lo) (b2 : hi ≤ 4096) : Bt (a.add b) lo hi := by
  obtain ⟨r, hr, r1, r2⟩ := ha
  obtain ⟨q, hq, q1, q2⟩ := hb
  obtain ⟨h3, h4⟩ := fl_bt (r := r + q) hl hh (by linarith) (by linarith) b1 b2
  exact ⟨_, hr.add hq h4, h3⟩

theorem Bt.sub {a b : Ieee binary32} {l h l' h' lo hi : ℝ} (ha : Bt a l h) (hb : Bt b l' h') (h1 : lo ≤ l - h') (h2 : h - l' ≤ hi)
    (hl : float32.Rep lo) (hh : float32.Rep hi) (b1 : -4096 ≤ lo) (b2 : hi ≤ 4096) : Bt (a.sub b) lo hi := by
  obtain ⟨r, hr, r1, r2⟩ := ha
  obtain ⟨q, hq, q1, q2⟩ := hb
  obtain ⟨h3, h4⟩ := fl_bt (r := r - q) hl hh (by linarith) (by linarith) b1 b2
  exact ⟨_, hr.sub hq h4, h3⟩

theorem Bt.mul {a b : Ieee binary32} {l h l' h' lo hi : ℝ} (ha : Bt a l h) (hb : Bt b l' h')
    (hm : ∀ r q : ℝ, l ≤ r → r ≤ h → l' ≤ q → q ≤ h' → lo ≤ r * q ∧ r * q ≤ hi)
    (hl : float32.Rep lo) (hh : float32.Rep hi) (b1 : -4096 ≤ lo) (b2 : hi ≤ 4096) : Bt (a.mul b) lo hi := by
  obtain ⟨r, hr, r1, r2⟩ := ha
  obtain ⟨q, hq, q1, q2⟩ := hb
  have := hm r q r1 r2 q1 q2
  obtain ⟨h3, h4⟩ := fl_bt (r := r * q) hl hh this.1 this.2 b1 b2
  exact ⟨_, hr.mul hq h4, h3⟩

theorem Bt.div {a b : Ieee binary32} {l h l' h' lo hi : ℝ} (ha : Bt a l h) (hb : Bt b l' h') (h0 : 0 < l')
    (hm : ∀ r q : ℝ, l ≤ r → r ≤ h → l' ≤ q → q ≤ h' → lo ≤ r / q ∧ r / q ≤ hi)
    (hl : float32.Rep lo) (hh : float32.Rep hi) (b1 : -4096 ≤ lo) (b2 : hi ≤ 4096) : Bt (a.div b) lo hi := by
  obtain ⟨r, hr, r1, r2⟩ := ha
  obtain ⟨q, hq, q1, q2⟩ := hb
  have := hm r q r1 r2 q1 q2
  obtain ⟨h3, h4⟩ := fl_bt (r := r / q) hl hh this.1 this.2 b1 b2
  exact ⟨_, hr.div hq (by linarith) h4, h3⟩

theorem bt_tenth : Bt (Ieee.ofReal binary32 (float64.fl 0.1)) (2 ^ (-4 : ℤ)) 1 := by
  have r : float64.Rep (2 ^ (-4 : ℤ)) := ⟨1, -4, by norm_num [float64], by decide, by simp⟩
  refine bt_ofReal ?_ ?_ (rep32 _ (by norm_num)) (Ieee.rep_one' _) (by norm_num) (by norm_num)
  · rw [← Format.fl_of_rep r]
    exact Format.fl_mono (by norm_num)
  · rw [← Format.fl_of_rep (Ieee.rep_one' float64)]
    exact Format.fl_mono (by norm_num)

theorem bt_two : Bt (Ieee.ofReal binary32 2) 2 2 := by
  have r := rep32 1 (by norm_num)
  norm_num at r
  exact bt_ofReal (le_refl _) (le_refl _) r r (by norm_num) (by norm_num)

theorem bt_one : Bt (Ieee.ofReal binary32 1) 1 1 :=
  bt_ofReal (le_refl _) (le_refl _) (Ieee.rep_one' _) (Ieee.rep_one' _) (by norm_num) (by norm_num)

theorem zero_mul_bt {a : Ieee binary32} {l h : ℝ} (ha : Bt a l h) : (Ieee.zero binary32).mul a = Ieee.zero _ :=
  (bt_zero.mul ha (fun r q h1 h2 _ _ => by
    obtain rfl : r = 0 := le_antisymm h2 h1
    simp) Format.Rep.zero Format.Rep.zero (by norm_num) (by norm_num)).eq_zero

theorem zero_div_bt {a : Ieee binary32} {l h : ℝ} (ha : Bt a l h) (hl : 0 < l) : (Ieee.zero binary32).div a = Ieee.zero _ :=
  (bt_zero.div ha hl (fun r q h1 h2 _ _ => by
    obtain rfl : r = 0 := le_antisymm h2 h1
    simp) Format.Rep.zero Format.Rep.zero (by norm_num) (by norm_num)).eq_zero

theorem zero_add_zero : (Ieee.zero binary32).add (Ieee.zero _) = Ieee.zero _ := Ieee.add_zero_fin _ _

theorem zero_sub_zero : (Ieee.zero binary32).sub (Ieee.zero _) = Ieee.zero _ :=
  (bt_zero.sub bt_zero (by norm_num) (by norm_num) Format.Rep.zero Format.Rep.zero (by norm_num) (by norm_num)).eq_zero

theorem sqrt_zero : (Ieee.zero binary32).sqrt (exactLibm _) = Ieee.zero _ := by
  change (if (0 : ℝ) < 0 then _ else Ieee.ofFlt binary32 (Flt.round _ √0)) = _
  rw [if_neg (lt_irrefl _), Real.sqrt_zero, Ieee.round_rep Format.Rep.zero]
  exact Ieee.ofFlt_small _

theorem car_speed (x : ℤ) (hx : |x| < 2 ^ 24) : (carIe x hx (Ieee.zero _) true).speedIe (exactLibm _) = Ieee.zero _ := by
  change (((Ieee.zero binary32).mul (Ieee.zero _)).add ((Ieee.zero binary32).mul (Ieee.zero _))).sqrt (exactLibm _) = _
  rw [zero_mul_bt bt_zero, zero_add_zero, sqrt_zero]

variable {pw : Ieee binary32 → Ieee binary32}

theorem bt_comfort : Bt ((Ieee.ofReal binary32 2).mul ((Ieee.ofReal binary32 (float64.fl (2 * 4))).sqrt (exactLibm _))) 4 8 := by
  have r4 := rep32 2 (by norm_num)
  have r8 := rep32 3 (by norm_num)
  have r2 := rep32 1 (by norm_num)
  norm_num at r4 r8 r2
  have r8' : float64.Rep 8 := by
    have : float64.Rep ((2 : ℝ) ^ (3 : ℤ)) := ⟨1, 3, by norm_num [float64], by decide, by simp⟩
    norm_num at this
    exact this
  rw [show (2 * 4 : ℝ) = 8 by norm_num, Format.fl_of_rep r8', Ieee.ofReal_rep (F := binary32) r8 (by norm_num)]
  have hs : Bt ((Ieee.fin ⟨8, r8⟩ (lt_of_lt_of_le (by norm_num) (Ieee.two_pow_top binary32)) : Ieee binary32).sqrt (exactLibm _)) 2 4 := by
    change Bt (if (8 : ℝ) < 0 then _ else Ieee.ofReal binary32 √8) 2 4
    rw [if_neg (by norm_num)]
    refine bt_ofReal ?_ ?_ r2 r4 (by norm_num) (by norm_num)
    · exact Real.le_sqrt_of_sq_le (by norm_num)
    · exact Real.sqrt_le_iff.2 ⟨by norm_num, by norm_num⟩
  exact bt_two.mul hs (fun r q h1 h2 h3 h4 => by
    obtain rfl : r = 2 := le_antisymm h2 h1
    constructor <;> linarith) r4 r8 (by norm_num) (by norm_num)

/-- Braking for a car that stands in the same place: the acceleration is negative. -/
theorem formula_brakes (hpw : pw (Ieee.zero _) = Ieee.zero _) :
    Bt (idmFormulaIe (exactLibm _) pw nearIdm (Ieee.zero binary32) (Ieee.zero _) (Ieee.zero _)) (-2048) (-4) := by
  have rp : ∀ k : ℕ, float32.Rep ((2 : ℝ) ^ k) := fun k => by
    have := rep32 k (by omega)
    rwa [zpow_natCast] at this
  have r2 := rp 1
  have r4 := rp 2
  have r32 := rp 5
  have r1024 := rp 10
  have r2048 := rp 11
  norm_num at r2 r4 r32 r1024 r2048
  have hne : (Ieee.zero binary32).eq (Ieee.ofReal _ (-1)) = false := by
    rw [Ieee.ofReal_rep (Ieee.rep_one' _).neg (by norm_num)]
    simp [Ieee.eq, Ieee.zero]
  have h30 : Bt (Ieee.ofReal binary32 30) 16 32 := by
    have := rp 4
    norm_num at this
    exact bt_ofReal (by norm_num) (by norm_num) this r32 (by norm_num) (by norm_num)
  have hmax : (Ieee.ofReal binary32 0).max (Ieee.zero _) = Ieee.zero _ := by
    rw [Ieee.ofReal_zero]
    unfold Ieee.max
    rw [if_neg (by simp [Ieee.isNan, Ieee.zero])]
    split <;> rfl
  have heq : (Ieee.zero binary32).eq (Ieee.ofReal _ 0) = true := by
    rw [Ieee.ofReal_zero]
    exact Ieee.eq_self nofun
  unfold idmFormulaIe nearIdm
  simp only [hne, heq, Bool.or_false, if_true, zero_sub_zero, zero_mul_bt bt_zero, zero_mul_bt bt_two, zero_div_bt bt_comfort (by norm_num),
    zero_add_zero, hmax, zero_div_bt h30 (by norm_num), hpw]
  have hs : Bt ((Ieee.ofReal binary32 2).add (Ieee.zero _)) 2 2 := bt_two.add bt_zero (by norm_num) (by norm_num) r2 r2 (by norm_num) (by norm_num)
  have hr : Bt (((Ieee.ofReal binary32 2).add (Ieee.zero _)).div (Ieee.ofReal binary32 (float64.fl 0.1))) 2 32 :=
    hs.div bt_tenth (by positivity) (fun r q h1 h2 h3 h4 => by
      obtain rfl : r = 2 := le_antisymm h2 h1
      have hq : (0 : ℝ) < q := lt_of_lt_of_le (by positivity) h3
      norm_num at h3
      constructor
      · rw [le_div_iff₀ hq]
        linarith
      · rw [div_le_iff₀ hq]
        linarith) r2 r32 (by norm_num) (by norm_num)
  have hq : Bt ((((Ieee.ofReal binary32 2).add (Ieee.zero _)).div (Ieee.ofReal binary32 (float64.fl 0.1))).mul
      (((Ieee.ofReal binary32 2).add (Ieee.zero _)).div (Ieee.ofReal binary32 (float64.fl 0.1)))) 4 1024 :=
    hr.mul hr (fun r q h1 h2 h3 h4 => by constructor <;> nlinarith) r4 r1024 (by norm_num) (by norm_num)
  have h1 : Bt ((Ieee.ofReal binary32 1).sub (Ieee.zero _)) 1 1 :=
    bt_one.sub bt_zero (by norm_num) (by norm_num) (Ieee.rep_one' _) (Ieee.rep_one' _) (by norm_num) (by norm_num)
  have h2 := h1.sub hq (lo := -1024) (hi := -2) (by norm_num) (by norm_num) r1024.neg r2.neg (by norm_num) (by norm_num)
  exact bt_two.mul h2 (fun r q h1 h2 h3 h4 => by
    obtain rfl : r = 2 := le_antisymm h2 h1
    constructor <;> linarith) r2048.neg r4.neg (by norm_num) (by norm_num)

theorem okThen {β γ : Type} (a : β) (f : β → Except Err γ) : (Except.ok a >>= f) = f a := rfl

theorem lookahead_near (log : Fin 1 → Pt (Ieee binary32)) (cur : Pt (Ieee binary32)) : idmLookaheadIe (exactLibm _) nearIdm log cur = .ok [cur] := by
  unfold idmLookaheadIe nearIdm findReferenceIe
  simp [dynSlice]
  rfl

theorem min_zero_top : Ieee.minList [Ieee.inf false, Ieee.zero binary32, .inf false] = Ieee.zero _ := by
  simp [Ieee.minList, Ieee.min, Ieee.isNan, Ieee.lt, Ieee.zero]

theorem min_top_zero : Ieee.minList [Ieee.zero binary32] = Ieee.zero _ := by
  simp [Ieee.minList, Ieee.min, Ieee.isNan, Ieee.lt, Ieee.zero]

/-- With the third car gone the agent stays where it is. -/
theorem hidden_stays (hpw : pw (Ieee.zero _) = Ieee.zero _) :
    idmUpdateSpeedIe (exactLibm _) pw nearIdm (hiddenScen true false) 0 = .ok (Ieee.zero _) := by
  have h0 : currentPt (hiddenScen true false) 0 = carIe 0 (by norm_num) (Ieee.zero _) true := rfl
  have h1 : currentPt (hiddenScen true false) 1 = carIe 3 (by norm_num) (Ieee.zero _) true := rfl
  have h2 : (currentPt (hiddenScen true false) 2).valid = false := rfl
  have c1 : idmCollisionIe (exactLibm _) (currentPt (hiddenScen true false)) 0 (carIe 0 (by norm_num) (Ieee.zero _) true) 1 = true := by
    unfold idmCollisionIe
    rw [h1]
    simpa [carIe] using car_overlap (Ieee.zero _) (Ieee.zero _) true true
  have hv : List.ofFn (velAt (exactLibm _) (currentPt (hiddenScen true false)) 0 (carIe 0 (by norm_num) (Ieee.zero _) true)) =
      [.inf false, Ieee.zero _, .inf false] := by
    simp only [List.ofFn_succ, List.ofFn_zero, List.cons.injEq, and_true]
    refine ⟨?_, ?_, ?_⟩
    · unfold velAt
      rw [collision_ne]
      simp
    · change velAt _ _ _ _ 1 = _
      unfold velAt
      rw [c1, h1, car_speed]
      simp [carIe]
    · change velAt _ _ _ _ 2 = _
      unfold velAt
      rw [h2]
      simp
  have hz : (Ieee.zero binary32).isFinite = true := rfl
  rw [updateSpeed_eq, h0, car_speed]
  have ha : idmAccelIe (exactLibm _) pw nearIdm (hiddenScen true false).logTrajectory (currentPt (hiddenScen true false)) 0 =
      .ok (idmFormulaIe (exactLibm _) pw nearIdm (Ieee.zero binary32) (Ieee.zero _) (Ieee.zero _)) := by
    unfold idmAccelIe
    rw [h0, lookahead_near]
    simp only [leadVel_eq, okThen, List.length_singleton, one_ne_zero, if_false, List.map_cons, List.map_nil, hv, min_zero_top, hz, if_true,
      cumsumFromIe, Ieee.ofReal_zero, zero_add_zero, List.zipWith_cons_cons, List.zipWith_nil_left, min_top_zero, car_speed]
    unfold computeLeadDistanceIe
    have hd : dist3Ie (exactLibm _) (carIe 0 (by norm_num) (Ieee.zero _) true) (carIe 0 (by norm_num) (Ieee.zero _) true) = Ieee.zero binary32 := by
      have e : ∀ q : Flt binary32.fmt, q.val = 0 → (Ieee.ofFlt binary32 q).sub (Ieee.ofFlt binary32 q) = Ieee.zero _ := fun q hq => by
        obtain rfl : q = ⟨0, Format.Rep.zero⟩ := Subtype.ext hq
        rw [Ieee.ofFlt_small (F := binary32) (x := ⟨0, Format.Rep.zero⟩) (by simp)]
        exact zero_sub_zero
      unfold dist3Ie
      have hx : ((carIe 0 (by norm_num) (Ieee.zero _) true).x).sub (carIe 0 (by norm_num) (Ieee.zero _) true).x = Ieee.zero _ :=
        e (carFl 0 (by norm_num)).x (by simp [carFl])
      have hy : ((carIe 0 (by norm_num) (Ieee.zero _) true).y).sub (carIe 0 (by norm_num) (Ieee.zero _) true).y = Ieee.zero _ :=
        e (carFl 0 (by norm_num)).y (by simp [carFl])
      have hz : ((carIe 0 (by norm_num) (Ieee.zero _) true).z).sub (carIe 0 (by norm_num) (Ieee.zero _) true).z = Ieee.zero _ := zero_sub_zero
      simp only [hx, hy, hz]
      rw [zero_mul_bt bt_zero, zero_add_zero, zero_add_zero, sqrt_zero]
    have hany : (List.ofFn fun j => idmCollisionIe (exactLibm _) (currentPt (hiddenScen true false)) 0 (carIe 0 (by norm_num) (Ieee.zero _) true) j).any id = true := by
      rw [List.any_eq_true]
      exact ⟨true, List.mem_ofFn.2 ⟨1, c1⟩, rfl⟩
    simp only [List.map_cons, List.map_nil, hany, if_true, hd, min_top_zero, hz]
    rfl
  rw [ha]
  have hb := bt_tenth.mul (formula_brakes hpw) (lo := -2048) (hi := -(2 ^ (-2 : ℤ))) (fun r q h1 h2 h3 h4 => by
    norm_num at h1 ⊢
    constructor <;> nlinarith) (by
      have := (rep32 11 (by norm_num)).neg
      norm_num at this
      exact this) (rep32 (-2) (by norm_num)).neg (by norm_num) (by norm_num)
  have hb' := bt_zero.add hb (lo := -2048) (hi := -(2 ^ (-2 : ℤ))) (by norm_num) (by norm_num) (by
      have := (rep32 11 (by norm_num)).neg
      norm_num at this
      exact this) (rep32 (-2) (by norm_num)).neg (by norm_num) (by norm_num)
  obtain ⟨r, ⟨x, hx, e, ex⟩, -, hr⟩ := hb'
  have hlt : ((Ieee.zero binary32).add ((Ieee.ofReal binary32 (float64.fl 0.1)).mul
      (idmFormulaIe (exactLibm _) pw nearIdm (Ieee.zero binary32) (Ieee.zero _) (Ieee.zero _)))).lt (Ieee.ofReal _ 0) = true := by
    rw [e, Ieee.ofReal_zero]
    simp only [Ieee.lt, Ieee.zero, decide_eq_true_eq]
    rw [ex]
    exact lt_of_le_of_lt hr (by norm_num)
  simp only [okThen]
  rw [if_pos hlt, Ieee.ofReal_zero]
  rfl

/-- With the third car there the agent starts to move: it is as if it were alone. -/
theorem hidden_starts (hpw : pw (Ieee.zero _) = Ieee.zero _) :
    ∃ v, idmUpdateSpeedIe (exactLibm _) pw nearIdm (hiddenScen true true) 0 = .ok v ∧ Bt v (2 ^ (-3 : ℤ)) 2 := by
  have h0 : currentPt (hiddenScen true true) 0 = carIe 0 (by norm_num) (Ieee.zero _) true := rfl
  have h1 : ∀ w, (Ieee.minList (List.ofFn (velAt (exactLibm _) (currentPt (hiddenScen true true)) 0 w))).isFinite = false := fun w => by
    by_cases hw : idmCollisionIe (exactLibm _) (currentPt (hiddenScen true true)) 0 w 2 = true
    · rw [Ieee.minList_mem_nan]
      · rfl
      · refine List.mem_ofFn.2 ⟨2, ?_⟩
        unfold velAt
        rw [hw, speed_nan rfl (.inl rfl)]
        rfl
    · have hw1 : ¬ idmCollisionIe (exactLibm _) (currentPt (hiddenScen true true)) 0 w 1 = true := hw
      rw [Ieee.minList_top]
      · rfl
      · intro a hm
        obtain ⟨k, rfl⟩ := List.mem_ofFn.1 hm
        unfold velAt
        rw [if_neg (c := idmCollisionIe (exactLibm _) (currentPt (hiddenScen true true)) 0 w k = true)]
        · simp
        · fin_cases k
          · simp [collision_ne]
          · exact hw1
          · exact hw
  rw [updateSpeed_eq, h0, car_speed]
  unfold idmAccelIe
  rw [h0, lookahead_near]
  refine ⟨_, rfl, ?_⟩
  rw [leadVel_unknown h1, formula_unknown (F := binary32) (by decide) _ _ (leadDist_finite _ _ _)]
  have h30 : Bt (Ieee.ofReal binary32 30) 16 32 := by
    have r := rep32 4 (by norm_num)
    have r' := rep32 5 (by norm_num)
    norm_num at r r'
    exact bt_ofReal (by norm_num) (by norm_num) r r' (by norm_num) (by norm_num)
  have r2 := rep32 1 (by norm_num)
  norm_num at r2
  rw [car_speed, Ieee.ofReal_zero, zero_mul_bt bt_zero]
  have hd : nearIdm.desiredVel = 30 := rfl
  have hm : nearIdm.maxAccel = 2 := rfl
  simp only [hd, hm, zero_div_bt h30 (by norm_num), hpw]
  have a1 := bt_one.sub bt_zero (lo := 1) (hi := 1) (by norm_num) (by norm_num) (Ieee.rep_one' _) (Ieee.rep_one' _) (by norm_num) (by norm_num)
  have a2 := a1.sub bt_zero (lo := 1) (hi := 1) (by norm_num) (by norm_num) (Ieee.rep_one' _) (Ieee.rep_one' _) (by norm_num) (by norm_num)
  have a3 := bt_two.mul a2 (lo := 2) (hi := 2) (fun r q h1 h2 h3 h4 => by
    obtain rfl : r = 2 := le_antisymm h2 h1
    constructor <;> linarith) r2 r2 (by norm_num) (by norm_num)
  have a4 := bt_tenth.mul a3 (lo := 2 ^ (-3 : ℤ)) (hi := 2) (fun r q h1 h2 h3 h4 => by
    obtain rfl : q = 2 := le_antisymm h4 h3
    norm_num at h1 ⊢
    constructor <;> linarith) (rep32 _ (by norm_num)) r2 (by norm_num) (by norm_num)
  have a5 := bt_zero.add a4 (lo := 2 ^ (-3 : ℤ)) (hi := 2) (by norm_num) (by norm_num) (rep32 _ (by norm_num)) r2 (by norm_num) (by norm_num)
  obtain ⟨r, ⟨x, hx, e, ex⟩, hr, hr'⟩ := a5
  rw [e, if_neg]
  · exact ⟨r, ⟨x, hx, rfl, ex⟩, hr, hr'⟩
  · simp only [Ieee.lt, Ieee.zero, decide_eq_true_eq, not_lt]
    rw [ex]
    exact le_trans (by positivity) hr

/-- The full expectation fails in single precision: an agent that stands behind a stopped car starts to drive into it when a second object in
that car's place has an unknown speed. -/
theorem C180_violated (hpw : pw (Ieee.zero _) = Ieee.zero _) : ¬ BrokenObjectsIgnored binary32 (exactLibm _) pw := fun h => by
  have h1 := h 3 1 inferInstance nearIdm (hiddenScen true true) (hiddenScen true false) 0 2 (by decide) (.inr (.inl rfl))
    ⟨fun k hk => by
      have hk2 : k ≠ 2 := hk
      refine ⟨?_, rfl, rfl, rfl⟩
      funext t
      fin_cases k
      · rfl
      · rfl
      · exact absurd rfl hk2, rfl⟩
  obtain ⟨v, hv, r, ⟨x, hx, rfl, ex⟩, hr, -⟩ := hidden_starts hpw
  rw [hidden_stays hpw, hv] at h1
  injection h1 with h1
  have h2 : x.val = 0 := congrArg (fun a : Ieee binary32 => match a with | .fin x _ => x.val | _ => 0) h1
  rw [ex] at h2
  rw [h2] at hr
  exact absurd hr (by norm_num)

/-! ### The hypotheses are met -/

/-- The power of a library that rounds correctly leaves zero alone. -/
example : ∃ pw : Ieee binary32 → Ieee binary32, pw (Ieee.zero _) = Ieee.zero _ ∧ ¬ BrokenObjectsIgnored binary32 (exactLibm _) pw :=
  ⟨fun a => (a.mul a).mul (a.mul a), by simp only [zero_mul_bt bt_zero], C180_violated (by simp only [zero_mul_bt bt_zero])⟩

/-- The agent behind the hidden car drives as if it were alone, with any parameters. -/
example (P : IdmParams) : idmUpdateSpeedIe (exactLibm _) pw P (hiddenScen true true) 0 = idmUpdateSpeedIe (exactLibm _) pw P (hiddenScen false false) 0 := by
  refine C180_hidden_exact (F := binary32) (by decide) P (fun k hk _ => ⟨2, by decide, rfl, .inl rfl, ?_⟩) ⟨⟨rfl, rfl, rfl, rfl⟩, fun k hk => ?_⟩
  · fin_cases k
    · exact absurd rfl hk
    · rfl
    · rfl
  · fin_cases k
    · exact absurd rfl hk
    · rfl
    · rfl

/-- A car at a position that is not a number is driven through as if it were not there. -/
example (P : IdmParams) (p : Pt (Ieee binary32)) (hp : p.x = .nan) (s : SimState (Ieee binary32) 3 1) (hs : s.simTrajectory 2 0 = p) (ht : s.timestep = 0)
    {s' : SimState (Ieee binary32) 3 1} (h : Removed 2 s s') : idmUpdateSpeedIe (exactLibm _) pw P s 0 = idmUpdateSpeedIe (exactLibm _) pw P s' 0 := by
  refine C180_pose_partial P (by decide) (.inl (.inl ?_)) h
  have : currentPt s 2 = p := by
    unfold currentPt
    rw [ht, ← hs]
    rfl
  rw [this, hp]
  rfl

end

end Waymax
