import Verif.Props.WrapMachine
import Verif.Props.Delta
/-
C133: expert rollouts with DeltaGlobal in machine arithmetic: rounding errors do not accumulate.
-/

namespace Waymax

section
variable {α D M R K Q : Type} [ScalarOps α] {n T : Nat} [NeZero T]

/-- If being near the log (`N t x y yaw`) holds of logged poses and is carried from one step to the next by the expert action, then
the whole expert rollout is near the log. -/
theorem expert_keeps {d : DynamicsModel α D n} {cfg : EnvConfig} {metrics : SimState α n T → Except Err M}
    {reward : SimState α n T → (Fin n → Act D) → Except Err R}
    {mask : SimState α n T → Fin n → Bool} {split : K → K × K} {params : Q}
    {zerosLike : (Fin n → Act D) → (Fin n → Act D)} {scen : SimState α n T} {rng : K} {N : Nat}
    {out : List (RolloutEntry (SimState α n T) (Fin n → Act D) (SimState α n T) M R)}
    (h : rollout (baseEnv d cfg metrics reward) (expertActor d mask) split params zerosLike scen rng N = .ok out)
    (hw : 1 ≤ cfg.initSteps) (hfit : cfg.initSteps + N ≤ T) (i : Fin n) (Near : Fin T → α → α → α → Prop)
    (hself : ∀ t, Near t (scen.logTrajectory i t).x (scen.logTrajectory i t).y (scen.logTrajectory i t).yaw)
    (hlv : ∀ t : Fin T, cfg.initSteps ≤ (t : Nat) + 1 → (scen.logTrajectory i t).valid = true)
    (htrack : ∀ (t t' : Fin T) (cur : Fin n → Pt α), (t' : Nat) = t + 1 → cfg.initSteps ≤ (t' : Nat) →
      (cur i).valid = true → Near t (cur i).x (cur i).y (cur i).yaw → ∀ md,
      let u := d.computeUpdate
        (d.inverse (T := 2) (fun j s => if s.val = 0 then cur j else scen.logTrajectory j t') md 0) cur i
      Near t' u.x u.y u.yaw)
    (k : Nat) (hk : k < out.length) (t : Fin T) (ht : (t : Int) ≤ out[k].state.timestep) :
    Near t (out[k].state.simTrajectory i t).x (out[k].state.simTrajectory i t).y (out[k].state.simTrajectory i t).yaw := by
  obtain ⟨hN, hlen, hreset, hstep, -, ⟨xs, -, hact⟩, -⟩ := C14_rollout_spec h
  have hact' : ∀ j (hj : j < N), out[j].action = inferExpertAction out[j].state d := fun j hj =>
    ((hact j hj).1).symm
  have key : ∀ j (hj : j ≤ N), out[j].state.logTrajectory = scen.logTrajectory ∧
      out[j].state.timestep = (cfg.initSteps : Int) - 1 + j ∧
      ∀ (t : Fin T), (t : Int) ≤ out[j].state.timestep →
        Near t (out[j].state.simTrajectory i t).x (out[j].state.simTrajectory i t).y (out[j].state.simTrajectory i t).yaw ∧
        (cfg.initSteps ≤ (t : Nat) + 1 → (out[j].state.simTrajectory i t).valid = true) := by
    intro j
    induction j with
    | zero =>
      intro _
      have hr := C01_reset_spec hreset
      refine ⟨hr.2.2.2.log, by simpa using hr.1, ?_⟩
      intro t ht
      have : t.val < cfg.initSteps := by rw [hr.1] at ht; omega
      rw [hr.2.1 i t this]
      exact ⟨hself t, fun h => hlv t h⟩
    | succ j ih =>
      intro hj
      obtain ⟨hlog, hts, ih⟩ := ih (by omega)
      have hst : step d cfg out[j].state out[j].action = .ok out[j + 1].state := hstep j (by omega)
      obtain ⟨m, hm, heq⟩ := step_ok hst
      rw [heq]
      refine ⟨hlog, by simp only [hts]; omega, ?_⟩
      intro t ht
      simp only at ht ⊢
      have h1 : ((⟨cfg.initSteps - 1 + j, by omega⟩ : Fin T) : Int) = out[j].state.timestep := by
        rw [hts]; simp only; omega
      have h2 : ((⟨cfg.initSteps + j, by omega⟩ : Fin T) : Int) = out[j].state.timestep + 1 := by
        rw [hts]; simp only; omega
      rw [forward_apply d _ _ _ m _ h1 h2]
      by_cases htt : t = ⟨cfg.initSteps + j, by omega⟩
      · rw [if_pos htt, hact' j (by omega)]
        obtain ⟨ihp, ihv⟩ := ih _ (le_of_eq h1)
        have ihv := ihv (by simp only; omega)
        have := htrack ⟨cfg.initSteps - 1 + j, by omega⟩ ⟨cfg.initSteps + j, by omega⟩
          (fun q => out[j].state.simTrajectory q ⟨cfg.initSteps - 1 + j, by omega⟩) (by simp only; omega) (by simp)
          ihv ihp out[j].state.objectMetadata
        have he : inferExpertAction out[j].state d = d.inverse (T := 2)
            (fun q s => if s.val = 0 then out[j].state.simTrajectory q ⟨cfg.initSteps - 1 + j, by omega⟩
              else scen.logTrajectory q ⟨cfg.initSteps + j, by omega⟩) out[j].state.objectMetadata 0 := by
          unfold inferExpertAction
          simp only [dynIndex_of_eq _ h1, dynIndex_of_eq _ h2, hlog]
        rw [← he] at this
        have hv2 := hlv ⟨cfg.initSteps + j, by omega⟩ (by simp only; omega)
        have hs := hself ⟨cfg.initSteps + j, by omega⟩
        rw [hlog, htt]
        refine ⟨?_, fun _ => ?_⟩
        · cases m i
          · exact hs
          · exact this
        · simp only [updatedPt, nextValid, ihv, hv2]
          cases m i <;> cases cfg.allowNewObjectsAfterWarmup <;> rfl
      · rw [if_neg htt]
        apply ih
        have : t.val ≠ cfg.initSteps + j := fun hh => htt (Fin.ext hh)
        omega
  exact ((key k (by omega)).2.2 t ht).1

end

/-! ### One step -/

section
variable {φ : Format}

theorem clip_of_mem {x hi : Flt φ} (h : |x.val| ≤ hi.val) : x.clip hi.neg hi = x := by
  rw [abs_le] at h
  unfold Flt.clip
  rw [max_eq_left (show hi.neg ≤ x from h.1), min_eq_left (show x ≤ hi from h.2)]

/-- The command computed for a displacement, executed: one coordinate after one step. -/
noncomputable def replayed (P cur next : Flt φ) : Flt φ := cur.add ((next.sub cur).clip P.neg P)

theorem sub_mem {P cur next : Flt φ} (h : |next.val - cur.val| ≤ P.val) : |(next.sub cur).val| ≤ P.val := by
  rw [abs_le] at h ⊢
  exact ⟨Format.le_fl_of_rep P.property.neg h.1, Format.fl_le_of_rep P.property h.2⟩

/-- A displacement within the bound is executed up to the rounding of two operations. -/
theorem replayed_close {P cur next : Flt φ} (h : |next.val - cur.val| ≤ P.val) :
    |(replayed P cur next).val - next.val| ≤ φ.u * (|next.val| + (1 + φ.u) * P.val) := by
  have hu := φ.u_pos
  unfold replayed
  rw [clip_of_mem (sub_mem h)]
  obtain ⟨a, ha⟩ : ∃ a, a = next.sub cur := ⟨_, rfl⟩
  rw [← ha]
  have e1 : |a.val - (next.val - cur.val)| ≤ φ.u * P.val := by
    rw [ha]
    exact (Format.fl_sub_rel next.property cur.property).trans (mul_le_mul_of_nonneg_left h hu.le)
  have e2 : |cur.val + a.val| ≤ |next.val| + φ.u * P.val := by
    rw [show cur.val + a.val = next.val + (a.val - (next.val - cur.val)) by ring]
    exact (abs_add_le _ _).trans (by linarith)
  have e3 : |(cur.add a).val - (cur.val + a.val)| ≤ φ.u * (|next.val| + φ.u * P.val) :=
    (Format.fl_add_rel cur.property a.property).trans (mul_le_mul_of_nonneg_left e2 hu.le)
  have : |(cur.add a).val - next.val| ≤ |(cur.add a).val - (cur.val + a.val)| + |a.val - (next.val - cur.val)| := by
    rw [show (cur.add a).val - next.val = ((cur.add a).val - (cur.val + a.val)) + (a.val - (next.val - cur.val)) by ring]
    exact abs_add_le _ _
  nlinarith

/-- A displacement within the bound that is a number of the format is executed exactly. -/
theorem replayed_exact {P cur next : Flt φ} (h : |next.val - cur.val| ≤ P.val) (hrep : φ.Rep (next.val - cur.val)) :
    replayed P cur next = next := by
  unfold replayed
  rw [clip_of_mem (sub_mem h)]
  apply Subtype.ext
  show φ.fl (cur.val + φ.fl (next.val - cur.val)) = next.val
  rw [Format.fl_of_rep hrep, add_sub_cancel, Format.fl_of_rep next.property]

/-- The heading after one step of the replay: the wanted heading up to full turns and a few rounding units. -/
theorem yaw_replayed (cur next : Flt φ) (hn : |next.val| ≤ (Flt.pi φ).val) :
    let new := cur.add (next.sub cur).wrapYaws
    ∃ k : ℤ, |new.val - (next.val - k * (2 * (Flt.pi φ).val))| ≤ φ.u * (9 * (Flt.pi φ).val + 7 * |new.val|) := by
  intro new
  have hu := φ.u_pos
  have hu4 : φ.u ≤ 1 / 4 := by
    have h2 := φ.two_le
    unfold Format.u
    rw [show (1 / 4 : ℝ) = 2 ^ (-2 : ℤ) by norm_num]
    exact zpow_le_zpow_right₀ (by norm_num) (by omega)
  obtain ⟨p, hp⟩ : ∃ p, p = (Flt.pi φ).val := ⟨_, rfl⟩
  have hp0 : 0 < p := hp ▸ Flt.pi_pos
  obtain ⟨d, hd⟩ : ∃ d, d = next.sub cur := ⟨_, rfl⟩
  obtain ⟨w, hw⟩ : ∃ w, w = d.wrapYaws := ⟨_, rfl⟩
  have hnew : new = cur.add w := by
    rw [hw, hd]
  obtain ⟨k, hk⟩ := C132_same_angle d
  rw [← hw, ← hp] at hk
  obtain ⟨w0, w1⟩ := C132_range d
  rw [← hw, ← hp] at w0 w1
  have hwa : |w.val| ≤ p := abs_le.2 ⟨w0, w1⟩
  rw [← hp] at hn
  refine ⟨k, ?_⟩
  rw [← hp]
  -- sizes
  have c0 := abs_nonneg cur.val
  have hnc : |next.val - cur.val| ≤ p + |cur.val| := (abs_sub _ _).trans (by linarith)
  have ed : |d.val - (next.val - cur.val)| ≤ φ.u * (p + |cur.val|) := by
    rw [hd]
    exact (Format.fl_sub_rel next.property cur.property).trans (mul_le_mul_of_nonneg_left hnc hu.le)
  have hda : |d.val| ≤ (1 + φ.u) * (p + |cur.val|) := by
    rw [show d.val = (d.val - (next.val - cur.val)) + (next.val - cur.val) by ring]
    exact (abs_add_le _ _).trans (by linarith)
  have e3 : |new.val - (cur.val + w.val)| ≤ φ.u * |cur.val + w.val| := by
    rw [hnew]
    exact Format.fl_add_rel cur.property w.property
  have hcw : |cur.val + w.val| ≤ 4 / 3 * |new.val| := by
    have : |cur.val + w.val| ≤ |new.val| + φ.u * |cur.val + w.val| := by
      rw [show cur.val + w.val = new.val - (new.val - (cur.val + w.val)) by ring]
      refine (abs_sub _ _).trans ?_
      have : new.val - (new.val - (cur.val + w.val)) = cur.val + w.val := by ring
      rw [this]
      linarith
    nlinarith [abs_nonneg (cur.val + w.val)]
  have hc : |cur.val| ≤ 4 / 3 * |new.val| + p := by
    rw [show cur.val = (cur.val + w.val) - w.val by ring]
    refine (abs_sub _ _).trans ?_
    linarith
  have hsum : |new.val - (next.val - k * (2 * p))| ≤
      φ.u * |cur.val + w.val| + φ.u * (|d.val| + 4 * p) + φ.u * (p + |cur.val|) := by
    rw [show new.val - (next.val - k * (2 * p)) = (new.val - (cur.val + w.val)) + (w.val - (d.val - k * (2 * p))) +
      (d.val - (next.val - cur.val)) by ring]
    exact (abs_add_three _ _ _).trans (by linarith)
  refine hsum.trans ?_
  rw [← mul_add, ← mul_add]
  apply mul_le_mul_of_nonneg_left _ hu.le
  have n0 := abs_nonneg new.val
  nlinarith

end

/-! ### Whole rollouts -/

section
variable {φ : Format} {M R K Q : Type} {n T : Nat} [NeZero T]

/-- One object of one step of the replay. -/
theorem delta_step (P : DeltaParamsFl φ) (cur : Fin n → Pt (Flt φ)) (next : Fin n → Pt (Flt φ)) (md : Fin n → ObjMeta) (i : Fin n)
    (hc : (cur i).valid = true) (hn : (next i).valid = true) :
    let u := (deltaGlobalFl P).computeUpdate
      ((deltaGlobalFl P).inverse (T := 2) (fun j s => if s.val = 0 then cur j else next j) md 0) cur i
    u.x = replayed P.maxDx (cur i).x (next i).x ∧ u.y = replayed P.maxDy (cur i).y (next i).y ∧
      u.yaw = (cur i).yaw.add ((next i).yaw.sub (cur i).yaw).wrapYaws := by
  have hw : window2 (T := 2) (fun s => if s.val = 0 then cur i else next i) 0 = (cur i, next i) := by
    unfold window2
    rw [dif_pos le_rfl]
    rfl
  simp only [deltaGlobalFl, DynamicsModel.ofSingle, deltaUpdateFl, deltaInverseFl, hw, hc, hn, Bool.and_self, if_true, deltaClipFl]
  exact ⟨rfl, rfl, trivial⟩

/-- C133: in machine arithmetic, an expert rollout with `DeltaGlobal` keeps an object at its logged pose up to the rounding of a
single step, however long the rollout is. `B` bounds the logged coordinates; the log moves by at most the bounds of the action space,
less that rounding; logged headings are wrapped. -/
theorem C133_no_drift {P : DeltaParamsFl φ} {cfg : EnvConfig} {metrics : SimState (Flt φ) n T → Except Err M}
    {reward : SimState (Flt φ) n T → (Fin n → Act (Delta3Fl φ)) → Except Err R}
    {mask : SimState (Flt φ) n T → Fin n → Bool} {split : K → K × K} {params : Q}
    {zerosLike : (Fin n → Act (Delta3Fl φ)) → (Fin n → Act (Delta3Fl φ))} {scen : SimState (Flt φ) n T} {rng : K} {N : Nat}
    {out : List (RolloutEntry (SimState (Flt φ) n T) (Fin n → Act (Delta3Fl φ)) (SimState (Flt φ) n T) M R)}
    (h : rollout (baseEnv (deltaGlobalFl P) cfg metrics reward) (expertActor (deltaGlobalFl P) mask) split params zerosLike
      scen rng N = .ok out)
    (hw : 1 ≤ cfg.initSteps) (hfit : cfg.initSteps + N ≤ T) (i : Fin n)
    (hlv : ∀ t : Fin T, cfg.initSteps ≤ (t : Nat) + 1 → (scen.logTrajectory i t).valid = true)
    (hPx : 0 ≤ P.maxDx.val) (hPy : 0 ≤ P.maxDy.val) {B : ℝ} (hB : ∀ t : Fin T, |(scen.logTrajectory i t).x.val| ≤ B ∧ |(scen.logTrajectory i t).y.val| ≤ B ∧
      |(scen.logTrajectory i t).yaw.val| ≤ (Flt.pi φ).val)
    (hlog : ∀ t t' : Fin T, (t' : Nat) = t + 1 → cfg.initSteps ≤ (t' : Nat) →
      |(scen.logTrajectory i t').x.val - (scen.logTrajectory i t).x.val| + φ.u * (B + (1 + φ.u) * P.maxDx.val) ≤ P.maxDx.val ∧
      |(scen.logTrajectory i t').y.val - (scen.logTrajectory i t).y.val| + φ.u * (B + (1 + φ.u) * P.maxDy.val) ≤ P.maxDy.val)
    (k : Nat) (hk : k < out.length) (t : Fin T) (ht : (t : Int) ≤ out[k].state.timestep) :
    let p := out[k].state.simTrajectory i t
    let q := scen.logTrajectory i t
    |p.x.val - q.x.val| ≤ φ.u * (B + (1 + φ.u) * P.maxDx.val) ∧ |p.y.val - q.y.val| ≤ φ.u * (B + (1 + φ.u) * P.maxDy.val) ∧
      ∃ j : ℤ, |p.yaw.val - (q.yaw.val - j * (2 * (Flt.pi φ).val))| ≤ φ.u * (9 * (Flt.pi φ).val + 7 * |p.yaw.val|) := by
  intro p q
  have hu := φ.u_pos
  have hp := Flt.pi_pos (φ := φ)
  have hB0 : 0 ≤ B := (abs_nonneg _).trans (hB 0).1
  refine expert_keeps h hw hfit i (fun t x y yaw =>
    |x.val - (scen.logTrajectory i t).x.val| ≤ φ.u * (B + (1 + φ.u) * P.maxDx.val) ∧
    |y.val - (scen.logTrajectory i t).y.val| ≤ φ.u * (B + (1 + φ.u) * P.maxDy.val) ∧
    ∃ j : ℤ, |yaw.val - ((scen.logTrajectory i t).yaw.val - j * (2 * (Flt.pi φ).val))| ≤
      φ.u * (9 * (Flt.pi φ).val + 7 * |yaw.val|)) ?_ hlv ?_ k hk t ht
  · intro t
    refine ⟨?_, ?_, 0, ?_⟩
    · rw [sub_self, abs_zero]
      positivity
    · rw [sub_self, abs_zero]
      positivity
    · rw [Int.cast_zero, zero_mul, sub_zero, sub_self, abs_zero]
      positivity
  · rintro t t' cur htt hi hv ⟨hx, hy, -⟩ md
    obtain ⟨lx, ly⟩ := hlog t t' htt hi
    obtain ⟨ux, uy, uyaw⟩ := delta_step P cur (fun j => scen.logTrajectory j t') md i hv (hlv t' (by omega))
    intro u
    rw [ux, uy, uyaw]
    obtain ⟨bx, b_y, byaw⟩ := hB t'
    have near {a b c e : ℝ} (h1 : |a - b| ≤ e) : |c - a| ≤ |c - b| + e := by
      rw [show c - a = (c - b) - (a - b) by ring]
      exact (abs_sub _ _).trans (by linarith)
    refine ⟨?_, ?_, yaw_replayed _ _ byaw⟩
    · refine (replayed_close ((near hx).trans lx)).trans (mul_le_mul_of_nonneg_left ?_ hu.le)
      linarith
    · refine (replayed_close ((near hy).trans ly)).trans (mul_le_mul_of_nonneg_left ?_ hu.le)
      linarith

/-- C133: if, moreover, the logged displacements are numbers of the format, positions are replayed exactly, bit by bit. -/
theorem C133_exact {P : DeltaParamsFl φ} {cfg : EnvConfig} {metrics : SimState (Flt φ) n T → Except Err M}
    {reward : SimState (Flt φ) n T → (Fin n → Act (Delta3Fl φ)) → Except Err R}
    {mask : SimState (Flt φ) n T → Fin n → Bool} {split : K → K × K} {params : Q}
    {zerosLike : (Fin n → Act (Delta3Fl φ)) → (Fin n → Act (Delta3Fl φ))} {scen : SimState (Flt φ) n T} {rng : K} {N : Nat}
    {out : List (RolloutEntry (SimState (Flt φ) n T) (Fin n → Act (Delta3Fl φ)) (SimState (Flt φ) n T) M R)}
    (h : rollout (baseEnv (deltaGlobalFl P) cfg metrics reward) (expertActor (deltaGlobalFl P) mask) split params zerosLike
      scen rng N = .ok out)
    (hw : 1 ≤ cfg.initSteps) (hfit : cfg.initSteps + N ≤ T) (i : Fin n)
    (hlv : ∀ t : Fin T, cfg.initSteps ≤ (t : Nat) + 1 → (scen.logTrajectory i t).valid = true)
    (hlog : ∀ t t' : Fin T, (t' : Nat) = t + 1 → cfg.initSteps ≤ (t' : Nat) →
      let p := scen.logTrajectory i t
      let q := scen.logTrajectory i t'
      (|q.x.val - p.x.val| ≤ P.maxDx.val ∧ φ.Rep (q.x.val - p.x.val)) ∧ |q.y.val - p.y.val| ≤ P.maxDy.val ∧ φ.Rep (q.y.val - p.y.val))
    (k : Nat) (hk : k < out.length) (t : Fin T) (ht : (t : Int) ≤ out[k].state.timestep) :
    (out[k].state.simTrajectory i t).x = (scen.logTrajectory i t).x ∧ (out[k].state.simTrajectory i t).y = (scen.logTrajectory i t).y := by
  refine expert_keeps h hw hfit i (fun t x y _ => x = (scen.logTrajectory i t).x ∧ y = (scen.logTrajectory i t).y)
    (fun t => ⟨rfl, rfl⟩) hlv ?_ k hk t ht
  intro t t' cur htt hi hv ⟨hx, hy⟩ md
  obtain ⟨⟨lx, rx⟩, ly, ry⟩ := hlog t t' htt hi
  obtain ⟨ux, uy, -⟩ := delta_step P cur (fun j => scen.logTrajectory j t') md i hv (hlv t' (by omega))
  intro u
  rw [ux, uy, hx, hy]
  exact ⟨replayed_exact lx rx, replayed_exact ly ry⟩

/-- C133: the displacement between two numbers of the same sign that differ by at most a factor of two is a number of the format: an
object that stays on its side of both axes and never doubles or halves its distance to them within a step is replayed exactly. -/
theorem C133_displacement_exact {p q : Flt φ} (h : (p.val ≤ 2 * q.val ∧ q.val ≤ 2 * p.val) ∨ (2 * q.val ≤ p.val ∧ 2 * p.val ≤ q.val)) :
    φ.Rep (q.val - p.val) := by
  rcases h with ⟨h1, h2⟩ | ⟨h1, h2⟩
  · exact Format.sterbenz q.property p.property h1 h2
  · have := Format.sterbenz p.property.neg q.property.neg (by linarith) (by linarith)
    rwa [show -p.val - -q.val = q.val - p.val by ring] at this

end

/-- C133: the recorded velocity is the number of the format that is nearest to displacement over time step. -/
theorem C133_velocity (P : DeltaParamsFl φ) (a : Act (Delta3Fl φ)) (p : Pt (Flt φ)) (y : Flt φ) :
    |(deltaUpdateFl P a p).velX.val - a.data.dx.val / P.dt.val| ≤ |y.val - a.data.dx.val / P.dt.val| ∧
    |(deltaUpdateFl P a p).velY.val - a.data.dy.val / P.dt.val| ≤ |y.val - a.data.dy.val / P.dt.val| :=
  ⟨Format.fl_nearest y.property, Format.fl_nearest y.property⟩

/-- C133: an object stays valid exactly when it was valid and its action is, and the expert's action is valid exactly when the object
is recorded at both steps; an invalid expert action commands no displacement. -/
theorem C133_validity (P : DeltaParamsFl φ) (hx : 0 ≤ P.maxDx.val) (hy : 0 ≤ P.maxDy.val) :
    (∀ (a : Act (Delta3Fl φ)) (p : Pt (Flt φ)), (deltaUpdateFl P a p).valid = true ↔ p.valid = true ∧ a.valid = true) ∧
    ∀ {T : Nat} [NeZero T] (traj : Fin T → Pt (Flt φ)) {timestep : Int} {t t' : Fin T}, (t : Int) = timestep →
      (t' : Int) = timestep + 1 →
      ((deltaInverseFl P traj timestep).valid = true ↔ (traj t).valid = true ∧ (traj t').valid = true) ∧
      ((deltaInverseFl P traj timestep).valid = false → (deltaInverseFl P traj timestep).data.dx.val = 0 ∧
        (deltaInverseFl P traj timestep).data.dy.val = 0) := by
  refine ⟨fun a p => Bool.and_eq_true_iff, fun traj timestep t t' ht ht' => ?_⟩
  subst ht
  have hw := window2_eq traj (t := t) (t' := t') (by omega)
  constructor
  · show ((window2 traj (t : Nat)).1.valid && (window2 traj (t : Nat)).2.valid) = true ↔ _
    rw [hw, Bool.and_eq_true_iff]
  · intro hv
    have hv' : ((window2 traj (t : Nat)).1.valid && (window2 traj (t : Nat)).2.valid) = false := hv
    have hc : ∀ hi : Flt φ, 0 ≤ hi.val → (Flt.clip ⟨0, Format.Rep.zero⟩ hi.neg hi).val = 0 := fun hi h => by
      rw [clip_of_mem (by simpa using h)]
    unfold deltaInverseFl
    simp only [hv', Bool.false_eq_true, if_false, deltaClipFl]
    exact ⟨hc _ hx, hc _ hy⟩

/-- C133: the default time step of the model is the single precision number nearest to a tenth of a second (written as the fraction
that the hardware holds), it is also the time step of the environment, and displacements are limited to 6 m. -/
theorem C133_defaults : (DeltaParamsFl.default float32).dt.val = 13421773 * 2 ^ (-27 : ℤ) ∧
    (ScalarOps.dt : Flt float32) = (DeltaParamsFl.default float32).dt ∧
    (DeltaParamsFl.default float32).maxDx.val = 6 ∧ (DeltaParamsFl.default float32).maxDy.val = 6 := by
  have h6 : float32.fl 6 = 6 := Format.fl_of_rep ⟨6, 0, by decide, by decide, by norm_num⟩
  refine ⟨?_, rfl, h6, h6⟩
  have h64 : float64.fl 0.1 = 7205759403792794 * 2 ^ (-56 : ℤ) := by
    rw [Format.fl_eq (e := -56) (by rw [abs_of_pos (by norm_num)]; norm_num [float64])
      (by rw [abs_of_pos (by norm_num)]; norm_num [float64]) (by decide)]
    have : rint (0.1 / 2 ^ (-56 : ℤ)) = 7205759403792794 := by
      apply rint_eq_of_abs_lt
      rw [abs_lt]
      norm_num
    rw [this]
    norm_num
  show float32.fl (float64.fl 0.1) = _
  rw [h64, Format.fl_eq (e := -27) (by rw [abs_of_pos (by norm_num)]; norm_num [float32])
    (by rw [abs_of_pos (by norm_num)]; norm_num [float32]) (by decide)]
  have : rint (7205759403792794 * 2 ^ (-56 : ℤ) / 2 ^ (-27 : ℤ)) = 13421773 := by
    apply rint_eq_of_abs_lt
    rw [abs_lt]
    norm_num
  rw [this]
  norm_num

/-- A number of the form `k / 4` in float32. -/
noncomputable def quarter (k : ℤ) (hk : |k| < 2 ^ 24 := by decide) : Flt float32 := ⟨k * 2 ^ (-2 : ℤ), k, -2, hk, by decide, rfl⟩

/-- A point at rest in float32. -/
noncomputable def quarterPt (x y yaw : Flt float32) : Pt (Flt float32) :=
  { x, y, z := quarter 0, velX := quarter 0, velY := quarter 0, yaw, valid := true, timestampMicros := 0, length := quarter 16,
    width := quarter 8, height := quarter 8 }

/-- One car that moves 1.25 m per step, from 1000 m to 1003.75 m, while its heading swings. -/
noncomputable def quarterScen : SimState (Flt float32) 1 4 :=
  { simTrajectory := fun _ _ => quarterPt (quarter 0) (quarter 0) (quarter 0)
    logTrajectory := fun _ t => quarterPt (![quarter 4000, quarter 4005, quarter 4010, quarter 4015] t) (quarter (-2000))
      (![quarter 12, quarter (-12), quarter 3, quarter 1] t)
    logTrafficLight := []
    objectMetadata := soloMeta
    timestep := 0
    sdcPaths := none
    roadgraphPoints := none }

theorem float32_six : (DeltaParamsFl.default float32).maxDx.val = 6 ∧ (DeltaParamsFl.default float32).maxDy.val = 6 := by
  have : float32.fl 6 = 6 := Format.fl_of_rep ⟨6, 0, by decide, by decide, by norm_num⟩
  exact ⟨this, this⟩

/-- Non-vacuity: this scenario meets the hypotheses of both theorems with the default parameters, the rollout exists, its positions are
exact and its headings are within 2 ^ -17 of the log up to full turns as long as they are below 8. -/
example : ∃ out,
    rollout (K := Nat) (P := Unit) (baseEnv (deltaGlobalFl (.default float32)) driveCfg (fun _ => .ok ()) (fun _ _ => .ok (0 : Int)))
      (expertActor (deltaGlobalFl (.default float32)) (fun s i => (s.objectMetadata i).isSdc)) (fun k => (k, k + 1)) () id quarterScen 0 3
        = .ok out ∧
    ∀ k (hk : k < out.length) (t : Fin 4), (t : Int) ≤ out[k].state.timestep →
      (out[k].state.simTrajectory 0 t).x = (quarterScen.logTrajectory 0 t).x ∧
      (out[k].state.simTrajectory 0 t).y = (quarterScen.logTrajectory 0 t).y ∧
      (|(out[k].state.simTrajectory 0 t).yaw.val| ≤ 8 → ∃ j : ℤ, |(out[k].state.simTrajectory 0 t).yaw.val -
        ((quarterScen.logTrajectory 0 t).yaw.val - j * (2 * (Flt.pi float32).val))| ≤ 2 ^ (-17 : ℤ)) := by
  obtain ⟨out, ho⟩ := C14_rollout_succeeds (K := Nat) (P := Unit)
    (baseEnv (deltaGlobalFl (.default float32)) driveCfg (fun _ => .ok ()) (fun _ _ => .ok (0 : Int)))
    (expertActor (deltaGlobalFl (.default float32)) (fun s i => (s.objectMetadata i).isSdc)) (fun k => (k, k + 1)) () id quarterScen 0
    (n := 3) (by decide) ⟨_, rfl⟩ (fun s a => step_exists _ _ s a (by decide)) (fun _ => ⟨_, rfl⟩) (fun _ _ => ⟨_, rfl⟩)
  refine ⟨out, ho, ?_⟩
  intro k hk t ht
  have he := C133_exact ho (by decide) (by decide) 0 (fun _ _ => rfl) (fun t t' htt _ => by
    rw [float32_six.1, float32_six.2]
    refine ⟨⟨?_, C133_displacement_exact ?_⟩, ?_, C133_displacement_exact ?_⟩
    · fin_cases t <;> fin_cases t' <;> simp at htt <;> norm_num [quarterScen, quarterPt, quarter, abs_of_pos]
    · left
      fin_cases t <;> fin_cases t' <;> simp at htt <;> norm_num [quarterScen, quarterPt, quarter]
    · norm_num [quarterScen, quarterPt]
    · right
      norm_num [quarterScen, quarterPt, quarter]) k hk t ht
  refine ⟨he.1, he.2, fun hy => ?_⟩
  obtain ⟨-, -, j, hj⟩ := C133_no_drift ho (by decide) (by decide) 0 (fun _ _ => rfl) (by rw [float32_six.1]; norm_num)
    (by rw [float32_six.2]; norm_num) (B := 2000) (fun t => by
      rw [float32_pi]
      refine ⟨?_, ?_, ?_⟩
      · fin_cases t <;> norm_num [quarterScen, quarterPt, quarter, abs_of_pos]
      · norm_num [quarterScen, quarterPt, quarter, abs_of_neg]
      · fin_cases t <;> norm_num [quarterScen, quarterPt, quarter, abs_of_pos, abs_of_neg]) (fun t t' htt _ => by
      rw [float32_six.1, float32_six.2]
      refine ⟨?_, ?_⟩
      · fin_cases t <;> fin_cases t' <;> simp at htt <;> norm_num [quarterScen, quarterPt, quarter, abs_of_pos, Format.u, float32]
      · norm_num [quarterScen, quarterPt, Format.u, float32]) k hk t ht
  refine ⟨j, hj.trans ?_⟩
  rw [float32_pi]
  norm_num [Format.u, float32] at hy ⊢
  linarith

/-- Replay is not exact in general: from -1 to 2 ^ -30 the displacement is rounded to 1, and the object ends at 0. -/
example : ∃ cur next : Flt float32, |next.val - cur.val| ≤ 6 ∧ (replayed (Flt.round float32 6) cur next).val ≠ next.val := by
  have h6 : float32.fl 6 = 6 := Format.fl_of_rep ⟨6, 0, by decide, by decide, by norm_num⟩
  have h1 : float32.fl (2 ^ (-30 : ℤ) - (-1)) = 1 := by
    rw [Format.fl_eq (e := -23) (by rw [abs_of_pos (by norm_num)]; norm_num [float32])
      (by rw [abs_of_pos (by norm_num)]; norm_num [float32]) (by decide)]
    have : rint ((2 ^ (-30 : ℤ) - (-1)) / 2 ^ (-23 : ℤ)) = 2 ^ 23 := by
      apply rint_eq_of_abs_lt
      rw [abs_lt]
      norm_num
    rw [this]
    norm_num
  refine ⟨⟨-1, -1, 0, by decide, by decide, by norm_num⟩, tinyYaw, ?_, ?_⟩
  · rw [abs_le]
    norm_num [tinyYaw]
  · unfold replayed
    rw [clip_of_mem]
    · show float32.fl (-1 + float32.fl (2 ^ (-30 : ℤ) - (-1))) ≠ 2 ^ (-30 : ℤ)
      rw [h1, neg_add_cancel, Format.fl_zero]
      norm_num
    · show |float32.fl (2 ^ (-30 : ℤ) - (-1))| ≤ float32.fl 6
      rw [h1, h6]
      norm_num

example : (∀ (a : Act (Delta3Fl float32)) (p : Pt (Flt float32)),
    (deltaUpdateFl (.default float32) a p).valid = true ↔ p.valid = true ∧ a.valid = true) :=
  (C133_validity (.default float32) (by rw [C133_defaults.2.2.1]; norm_num) (by rw [C133_defaults.2.2.2]; norm_num)).1

end Waymax
