import Verif.Spec.OpenLoop
import Verif.Props.DiscreteReplay
import Verif.Lemmas.Float
import Verif.Examples
/-
C190: the labels that the inverse of a delta model infers from the log, executed without feedback.

Undiscretised labels reproduce the log. Discretised labels drift, by at most half a bin per step, and this is attained.
-/
namespace Waymax

open Real

section
variable {D : Type} {n T : Nat} [NeZero T]

/-- Invariant along an execution of labels. `C k` relates the simulated and the logged point after `k` labels. Objects that are
not controlled are at their logged pose; `hfree` is only asked for when the object is not controlled. -/
theorem label_run {C : Nat → Pt ℝ → Pt ℝ → Prop} {d : DynamicsModel ℝ D n} {cfg : EnvConfig} {scen s0 : SimState ℝ n T}
    {t : Nat} (hinit : cfg.initSteps = t + 1) (hreset : reset cfg scen = .ok s0) (i : Fin n)
    (hv : ∀ u : Fin T, t ≤ u.val → (scen.logTrajectory i u).valid = true)
    (h0 : ∀ u : Fin T, u.val = t → C 0 (scen.logTrajectory i u) (scen.logTrajectory i u))
    (hfree : (∃ (s : SimState ℝ n T) (m : Fin n → Bool), envControlMask cfg s = .ok m ∧ s.objectMetadata = scen.objectMetadata ∧ m i = false) →
      ∀ k p q, p.x = q.x → p.y = q.y → p.yaw = q.yaw → C k p q)
    (hstep : ∀ (k : Nat) (u u' : Fin T) (cur : Fin n → Pt ℝ) (p : Pt ℝ), u.val = t + k → u'.val = u.val + 1 →
      (cur i).valid = true → C k (cur i) (scen.logTrajectory i u) →
      let w := d.computeUpdate (d.inverse scen.logTrajectory scen.objectMetadata (u : Int)) cur i
      p.x = w.x → p.y = w.y → p.yaw = w.yaw → C (k + 1) p (scen.logTrajectory i u'))
    (m : Nat) {s : SimState ℝ n T} (hrun : stepMany d cfg s0 (logLabels d scen t m) = .ok s) (now : Fin T)
    (hnow : now.val = t + m) : C m (s.simTrajectory i now) (scen.logTrajectory i now) := by
  have hr := C01_reset_spec hreset
  suffices h : C m (s.simTrajectory i now) (scen.logTrajectory i now) ∧ (s.simTrajectory i now).valid = true from h.1
  induction m generalizing s now with
  | zero =>
    simp only [logLabels, List.range_zero, List.map_nil, stepMany, Except.ok.injEq] at hrun
    subst hrun
    rw [hr.2.1 i now (by omega)]
    exact ⟨h0 now (by omega), hv now (by omega)⟩
  | succ k ih =>
    have e : logLabels d scen t (k + 1) = logLabels d scen t k ++ [d.inverse scen.logTrajectory scen.objectMetadata ((t + k : Nat) : Int)] := by
      simp [logLabels, List.range_succ]
    rw [e] at hrun
    obtain ⟨s1, h1, h2⟩ := stepMany_append_ok hrun
    obtain ⟨s2, h3, h4⟩ := stepMany_cons_ok h2
    simp only [stepMany, Except.ok.injEq] at h4
    subst h4
    obtain ⟨mask, hm, rfl⟩ := step_ok h3
    have hsame := stepMany_same h1
    have hlog : s1.logTrajectory = scen.logTrajectory := hsame.log.trans hr.2.2.2.log
    have hmeta : s1.objectMetadata = scen.objectMetadata := hsame.objects.trans hr.2.2.2.objects
    have hts : s1.timestep = (t : Int) + k := by
      rw [stepMany_timestep h1, hr.1, hinit]
      simp [logLabels]
    have hlt := now.isLt
    obtain ⟨u, hu⟩ : ∃ u : Fin T, u.val = t + k := ⟨⟨t + k, by omega⟩, rfl⟩
    obtain ⟨ihc, ihv⟩ := ih h1 u hu
    have hu' : now.val = u.val + 1 := by omega
    have huI : ((t + k : Nat) : Int) = (u : Int) := by rw [hu]
    simp only
    rw [forward_apply d _ _ _ mask _ (t := u) (t' := now) (by rw [hts]; omega) (by rw [hts]; omega), if_pos rfl, hlog]
    refine ⟨?_, ?_⟩
    · cases hmi : mask i with
      | false => exact hfree ⟨s1, mask, hm, hmeta, hmi⟩ _ _ _ rfl rfl rfl
      | true =>
        rw [huI]
        exact hstep k u now (fun j => s1.simTrajectory j u) _ hu hu' ihv ihc rfl rfl rfl
    · simp only [updatedPt, nextValid, ihv, hv now (by omega)]
      cases mask i <;> cases cfg.allowNewObjectsAfterWarmup <;> rfl

end

/-- The labels of the log, undiscretised and within the bounds. -/
theorem global_label {n T : Nat} [NeZero T] {P : DeltaParams} {scen : SimState ℝ n T} {i : Fin n} {t : Nat}
    (hl : LogWithin scen i t P.maxDx P.maxDy) {u u' : Fin T} (hu : t ≤ u.val) (hu' : u'.val = u.val + 1) :
    (deltaGlobal P).inverse scen.logTrajectory scen.objectMetadata (u : Int) i =
      { data := { dx := (scen.logTrajectory i u').x - (scen.logTrajectory i u).x
                  dy := (scen.logTrajectory i u').y - (scen.logTrajectory i u).y
                  dyaw := wrapYaws ((scen.logTrajectory i u').yaw - (scen.logTrajectory i u).yaw) }, valid := true } := by
  obtain ⟨hx, hy⟩ := hl.moves u u' hu hu'
  change deltaGlobalInverse P (scen.logTrajectory i) _ = _
  unfold deltaGlobalInverse
  rw [window2_eq _ hu']
  simp only [hl.valid u hu, hl.valid u' (by omega), Bool.and_self, if_true, deltaClip, clip_id_abs hx, clip_id_abs hy]

theorem HeadingWithin.step {e e' a b c w : ℝ} (h : HeadingWithin e a b) (hw : |wrapYaws (c - b) - w| ≤ e') :
    HeadingWithin (e + e') (a + w) c := by
  obtain ⟨k, hk⟩ := h
  obtain ⟨j, hj⟩ := HeadingWithin.of_wrap hw
  refine ⟨k + j, ?_⟩
  push_cast
  rw [show a + w - c - (k + j) * (2 * π) = (a - b - k * (2 * π)) + (b + w - c - j * (2 * π)) by ring]
  exact (abs_add_le _ _).trans (add_le_add hk hj)

/-- C190: undiscretised labels within the bounds, executed without feedback, reproduce the logged poses. -/
theorem C190_labels_replay_log (P : DeltaParams) :
    LabelsReplay P.maxDx P.maxDy (fun n => deltaGlobal P (n := n)) fun _ => NearLog 0 0 0 := by
  intro n T _ cfg scen s0 s t m now i hinit hreset hrun hnow hl
  refine label_run (C := fun _ => NearLog 0 0 0) hinit hreset i hl.valid (fun u _ => ?_) (fun _ k p q ex ey ez => ?_) ?_ m hrun now hnow
  · exact ⟨by simp, by simp, 0, by simp⟩
  · exact ⟨by simp [ex], by simp [ey], 0, by simp [ez]⟩
  · intro k u u' cur p hu hu' hv hnear w hpx hpy hpz
    have hlab := global_label hl (by omega) hu'
    have ew : w = deltaGlobalUpdate P ((deltaGlobal P).inverse scen.logTrajectory scen.objectMetadata (u : Int) i) (cur i) := rfl
    rw [hlab] at ew
    obtain ⟨nx, ny, nz⟩ := hnear
    have zx := abs_eq_zero.1 (le_antisymm nx (abs_nonneg _))
    have zy := abs_eq_zero.1 (le_antisymm ny (abs_nonneg _))
    refine ⟨?_, ?_, ?_⟩
    · rw [hpx, ew]; simp only [deltaGlobalUpdate]
      rw [show (cur i).x + ((scen.logTrajectory i u').x - (scen.logTrajectory i u).x) - (scen.logTrajectory i u').x =
        (cur i).x - (scen.logTrajectory i u).x by ring, zx, abs_zero]
    · rw [hpy, ew]; simp only [deltaGlobalUpdate]
      rw [show (cur i).y + ((scen.logTrajectory i u').y - (scen.logTrajectory i u).y) - (scen.logTrajectory i u').y =
        (cur i).y - (scen.logTrajectory i u).y by ring, zy, abs_zero]
    · rw [hpz, ew]
      have := nz.step (w := wrapYaws ((scen.logTrajectory i u').yaw - (scen.logTrajectory i u).yaw)) (e' := 0)
        (c := (scen.logTrajectory i u').yaw) (by simp)
      rwa [add_zero] at this

/-- C190: discretised labels drift by at most half a bin per executed label, in every coordinate. Missing for the full
statement: a bound that does not grow. -/
theorem C190_drift_partial {P : DeltaParams} {bx by' byaw : ℕ} (h1 : 0 < P.maxDx) (h2 : 0 < P.maxDy) (h3 : π ≤ P.maxDyaw)
    (h4 : 1 ≤ bx) (h5 : 1 ≤ by') (h6 : 1 ≤ byaw) :
    LabelsReplay P.maxDx P.maxDy (fun n => discreteWrapper (deltaGlobal P (n := n)) deltaCodec (deltaDims P bx by' byaw))
      fun m => NearLog (m * (P.maxDx / bx)) (m * (P.maxDy / by')) (m * (P.maxDyaw / byaw)) := by
  have hpi := pi_pos
  have b1 : 0 ≤ P.maxDx / bx := by positivity
  have b2 : 0 ≤ P.maxDy / by' := by positivity
  have b3 : 0 ≤ P.maxDyaw / byaw := div_nonneg (by linarith) (by positivity)
  intro n T _ cfg scen s0 s t m now i hinit hreset hrun hnow hl
  refine label_run (C := fun m => NearLog (m * (P.maxDx / bx)) (m * (P.maxDy / by')) (m * (P.maxDyaw / byaw))) hinit hreset i
    hl.valid (fun u _ => ?_) (fun _ k p q ex ey ez => ?_) ?_ m hrun now hnow
  · exact ⟨by simp, by simp, 0, by simp⟩
  · refine ⟨?_, ?_, 0, ?_⟩
    · rw [ex, sub_self, abs_zero]; positivity
    · rw [ey, sub_self, abs_zero]; positivity
    · rw [ez]; simp only [sub_self, Int.cast_zero, zero_mul, abs_zero]; positivity
  · intro k u u' cur p hu hu' hv hnear w hpx hpy hpz
    have hlab := global_label hl (by omega) hu'
    obtain ⟨mx, my⟩ := hl.moves u u' (by omega) hu'
    have hr := C21_wrap_range ((scen.logTrajectory i u').yaw - (scen.logTrajectory i u).yaw)
    have hact := discrete_action (deltaGlobal P) h1 h2 h3 h4 h5 h6 scen.logTrajectory scen.objectMetadata (u : Int) i
      (by rw [hlab]; exact mx) (by rw [hlab]; exact my) (by rw [hlab]; exact abs_le.2 ⟨hr.1, hr.2.le⟩)
    dsimp only at hact
    rw [hlab] at hact
    dsimp only at hact
    obtain ⟨⟨-, cx⟩, ⟨-, cy⟩, cz⟩ := hact
    set v := deltaCodec.ofRow (makeContinuous (deltaDims P bx by' byaw)
      ((discreteWrapper (deltaGlobal P) deltaCodec (deltaDims P bx by' byaw)).inverse scen.logTrajectory scen.objectMetadata
        (u : Int) i).data) with hvdef
    have wx : w.x = (cur i).x + v.dx := rfl
    have wy : w.y = (cur i).y + v.dy := rfl
    have wz : w.yaw = (cur i).yaw + v.dyaw := rfl
    obtain ⟨nx, ny, nz⟩ := hnear
    have split : ∀ (b : ℝ), ((k + 1 : ℕ) : ℝ) * b = k * b + b := fun b => by push_cast; ring
    rw [split, split, split]
    refine ⟨?_, ?_, ?_⟩
    · rw [hpx, wx, show (cur i).x + v.dx - (scen.logTrajectory i u').x = ((cur i).x - (scen.logTrajectory i u).x) +
        -((scen.logTrajectory i u').x - (scen.logTrajectory i u).x - v.dx) by ring]
      refine (abs_add_le _ _).trans (add_le_add nx ?_)
      rw [abs_neg]; exact cx
    · rw [hpy, wy, show (cur i).y + v.dy - (scen.logTrajectory i u').y = ((cur i).y - (scen.logTrajectory i u).y) +
        -((scen.logTrajectory i u').y - (scen.logTrajectory i u).y - v.dy) by ring]
      refine (abs_add_le _ _).trans (add_le_add ny ?_)
      rw [abs_neg]; exact cy
    · rw [hpz, wz]
      exact nz.step cz

/-! ### The drift is attained -/

/-- A car that crawls along the x axis, half a metre per step. -/
noncomputable def crawlScen (m : Nat) : SimState ℝ 1 (m + 1) :=
  { simTrajectory := fun _ _ => ptAt 0 0 0 0 0
    logTrajectory := fun _ t => ptAt ((t : ℝ) / 2) 0 0 5 0
    logTrafficLight := []
    objectMetadata := soloMeta
    timestep := 0
    sdcPaths := none
    roadgraphPoints := none }

theorem crawl_within (m : Nat) : LogWithin (crawlScen m) 0 0 6 6 := by
  refine ⟨fun _ _ => rfl, fun u u' _ hu' => ⟨?_, ?_⟩⟩
  · simp only [crawlScen, ptAt, hu']
    push_cast
    rw [show ((u.val : ℝ) + 1) / 2 - (u.val : ℝ) / 2 = 1 / 2 by ring, abs_of_pos (by norm_num)]; norm_num
  · simp [crawlScen, ptAt]

/-- With bins of one metre, half a metre is rounded to nothing. -/
theorem crawl_label (m : Nat) {u : Fin (m + 1)} {u' : Fin (m + 1)} (hu' : u'.val = u.val + 1) :
    (deltaCodec.ofRow (makeContinuous (deltaDims {} 12 12 12)
      ((discreteWrapper (deltaGlobal {}) deltaCodec (deltaDims {} 12 12 12)).inverse (crawlScen m).logTrajectory
        (crawlScen m).objectMetadata (u : Int) 0).data)).dx = 0 := by
  obtain ⟨-, -, hk⟩ := C34_inverse_in_spec (deltaGlobal {}) deltaCodec (deltaDims {} 12 12 12) (fun a => rfl)
    (crawlScen m).logTrajectory (crawlScen m).objectMetadata (u : Int) 0
  have hlab := global_label (P := {}) (crawl_within m) (Nat.zero_le _) hu'
  have hd : ((deltaGlobal {}).inverse (crawlScen m).logTrajectory (crawlScen m).objectMetadata (u : Int) 0).data.dx = 1 / 2 := by
    rw [hlab]
    simp only [crawlScen, ptAt, hu']
    push_cast
    ring
  change (makeContinuous (deltaDims {} 12 12 12) _).getD 0 0 = 0
  rw [continuous_discretize hk]
  generalize (deltaGlobal {}).inverse (crawlScen m).logTrajectory (crawlScen m).objectMetadata (u : Int) 0 = act at hd hk ⊢
  change ((BinDim.index ⟨-6, 6, 12⟩ act.data.dx : ℤ) : ℝ) / BinDim.scale ⟨-6, 6, 12⟩ + -6 = 0
  have hs : BinDim.scale ⟨-6, 6, 12⟩ = 1 := by unfold BinDim.scale; norm_num
  have hi : BinDim.index ⟨-6, 6, 12⟩ act.data.dx = 6 := by
    unfold BinDim.index
    rw [hd, hs, show max (min ((1 / 2 - (-6 : ℝ)) * 1) ((12 : ℕ) : ℝ)) 0 = ((6 : ℤ) : ℝ) + 1 / 2 by norm_num, Format.rint_half]
    norm_num
  rw [hi, hs]
  norm_num

/-- C190: the drift bound is attained: for every number of labels there is a scenario within the bounds in which the executed
labels leave the car behind its log by half a bin per label. -/
theorem C190_drift_attained (m : Nat) : ∃ s0 s : SimState ℝ 1 (m + 1),
    reset driveCfg (crawlScen m) = .ok s0 ∧
    stepMany (discreteWrapper (deltaGlobal {}) deltaCodec (deltaDims {} 12 12 12)) driveCfg s0
      (logLabels (discreteWrapper (deltaGlobal {}) deltaCodec (deltaDims {} 12 12 12)) (crawlScen m) 0 m) = .ok s ∧
    ((crawlScen m).logTrajectory 0 (Fin.last m)).x - (s.simTrajectory 0 (Fin.last m)).x = m * (6 / (12 : ℕ)) := by
  obtain ⟨s0, h0⟩ : ∃ s0, reset driveCfg (crawlScen m) = .ok s0 := by
    rw [reset_eq, if_pos (by rfl), if_pos (by simp [driveCfg])]
    exact ⟨_, rfl⟩
  obtain ⟨s, hs⟩ := stepMany_exists (discreteWrapper (deltaGlobal {}) deltaCodec (deltaDims {} 12 12 12)) driveCfg s0
    (logLabels (discreteWrapper (deltaGlobal {}) deltaCodec (deltaDims {} 12 12 12)) (crawlScen m) 0 m) (by decide)
  refine ⟨s0, s, h0, hs, ?_⟩
  have key := label_run (C := fun _ p _ => p.x = 0) (t := 0) rfl h0 0 (crawl_within m).valid ?_ ?_ ?_ m hs (Fin.last m) (by simp)
  · have key : (s.simTrajectory 0 (Fin.last m)).x = 0 := key
    rw [key]
    simp only [crawlScen, ptAt, Fin.val_last]
    push_cast
    ring
  · intro u hu
    simp [crawlScen, ptAt, hu]
  · rintro ⟨s, mask, hm, hmeta, hf⟩
    exfalso
    have e : envControlMask driveCfg s = .ok fun i => (s.objectMetadata i).isSdc := rfl
    rw [e, Except.ok.injEq] at hm
    rw [← hm, hmeta] at hf
    exact absurd hf (by simp [crawlScen, soloMeta])
  · intro k u u' cur p hu hu' hv hc w hpx hpy hpz
    have wx : w.x = (cur 0).x + (deltaCodec.ofRow (makeContinuous (deltaDims {} 12 12 12)
      ((discreteWrapper (deltaGlobal {}) deltaCodec (deltaDims {} 12 12 12)).inverse (crawlScen m).logTrajectory
        (crawlScen m).objectMetadata (u : Int) 0).data)).dx := rfl
    rw [crawl_label m hu', hc] at wx
    rw [hpx, wx, add_zero]

/-- C190, the full expectation: executed discretised labels stay within half a bin of the log. -/
def LabelsStayNear (P : DeltaParams) (bx by' byaw : ℕ) : Prop :=
  LabelsReplay P.maxDx P.maxDy (fun n => discreteWrapper (deltaGlobal P (n := n)) deltaCodec (deltaDims P bx by' byaw))
    fun _ => NearLog (P.maxDx / bx) (P.maxDy / by') (P.maxDyaw / byaw)

/-- C190 is violated: the crawling car is a metre behind after two labels. -/
theorem C190_violated : ¬ LabelsStayNear {} 12 12 12 := by
  intro h
  obtain ⟨s0, s, h0, hs, hd⟩ := C190_drift_attained 2
  have := (h 1 3 driveCfg (crawlScen 2) s0 s 0 2 (Fin.last 2) 0 rfl h0 hs rfl (crawl_within 2)).1
  rw [abs_sub_comm, hd] at this
  norm_num at this

/-- Non-vacuity of `C190_labels_replay_log` and `C190_drift_partial`: the crawl meets the hypotheses for every length. -/
example (m : Nat) : ∃ s0 s : SimState ℝ 1 (m + 1), reset driveCfg (crawlScen m) = .ok s0 ∧
    stepMany (deltaGlobal {}) driveCfg s0 (logLabels (deltaGlobal {}) (crawlScen m) 0 m) = .ok s ∧
    (s.simTrajectory 0 (Fin.last m)).x = (m : ℝ) / 2 := by
  obtain ⟨s0, -, h0, -⟩ := C190_drift_attained m
  obtain ⟨s, hs⟩ := stepMany_exists (deltaGlobal {}) driveCfg s0 (logLabels (deltaGlobal {}) (crawlScen m) 0 m) (by decide)
  refine ⟨s0, s, h0, hs, ?_⟩
  have := (C190_labels_replay_log {} 1 (m + 1) driveCfg (crawlScen m) s0 s 0 m (Fin.last m) 0 rfl h0 hs (by simp) (crawl_within m)).1
  have := abs_eq_zero.1 (le_antisymm this (abs_nonneg _))
  simp only [crawlScen, ptAt, Fin.val_last] at this
  linarith

end Waymax
